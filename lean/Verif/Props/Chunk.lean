import Verif.Model.Chunk
import Verif.Props.Split
import Verif.Props.Lut

/-!
# Properties of the reader without the lookup table (mimic_lma.py): C65, C86-C88
-/

namespace Verif.Props

open Verif.Py Verif.Model Verif.Spec Verif.Proofs

/-! ## C86: every event is passed on once -/

/-- Time `t` in seconds after the base date. -/
def seconds (base : Option Int) (t : Int) : Option Rat := base.map fun b => ((t - b : Int) : Rat) / 1000000000

/-- When a row begins: the first of its time variables in the file, in nanoseconds. -/
def beginsAt (r : Row GVal) : Int := r.val.times.getD 0 0

/-- When a flash ends: the second of its time variables in the file, in nanoseconds. -/
def endsAt (r : Row GVal) : Int := r.val.times.getD 1 0

/-- The child point describes event `e` and refers to the parent with id `i`. -/
structure ChildOf (base : Option Int) (i : Int) (e : Row GVal) (p : ChildRow) : Prop where
  id : p.flashId = i
  lon : p.lon = e.val.lon
  lat : p.lat = e.val.lat
  power : p.power = e.val.energy
  time : p.time = seconds base (beginsAt e)
  alt : p.alt = 0

/-- The parent row describes `r`, which has the given area and ends at the given time. -/
structure ParentOf (base : Option Int) (area : Row GVal → Rat) (tEnd : Row GVal → Int) (r : Row GVal)
    (p : ParentRow) : Prop where
  id : p.flashId = r.id
  area : p.area = area r
  energy : p.totalEnergy = r.val.energy
  ctrLon : p.ctrLon = r.val.lon
  ctrLat : p.ctrLat = r.val.lat
  initLon : p.initLon = r.val.lon
  initLat : p.initLat = r.val.lat
  start : p.start = seconds base (beginsAt r)
  duration : ∀ b, base = some b → p.duration = some (((tEnd r - beginsAt r : Int) : Rat) / 1000000000)
  alt : p.ctrAlt = 0 ∧ p.initAlt = 0 ∧ p.specificEnergy = 0

/-- Every child refers to a parent of the same chunk, and every parent has a child. -/
def Linked2 (l : List ChildRow × List ParentRow) : Prop :=
  (∀ c ∈ l.1, ∃ p ∈ l.2, p.flashId = c.flashId) ∧ ∀ p ∈ l.2, ∃ c ∈ l.1, c.flashId = p.flashId

theorem forall₂_zipIdx {α β : Type} {R : α → β → Prop} {f : α × Nat → β} (h : ∀ a k, R a (f (a, k)))
    (l : List α) : List.Forall₂ R l (l.zipIdx.map f) := by
  suffices ∀ n, List.Forall₂ R l ((l.zipIdx n).map f) from this 0
  induction l with
  | nil => intro n; exact List.Forall₂.nil
  | cons a l ih =>
    intro n
    rw [List.zipIdx_cons, List.map_cons]
    exact List.Forall₂.cons (h a n) (ih (n + 1))

theorem fillColumn_self {β : Type} (l : List β) : fillColumn l.length l = .ok l := by
  simp [fillColumn]

/-- One level without splitting. -/
theorem fakeLmaLevel_plain (mem : Nat → ChildRow) (pmem : Nat → ParentRow) (d : GFile)
    (parents : List (Row GVal)) (area : Row GVal → Rat) (tEnd : Row GVal → Int)
    (childId : Row GVal → Int) (base : Option Int) (hp : parents ≠ []) :
    ∃ l, fakeLmaLevel mem pmem d parents area tEnd childId none none base = .ok l ∧
      List.Forall₂ (fun e p => ChildOf base (childId e) e p) d.events l.1 ∧
      List.Forall₂ (ParentOf base area tEnd) parents l.2 ∧
      List.Forall₂ (fun (_ : Row GVal) (p : ParentRow) => p.nPoints = toInt16 d.events.length) parents l.2 := by
  unfold fakeLmaLevel
  simp only [bind, Except.bind, pure, Except.pure]
  rw [if_neg (by simpa using hp), fillColumn_self]
  refine ⟨_, rfl, ?_, ?_, ?_⟩
  · exact forall₂_zipIdx (fun a k => ⟨rfl, rfl, rfl, rfl, rfl, rfl⟩) _
  · refine forall₂_zipIdx (fun a k => ⟨rfl, rfl, rfl, rfl, rfl, rfl, rfl, rfl, ?_, rfl, rfl, rfl⟩) _
    rintro b rfl
    rfl
  · exact forall₂_zipIdx (fun a k => rfl) _

/-- The points of a chunk that is not split. -/
def PlainChunk (base : Option Int) (d : GFile) (f : FakePoints) : Prop :=
  List.Forall₂ (fun e p => ChildOf base e.val.flashOf e p) d.events f.flash.1 ∧
  List.Forall₂ (fun e p => ChildOf base e.pid e p) d.events f.group.1 ∧
  List.Forall₂ (fun e p => ChildOf base e.id e p) d.events f.event.1 ∧
  List.Forall₂ (ParentOf base (fun r => r.val.area) endsAt) d.flashes f.flash.2 ∧
  List.Forall₂ (ParentOf base (fun r => r.val.area) beginsAt) d.groups f.group.2 ∧
  List.Forall₂ (ParentOf base (fun _ => 0) beginsAt) d.events f.event.2

/-- A chunk without splitting. -/
theorem mimic_plain (mem : Nat → ChildRow) (pmem : Nat → ParentRow) {d : GFile} (base : Option Int)
    (h : HasData d) :
    ∃ f, mimicLmaDataset mem pmem d base none none none = .ok f ∧
      PlainChunk base d f := by
  obtain ⟨h1, h2, h3⟩ := h
  obtain ⟨l1, a1, a2, a3, -⟩ := fakeLmaLevel_plain mem pmem d d.flashes (fun r => r.val.area) lastTime
    (fun e => e.val.flashOf) base h1
  obtain ⟨l2, b1, b2, b3, -⟩ := fakeLmaLevel_plain mem pmem d d.groups (fun r => r.val.area) firstTime
    Row.pid base h2
  obtain ⟨l3, c1, c2, c3, -⟩ := fakeLmaLevel_plain mem pmem d d.events (fun _ => 0) firstTime
    Row.id base h3
  refine ⟨⟨l1, l2, l3⟩, ?_, a2, b2, c2, a3, b3, c3⟩
  unfold mimicLmaDataset fakeLmaFlashes fakeLmaGroups fakeLmaEventLevel
  simp only [a1, b1, c1, bind, Except.bind, pure, Except.pure]

theorem linked2_of {d : GFile} {base : Option Int} {parents : List (Row GVal)} {area : Row GVal → Rat}
    {tEnd : Row GVal → Int} {childId : Row GVal → Int} {l : List ChildRow × List ParentRow}
    (h1 : List.Forall₂ (fun e p => ChildOf base (childId e) e p) d.events l.1)
    (h2 : List.Forall₂ (ParentOf base area tEnd) parents l.2)
    (hup : ∀ e ∈ d.events, ∃ r ∈ parents, r.id = childId e)
    (hdn : ∀ r ∈ parents, ∃ e ∈ d.events, childId e = r.id) : Linked2 l := by
  constructor
  · intro c hc
    obtain ⟨e, he, hce⟩ := mem_of_forall₂_right h1 hc
    obtain ⟨r, hr, hre⟩ := hup e he
    obtain ⟨p, hp, hpr⟩ := mem_of_forall₂_right h2.flip hr
    exact ⟨p, hp, by rw [hpr.id, hre, hce.id]⟩
  · intro p hp
    obtain ⟨r, hr, hpr⟩ := mem_of_forall₂_right h2 hp
    obtain ⟨e, he, her⟩ := hdn r hr
    obtain ⟨c, hc, hce⟩ := mem_of_forall₂_right h1.flip he
    exact ⟨c, hc, by rw [hce.id, her, hpr.id]⟩

theorem kept_concat (d : GFile) (cs : List (List Int)) :
    ((cs.map (keptFlashes d)).flatMap fun ch => ch.flashes) = (keptFlashes d cs.flatten).flashes ∧
    ((cs.map (keptFlashes d)).flatMap fun ch => ch.groups) = (keptFlashes d cs.flatten).groups ∧
    ((cs.map (keptFlashes d)).flatMap fun ch => ch.events) = (keptFlashes d cs.flatten).events := by
  induction cs with
  | nil => exact ⟨rfl, rfl, rfl⟩
  | cons a l ih =>
    obtain ⟨h1, h2, h3⟩ := ih
    rw [List.map_cons, List.flatMap_cons, List.flatMap_cons, List.flatMap_cons, h1, h2, h3,
      List.flatten_cons]
    refine ⟨?_, ?_, ?_⟩ <;>
      simp only [keptFlashes, rowsInOrder, childrenInOrder, List.flatMap_append, List.map_append]

theorem forall₂_flatMap {α β γ δ : Type} {P : α → β → Prop} {R : γ → δ → Prop} {l : List α} {m : List β}
    (h : List.Forall₂ P l m) (f : α → List γ) (g : β → List δ)
    (hfg : ∀ a ∈ l, ∀ b, P a b → List.Forall₂ R (f a) (g b)) :
    List.Forall₂ R (l.flatMap f) (m.flatMap g) := by
  induction h with
  | nil => exact List.Forall₂.nil
  | cons hab _ ih =>
    rw [List.flatMap_cons, List.flatMap_cons]
    exact List.rel_append (hfg _ (by simp) _ hab) (ih fun a ha => hfg a (by simp [ha]))

open scoped Classical in
/-- C86: `read_flashes` without clipping passes on every selected flash with its properties, every
group and every event of these flashes, and, at each of the three levels, every event of these
flashes exactly once as a point that refers to its flash, its group or to itself. -/
theorem C86_points (clip : Poly → Poly → List Poly) (query : List Pt → Pt → Nat → List Nat)
    (join : List Poly → List Poly) (quads : Rat → List Pt → List Poly)
    (mem : Nat → ChildRow) (pmem : Nat → ParentRow) {d : GFile} {order : List Int → List Int}
    (ho : ∀ l, (order l).Perm l) (c : Criteria) {n : Nat} (_hn : 0 < n) (fixedGrid : Bool) (base : Option Int)
    (h : HasData d) (hc : Consistent d) (hd : Derived d)
    (huf : UniqueIds d.flashes) (hug : UniqueIds d.groups) :
    ∃ res, readFlashesPoints clip query join quads mem pmem order d c n fixedGrid base = .ok res ∧
      (∃ fs : List (Row GVal), fs.Perm (askedFor d c) ∧
        List.Forall₂ (ParentOf base (fun r => r.val.area) endsAt) fs (res.flatMap fun p => p.flash.2)) ∧
      (∃ gs : List (Row GVal), gs.Perm (d.groups.filter fun g => ∃ f ∈ askedFor d c, f.id = g.pid) ∧
        List.Forall₂ (ParentOf base (fun r => r.val.area) beginsAt) gs (res.flatMap fun p => p.group.2)) ∧
      (∃ es : List (Row GVal), es.Perm
          (d.events.filter fun e => ∃ f ∈ askedFor d c, EventOfFlash d f.id e) ∧
        List.Forall₂ (ParentOf base (fun _ => 0) beginsAt) es (res.flatMap fun p => p.event.2) ∧
        List.Forall₂ (fun e p => ∃ i, EventOfFlash d i e ∧ ChildOf base i e p) es
          (res.flatMap fun p => p.flash.1) ∧
        List.Forall₂ (fun e p => ChildOf base e.pid e p) es (res.flatMap fun p => p.group.1) ∧
        List.Forall₂ (fun e p => ChildOf base e.id e p) es (res.flatMap fun p => p.event.1)) ∧
      ∀ p ∈ res, Linked2 p.flash ∧ Linked2 p.group ∧ Linked2 p.event := by
  obtain ⟨ids, hnd, hs, hp, -, hr, -⟩ := readFlashes_ids ho c (n := n) h hd huf hug
  have hroot : Rooted d := ⟨hc.groupHasFlash, hd.flashOf⟩
  set cs : List (List Int) := if ids = [] then [] else arraySplit ids (max (ids.length / n) 1) with hcs
  have hchunks : (if ids = [] then [] else (arraySplit ids (max (ids.length / n) 1)).map (keptFlashes d)) =
      cs.map (keptFlashes d) := by
    rw [hcs]; split <;> rfl
  have hfl : cs.flatten = ids := by
    rw [hcs]; split
    · rename_i he; rw [he]; rfl
    · exact arraySplit_flatten ids (by omega)
  have hne : ∀ cc ∈ cs, cc ≠ [] := by
    intro cc hcc
    rw [hcs] at hcc
    split at hcc
    · simp at hcc
    · rename_i he
      have hk0 : 0 < max (ids.length / n) 1 := by omega
      have hsz := arraySplit_sizes ids hk0 hcc
      have hpos := List.length_pos_iff.mpr he
      have : 0 < ids.length / max (ids.length / n) 1 := by
        apply Nat.div_pos _ hk0
        have := Nat.div_le_self ids.length n
        omega
      intro h0
      rw [h0] at hsz
      simp only [List.length_nil] at hsz
      omega
  have hin : ∀ cc ∈ cs, ∀ i ∈ cc, ∃ f ∈ d.flashes, f.id = i := fun cc hcc i hi =>
    hs i (by rw [← hfl]; exact List.mem_flatten.mpr ⟨cc, hcc, hi⟩)
  obtain ⟨res, h1, h2⟩ := mapM_ok_of_forall
    (f := readFlashChunk clip query join quads mem pmem d base fixedGrid none)
    (P := PlainChunk base) (l := cs.map (keptFlashes d)) (fun ch hch => by
      obtain ⟨cc, hcc, rfl⟩ := List.mem_map.mp hch
      exact mimic_plain mem pmem base (kept_hasData hc (hne cc hcc) (hin cc hcc)))
  have hmem : ∀ i, i ∈ ids ↔ ∃ f ∈ askedFor d c, f.id = i := by
    intro i
    rw [hp.mem_iff, List.mem_map]
  obtain ⟨k1, k2, k3⟩ := kept_concat d cs
  rw [hfl] at k1 k2 k3
  refine ⟨res, ?_, ⟨(cs.map (keptFlashes d)).flatMap fun ch => ch.flashes, ?_, ?_⟩,
    ⟨(cs.map (keptFlashes d)).flatMap fun ch => ch.groups, ?_, ?_⟩,
    ⟨(cs.map (keptFlashes d)).flatMap fun ch => ch.events, ?_, ?_, ?_, ?_, ?_⟩, ?_⟩
  · unfold readFlashesPoints
    rw [hr, hchunks]
    exact h1
  · rw [k1]
    refine (rowsInOrder_perm hnd _).trans ?_
    have hsub : ∀ f ∈ askedFor d c, f ∈ d.flashes := by
      intro f hf
      unfold askedFor at hf
      split at hf
      · exact hf
      · exact (List.mem_filter.mp hf).1
    have hu : (askedFor d c).Nodup := by
      unfold askedFor
      split
      · exact List.Nodup.of_map _ huf
      · exact (List.Nodup.of_map _ huf).filter _
    rw [List.perm_ext_iff_of_nodup ((List.Nodup.of_map _ huf).filter _) hu]
    intro f
    simp only [List.mem_filter, decide_eq_true_eq, hmem]
    constructor
    · rintro ⟨hf, g, hg, hgf⟩
      have : g = f := List.inj_on_of_nodup_map huf (hsub g hg) hf hgf
      exact this ▸ hg
    · intro hf
      exact ⟨hsub f hf, f, hf, rfl⟩
  · exact forall₂_flatMap h2 (fun ch => ch.flashes) _ fun _ _ _ hb => hb.2.2.2.1
  · rw [k2]
    refine (childrenInOrder_perm hnd _).trans (List.Perm.of_eq ?_)
    apply List.filter_congr
    intro g _
    rw [decide_eq_decide]
    exact hmem g.pid
  · exact forall₂_flatMap h2 (fun ch => ch.groups) _ fun _ _ _ hb => hb.2.2.2.2.1
  · rw [k3]
    refine (kept_events_perm hroot hug hnd).trans (List.Perm.of_eq ?_)
    apply List.filter_congr
    intro e he
    rw [decide_eq_decide, hmem]
    constructor
    · rintro ⟨f, hf, hf2⟩
      exact ⟨f, hf, by rw [hf2]; exact hd.flashOf e he⟩
    · rintro ⟨f, hf, hf2⟩
      exact ⟨f, hf, eventOfFlash_unique hug hf2 (hd.flashOf e he)⟩
  · exact forall₂_flatMap h2 (fun ch => ch.events) _ fun _ _ _ hb => hb.2.2.2.2.2
  · refine forall₂_flatMap h2 (fun ch => ch.events) _ fun ch hch _ hb => ?_
    obtain ⟨cc, hcc, rfl⟩ := List.mem_map.mp hch
    have hev : ∀ e ∈ (keptFlashes d cc).events, e ∈ d.events := fun e he =>
      (mem_childrenInOrder.mp he).1
    refine List.forall₂_iff_get.mpr ⟨hb.1.length_eq, fun i hi hi' => ?_⟩
    refine ⟨_, hd.flashOf _ (hev _ (List.getElem_mem hi)), (List.forall₂_iff_get.mp hb.1).2 i hi hi'⟩
  · exact forall₂_flatMap h2 (fun ch => ch.events) _ fun _ _ _ hb => hb.2.1
  · exact forall₂_flatMap h2 (fun ch => ch.events) _ fun _ _ _ hb => hb.2.2.1
  · intro p hpm
    obtain ⟨ch, hch, hb⟩ := mem_of_forall₂_right h2 hpm
    obtain ⟨cc, hcc, rfl⟩ := List.mem_map.mp hch
    have hk := kept_consistent hc cc
    have hkr : Rooted (keptFlashes d cc) := kept_rooted hroot cc hug
    refine ⟨linked2_of hb.1 hb.2.2.2.1 ?_ ?_, linked2_of hb.2.1 hb.2.2.2.2.1 hk.eventHasGroup hk.groupHasEvent,
      linked2_of hb.2.2.1 hb.2.2.2.2.2 (fun e he => ⟨e, he, rfl⟩) (fun e he => ⟨e, he, rfl⟩)⟩
    · intro e he
      obtain ⟨g, hg, hg1, hg2⟩ := hkr.flashOf e he
      obtain ⟨f, hf, hf2⟩ := hkr.groupHasFlash g hg
      exact ⟨f, hf, by rw [hf2, hg2]⟩
    · intro f hf
      obtain ⟨g, hg, hg2⟩ := hk.flashHasGroup f hf
      obtain ⟨e, he, he2⟩ := hk.groupHasEvent g hg
      have hug' := (kept_unique (d := d) (ids := cc) (by
        have := hnd
        rw [← hfl, List.nodup_flatten] at this
        exact this.1 cc hcc) huf hug).2
      refine ⟨e, he, ?_⟩
      exact (eventOfFlash_unique hug' (hkr.flashOf e he) ⟨g, hg, he2.symm, hg2⟩)

/-- C86: with targets, the targets receive what is returned without: no chunk is left out. -/
theorem C86_sent (clip : Poly → Poly → List Poly) (query : List Pt → Pt → Nat → List Nat)
    (join : List Poly → List Poly) (quads : Rat → List Pt → List Poly)
    (mem : Nat → ChildRow) (pmem : Nat → ParentRow) {d : GFile} {order : List Int → List Int}
    (ho : ∀ l, (order l).Perm l) (c : Criteria) {n : Nat} (hn : 0 < n) (fixedGrid : Bool) (base : Option Int)
    (h : HasData d) (hc : Consistent d) (hd : Derived d)
    (huf : UniqueIds d.flashes) (hug : UniqueIds d.groups) :
    readFlashesSent clip query join quads mem pmem order d c n fixedGrid base =
      readFlashesPoints clip query join quads mem pmem order d c n fixedGrid base := by
  obtain ⟨chunks, hr, -, hpos, -⟩ := C20_chunks ho c hn h hd huf hug
  obtain ⟨chunks', hr', -, -, hcons⟩ := C21_filter_iff_asked ho c hn h hc hd huf hug
  have : chunks' = chunks := by rw [hr] at hr'; injection hr' with hr'; exact hr'.symm
  subst this
  obtain ⟨res, hp, -⟩ := C86_points clip query join quads mem pmem ho c hn fixedGrid base h hc hd huf hug
  have hp' := hp
  simp only [readFlashesPoints, hr, bind, Except.bind] at hp'
  simp only [readFlashesSent, hp, hr, hp', bind, Except.bind, pure, Except.pure]
  congr 1
  have hall : ∀ p ∈ res, sentPoints p = some p := by
    intro p hpm
    have h2 := mapM_ok_forall₂ hp'
    obtain ⟨ch, hch, hb⟩ := mem_of_forall₂_right h2 hpm
    have hcon := (hcons ch hch).1
    obtain ⟨f, hf⟩ := List.exists_mem_of_length_pos (hpos ch hch).1
    obtain ⟨g, hg, -⟩ := hcon.flashHasGroup f hf
    obtain ⟨e, he, -⟩ := hcon.groupHasEvent g hg
    have hdat : HasData ch := ⟨List.ne_nil_of_mem hf, List.ne_nil_of_mem hg, List.ne_nil_of_mem he⟩
    obtain ⟨p', hp1, hp2⟩ := mimic_plain mem pmem base hdat
    have : p = p' := by
      have := hb.symm.trans (show readFlashChunk clip query join quads mem pmem d base fixedGrid none ch = _ from hp1)
      injection this
    subst this
    have hlen := hp2.1.length_eq
    have := List.length_pos_of_mem he
    rw [sentPoints, if_pos (by omega)]
  rw [List.filterMap_congr hall, List.filterMap_some]

/-- The hypotheses hold for the sample file, read in chunks of one flash. -/
example (clip : Poly → Poly → List Poly) (query : List Pt → Pt → Nat → List Nat)
    (join : List Poly → List Poly) (quads : Rat → List Pt → List Poly) (mem : Nat → ChildRow)
    (pmem : Nat → ParentRow) :
    ∃ res, readFlashesPoints clip query join quads mem pmem id openSample {} 1 false (some 0) = .ok res ∧
      res.length = 2 ∧ ((res.flatMap fun p => p.flash.1).map ChildRow.flashId) = [5, 5, 3, 3] ∧
      ((res.flatMap fun p => p.group.1).map ChildRow.flashId) = [11, 13, 12, 12] :=
  ⟨_, rfl, rfl, rfl, rfl⟩

example (clip : Poly → Poly → List Poly) (query : List Pt → Pt → Nat → List Nat)
    (join : List Poly → List Poly) (quads : Rat → List Pt → List Poly) (mem : Nat → ChildRow)
    (pmem : Nat → ParentRow) :=
  C86_points clip query join quads mem pmem (order := id) (fun l => List.Perm.refl l) {} (n := 1)
    (by decide) false (some 0) openSample_hyps.1 openSample_hyps.2.1 openSample_hyps.2.2.1
    openSample_hyps.2.2.2.1 openSample_hyps.2.2.2.2

/-- C86: the cell columns of these points are not set; they hold what was in memory. -/
theorem C86_cells_unset (mem mem' : Nat → ChildRow) (pmem : Nat → ParentRow) {d : GFile} (base : Option Int)
    (h : HasData d) (hm : ∀ k, (mem' k).meshXi ≠ (mem k).meshXi) :
    ∃ f f', mimicLmaDataset mem pmem d base none none none = .ok f ∧
      mimicLmaDataset mem' pmem d base none none none = .ok f' ∧ f.flash.1 ≠ f'.flash.1 := by
  obtain ⟨f, h1, -⟩ := mimic_plain mem pmem base h
  obtain ⟨f', h1', -⟩ := mimic_plain mem' pmem base h
  refine ⟨f, f', h1, h1', ?_⟩
  have key : ∀ mem f, mimicLmaDataset mem pmem d base none none none = .ok f →
      f.flash.1.head?.map ChildRow.meshXi = some (mem 0).meshXi := by
    intro mem f hf
    unfold mimicLmaDataset fakeLmaFlashes fakeLmaGroups fakeLmaEventLevel fakeLmaLevel at hf
    simp only [bind, Except.bind, pure, Except.pure] at hf
    rw [if_neg (by simpa using h.1), fillColumn_self, if_neg (by simpa using h.2.1),
      if_neg (by simpa using h.2.2)] at hf
    cases hf
    obtain ⟨e, es, he⟩ := List.exists_cons_of_ne_nil h.2.2
    rw [he]
    rfl
  intro he
  have a := key mem f h1
  have b := key mem' f' h1'
  rw [he, b] at a
  exact hm 0 (Option.some.inj a)

example (pmem : Nat → ParentRow) := C86_cells_unset (fun _ => ⟨0, 0, 0, 0, none, 0, 0, 0, 0⟩)
  (fun _ => ⟨0, 0, 0, 0, none, 0, 7, 0, 0⟩) pmem (some 0) openSample_hyps.1 (by simp)

/-! ## C87: energy of groups and flashes -/

/-- The share of the area of `p` that the clipper finds in the cells that are searched for it. -/
def coveredShare (clip : Poly → Poly → List Poly) (query : List Pt → Pt → Nat → List Nat) (m : Mesh)
    (bbox : BBoxArg) (p : Poly) : Rat :=
  match candidatesFor query m bbox p with
  | .ok c => ((c.quads.flatMap (clip p)).map fun s => |signedArea s|).sum / |signedArea p|
  | .error _ => 0

theorem block_sum (cell : Nat → Nat → Rat) (i : Int) (E : Rat) (g : Poly → Rat) :
    ∀ (polys : List Poly) (subs : List SubPolys) (ids : List Int),
    List.Forall₂ (fun p s => SubPolys.Aligned s ∧ s.fracs.sum = g p) polys subs →
    polys.length = ids.length →
    (((allPieceRows cell subs (polys.map fun p => |signedArea p|) ids).filter
        fun s => s.parent = i).map fun s => E * s.areaFraction).sum =
      E * (((polys.zip ids).filter fun q => q.2 = i).map fun q => g q.1).sum := by
  intro polys subs ids h
  induction h generalizing ids with
  | nil => intro _; simp [allPieceRows]
  | @cons p s polys subs hps _ ih =>
    intro hl
    cases ids with
    | nil => simp at hl
    | cons j ids =>
      have ih := ih ids (by simpa using hl)
      unfold allPieceRows at ih ⊢
      rw [List.map_cons, List.zip_cons_cons, List.zip_cons_cons, List.flatMap_cons, List.filter_append,
        List.map_append, List.sum_append, ih, List.zip_cons_cons, List.filter_cons]
      simp only
      by_cases hj : j = i
      · have h1 : ((SubPolys.rows s).map (pieceRow cell |signedArea p| j)).filter (fun s => s.parent = i) =
            (SubPolys.rows s).map (pieceRow cell |signedArea p| j) := by
          rw [List.filter_eq_self]
          intro r hr
          obtain ⟨row, -, rfl⟩ := List.mem_map.mp hr
          simp [pieceRow, hj]
        rw [h1, if_pos (by simpa using hj), List.map_cons, List.sum_cons, ← hps.2, ← rows_fracs hps.1,
          List.map_map, mul_add]
        congr 1
        exact sum_map_mul_left _ _ _
      · have h1 : ((SubPolys.rows s).map (pieceRow cell |signedArea p| j)).filter (fun s => s.parent = i) =
            [] := by
          rw [List.filter_eq_nil_iff]
          intro r hr
          obtain ⟨row, -, rfl⟩ := List.mem_map.mp hr
          simp [pieceRow, hj]
        rw [h1, if_neg (by simpa using hj)]
        simp

theorem zip_pick {P : Poly → SubPolys → Prop} {polys : List Poly} {subs : List SubPolys}
    (h : List.Forall₂ P polys subs) : ∀ (ids : List Int) {a : SubPolys × Rat × Int},
    a ∈ subs.zip ((polys.map fun p => |signedArea p|).zip ids) →
    ∃ q ∈ polys.zip ids, a.2.1 = |signedArea q.1| ∧ q.2 = a.2.2 ∧ P q.1 a.1 := by
  induction h with
  | nil => intro ids a ha; simp at ha
  | @cons p s polys subs hps _ ih =>
    intro ids a ha
    cases ids with
    | nil => simp at ha
    | cons i ids =>
      rw [List.map_cons, List.zip_cons_cons, List.zip_cons_cons] at ha
      rcases List.mem_cons.mp ha with rfl | ha
      · exact ⟨(p, i), by simp, rfl, rfl, hps⟩
      · obtain ⟨q, hq, k⟩ := ih ids ha
        exact ⟨q, by rw [List.zip_cons_cons]; exact List.mem_cons_of_mem _ hq, k⟩

theorem cellArea_pos {x y : List Rat} (hx : AxisOk x) (hy : AxisOk y) {r k : Nat} (hr : r + 1 < y.length)
    (hk : k + 1 < x.length) : 0 < cellArea x y r k := by
  unfold cellArea
  exact mul_pos (by linarith [getD_lt_of_lt hx.1 (Nat.lt_succ_self k) hk])
    (by linarith [getD_lt_of_lt hy.1 (Nat.lt_succ_self r) hr])

/-- What the row made from a piece of polygon `u` in a cell of the grid has to say, for the parent `r`. -/
structure PieceOf (clip : Poly → Poly → List Poly) (x y : List Rat) (u : Poly) (r : Row GVal)
    (o : SplitChild) : Prop where
  inGrid : o.row.meshX + 1 < y.length ∧ o.row.meshY + 1 < x.length
  parent : o.row.parent = r.id
  time : o.time = beginsAt r
  piece : ∃ s ∈ clip u (cellRect x y o.row.meshX o.row.meshY), (o.lon, o.lat) = meanPoint s ∧
    (signedArea u ≠ 0 → |o.row.meshFraction| = |signedArea s| / cellArea x y o.row.meshX o.row.meshY) ∧
    o.energy = r.val.energy * (|signedArea s| / |signedArea u|)

/-- Splitting one level: what the pieces are, and what their energies add up to. -/
theorem splitLevel_sums (clip : Poly → Poly → List Poly) (query : List Pt → Pt → Nat → List Nat)
    {x y : List Rat} (hx : AxisOk x) (hy : AxisOk y) {bbox : BBoxArg}
    (hb : (bbox = .none ∧ (2 < x.length ∨ 2 < y.length)) ∨ bbox = .true)
    (hclip : ∀ p q s, s ∈ clip p q → s ≠ []) {glm : GFile} (hglm : HasData glm)
    {above below : List (Level GVal)} {L : Level GVal} (ht : glm.levels = above ++ L :: below)
    (hu : UniqueIds L.rows) (polys : List Poly) (ids : List Int) (hne : ∀ p ∈ polys, p ≠ [])
    (hl : polys.length = ids.length) (hall : ∀ i ∈ ids, ∃ r ∈ L.rows, r.id = i) :
    ∃ out, splitLevel clip query (gridMesh x y) bbox glm L.evar polys ids = .ok out ∧
      (∀ o ∈ out, ∃ q ∈ polys.zip ids, ∃ r ∈ L.rows, r.id = q.2 ∧ PieceOf clip x y q.1 r o) ∧
      ∀ r ∈ L.rows, ((out.filter fun o => o.row.parent = r.id).map SplitChild.energy).sum =
        r.val.energy * (((polys.zip ids).filter fun q => q.2 = r.id).map fun q =>
          coveredShare clip query (gridMesh x y) bbox q.1).sum := by
  obtain ⟨subs, hs1, hs2⟩ := slice_ok polys hne hclip
    fun p hp => grid_candidates query hx hy hb p (hne p hp)
  obtain ⟨areas, ha, hcell⟩ := grid_areas hx hy
  have hlen : subs.length = polys.length := hs2.length_eq.symm
  have hsub : ∀ s ∈ subs, SubPolys.Aligned s ∧ ∀ ij ∈ s.xi.zip s.yi,
      ij.1 + 1 < y.length ∧ ij.2 + 1 < x.length := by
    intro s hs
    obtain ⟨p, -, hal, c, ⟨⟨w1, w2, w3, w4⟩, -⟩, hr⟩ := mem_of_forall₂_right hs2 hs
    refine ⟨hal, ?_⟩
    intro ij hij
    rw [← rows_cells hal] at hij
    obtain ⟨row, hrow, rfl⟩ := List.mem_map.mp hij
    rw [hr] at hrow
    obtain ⟨c', hc', -, -, hci⟩ := piecesIn_mem hrow
    rw [hci]
    exact w3 _ _ (List.of_mem_zip hc').2
  have hfr : List.Forall₂ (fun (p : Poly) (s : SubPolys) => SubPolys.Aligned s ∧ s.fracs.sum =
      coveredShare clip query (gridMesh x y) bbox p) polys subs := by
    refine hs2.imp ?_
    rintro p s ⟨hal, c, ⟨⟨w1, w2, w3, w4⟩, hcand⟩, hr⟩
    refine ⟨hal, ?_⟩
    rw [← rows_fracs hal, hr, piecesIn_fracs]
    · unfold coveredShare
      rw [hcand]
    · rw [w4, List.length_map]
  obtain ⟨props, hp1, hp2⟩ := C30_rows areas (cellArea x y) subs (polys.map fun p => |signedArea p|)
    ids (by simp [hlen]) (by simp [hl]) (fun s hs => (hsub s hs).1)
    (fun s hs ij hij => (hcell _ _ ((hsub s hs).2 ij hij).1 ((hsub s hs).2 ij hij).2).1)
  have hcells : ∀ s ∈ allPieceRows (cellArea x y) subs (polys.map fun p => |signedArea p|) ids,
      s.parent ∈ ids ∧ ∃ q ∈ polys.zip ids, q.2 = s.parent ∧ s.meshX + 1 < y.length ∧ s.meshY + 1 < x.length ∧
        ∃ t ∈ clip q.1 (cellRect x y s.meshX s.meshY), (s.x, s.y) = meanPoint t ∧
          (signedArea q.1 ≠ 0 → |s.meshFraction| = |signedArea t| / cellArea x y s.meshX s.meshY) ∧
          s.areaFraction = |signedArea t| / |signedArea q.1| := by
    intro s hs
    obtain ⟨a, ha, hs⟩ := List.mem_flatMap.mp hs
    obtain ⟨row, hrow, rfl⟩ := List.mem_map.mp hs
    obtain ⟨q, hq, e1, e2, hal, c, ⟨⟨w1, w2, w3, w4⟩, -⟩, hr⟩ := zip_pick hs2 ids ha
    rw [hr] at hrow
    obtain ⟨c', hc', hcl, hfr', hci⟩ := piecesIn_mem hrow
    have hzip : c.quads.zip (c.xi.zip c.yi) = (c.xi.zip c.yi).map fun rk => (cellRect x y rk.1 rk.2, rk) := by
      rw [w4]; exact zip_map_self _ _
    rw [hzip] at hc'
    obtain ⟨rk, hrk, rfl⟩ := List.mem_map.mp hc'
    have hin := w3 rk.1 rk.2 hrk
    have hpos : 0 < cellArea x y rk.1 rk.2 := cellArea_pos hx hy hin.1 hin.2
    refine ⟨(List.of_mem_zip (List.of_mem_zip ha).2).2, q, hq, e2, ?_⟩
    simp only [pieceRow, hci]
    refine ⟨hin.1, hin.2, row.1, hcl, rfl, ?_, hfr'⟩
    intro h0
    rw [hfr', e1, div_mul_cancel₀ _ (by simpa using h0), abs_div, abs_abs, abs_of_pos hpos]
  obtain ⟨rep, hr1, hr2⟩ := C30_levels (allPieceRows (cellArea x y) subs
    (polys.map fun p => |signedArea p|) ids) (levels_wf glm) ht (levels_noEmpty.mpr hglm) hu
    (fun s hs => hall _ (hcells s hs).1)
  refine ⟨rep.map fun o => ⟨o.1, o.1.x, o.1.y, firstTime o.2.1, o.2.2⟩, ?_, ?_, ?_⟩
  · unfold splitLevel
    simp only [hs1, ha, hp1, hp2, hr1, bind, Except.bind, pure, Except.pure]
  · intro o ho
    obtain ⟨q, hq, rfl⟩ := List.mem_map.mp ho
    obtain ⟨s, hs, e1, e2, e3, e4⟩ := mem_of_forall₂_right hr2 hq
    obtain ⟨-, q', hq', f1, f2, f3, t, f4, f5, f6, f7⟩ := hcells s hs
    refine ⟨q', hq', q.2.1, e2, by rw [e3, f1], ?_⟩
    refine ⟨by rw [e1]; exact ⟨f2, f3⟩, by rw [e1]; exact e3.symm, rfl, t, ?_, ?_, ?_, ?_⟩
    · simp only [e1]; exact f4
    · simp only [e1]; exact f5
    · simp only [e1]; exact f6
    · simp only [e4, f7]
  · intro r hr
    rw [← block_sum (cellArea x y) r.id r.val.energy _ polys subs ids hfr hl]
    clear hcells hr1 hp1 hp2
    generalize allPieceRows (cellArea x y) subs (polys.map fun p => |signedArea p|) ids = split at hr2
    induction hr2 with
    | nil => rfl
    | @cons s o ss os h _ ih =>
      obtain ⟨e1, e2, e3, e4⟩ := h
      rw [List.map_cons, List.filter_cons, List.filter_cons]
      simp only [e1]
      by_cases hp : s.parent = r.id
      · have : o.2.1 = r := List.inj_on_of_nodup_map hu e2 hr (by rw [e3, hp])
        rw [if_pos (by simpa using hp), if_pos (by simpa using hp), List.map_cons, List.map_cons,
          List.sum_cons, List.sum_cons, ih, e4, this]
      · rw [if_neg (by simpa using hp), if_neg (by simpa using hp), ih]

theorem zip_map_fst_snd {α β : Type} (l : List (α × β)) : (l.map Prod.fst).zip (l.map Prod.snd) = l := by
  induction l with
  | nil => rfl
  | cons a l ih => rw [List.map_cons, List.map_cons, List.zip_cons_cons, ih]

/-- The footprints of the events whose parent is `i`. -/
def footprintsOf (foot : List Poly) (parents : List Int) (i : Int) : List Poly :=
  ((foot.zip parents).filter fun q => q.2 = i).map Prod.fst

theorem unionPolys_zip (join : List Poly → List Poly) (polys : List Poly) (parents : List Int) :
    (unionPolys join polys parents).1.length = (unionPolys join polys parents).2.length ∧
    (∀ i ∈ (unionPolys join polys parents).2, i ∈ parents) ∧
    (∀ u ∈ (unionPolys join polys parents).1, ∃ ps, u ∈ join ps) ∧
    ∀ i ∈ parents, (((unionPolys join polys parents).1.zip (unionPolys join polys parents).2).filter
      fun q => q.2 = i).map Prod.fst = join (footprintsOf polys parents i) := by
  have hz : (unionPolys join polys parents).1.zip (unionPolys join polys parents).2 =
      (npUnique parents).flatMap fun i => (join (footprintsOf polys parents i)).map fun u => (u, i) := by
    unfold unionPolys footprintsOf
    exact zip_map_fst_snd _
  refine ⟨by simp [unionPolys], ?_, ?_, ?_⟩
  · intro i hi
    unfold unionPolys at hi
    obtain ⟨q, hq, rfl⟩ := List.mem_map.mp hi
    obtain ⟨j, hj, hq⟩ := List.mem_flatMap.mp hq
    obtain ⟨u, -, rfl⟩ := List.mem_map.mp hq
    exact mem_npUnique.mp hj
  · intro u hu
    unfold unionPolys at hu
    obtain ⟨q, hq, rfl⟩ := List.mem_map.mp hu
    obtain ⟨j, hj, hq⟩ := List.mem_flatMap.mp hq
    obtain ⟨u, hu', rfl⟩ := List.mem_map.mp hq
    exact ⟨_, hu'⟩
  · intro i hi
    have hb := filter_blocks (npUnique parents) id
      (fun i => (join (footprintsOf polys parents i)).map fun u => (u, i)) Prod.snd (by
        intro a _ b hb
        obtain ⟨u, -, rfl⟩ := List.mem_map.mp hb
        rfl) (by rw [List.map_id]; exact npUnique_nodup _) (mem_npUnique.mpr hi)
    rw [id] at hb
    rw [hz, hb, List.map_map]
    exact List.map_id _

/-- The child point says what `PieceOf` asks for. -/
structure ChildPiece (clip : Poly → Poly → List Poly) (x y : List Rat) (base : Option Int) (u : Poly)
    (r : Row GVal) (c : ChildRow) : Prop where
  inGrid : c.meshXi + 1 < y.length ∧ c.meshYi + 1 < x.length
  parent : c.flashId = r.id
  time : c.time = seconds base (beginsAt r)
  alt : c.alt = 0
  piece : ∃ s ∈ clip u (cellRect x y c.meshXi c.meshYi), (c.lon, c.lat) = meanPoint s ∧
    (signedArea u ≠ 0 → c.meshFrac = |signedArea s| / cellArea x y c.meshXi c.meshYi) ∧
    c.power = r.val.energy * (|signedArea s| / |signedArea u|)

/-- The child made from a row of the split dataset. -/
def ChildFrom (base : Option Int) (s : SplitChild) (c : ChildRow) : Prop :=
  c.flashId = s.row.parent ∧ c.power = s.energy ∧ c.time = seconds base s.time ∧
  c.meshXi = s.row.meshX ∧ c.meshYi = s.row.meshY ∧ c.lon = s.lon ∧ c.lat = s.lat ∧ c.alt = 0 ∧
  c.meshFrac = |s.row.meshFraction|

theorem childPiece_of {clip : Poly → Poly → List Poly} {x y : List Rat} {base : Option Int} {u : Poly}
    {r : Row GVal} {o : SplitChild} {c : ChildRow} (h : PieceOf clip x y u r o) (hc : ChildFrom base o c) :
    ChildPiece clip x y base u r c := by
  obtain ⟨c1, c2, c3, c4, c5, c6, c7, c8, c9⟩ := hc
  obtain ⟨s, hs, p1, p2, p3⟩ := h.piece
  refine ⟨by rw [c4, c5]; exact h.inGrid, by rw [c1, h.parent], by rw [c3, h.time], c8, s, ?_, ?_, ?_, ?_⟩
  · rw [c4, c5]; exact hs
  · rw [c6, c7]; exact p1
  · rw [c9, c4, c5]; exact p2
  · rw [c2]; exact p3

/-- One level with splitting: the children are the pieces. -/
theorem fakeLmaLevel_split (mem : Nat → ChildRow) (pmem : Nat → ParentRow) (d : GFile)
    (parents : List (Row GVal)) (area : Row GVal → Rat) (tEnd : Row GVal → Int)
    (childId : Row GVal → Int) (base : Option Int) (hp : parents ≠ []) (ev own : List SplitChild) :
    ∃ l, fakeLmaLevel mem pmem d parents area tEnd childId (some ev) (some own) base = .ok l ∧
      List.Forall₂ (ChildFrom base) own l.1 ∧
      List.Forall₂ (ParentOf base area tEnd) parents l.2 := by
  unfold fakeLmaLevel
  simp only [bind, Except.bind, pure, Except.pure]
  rw [if_neg (by simpa using hp), fillColumn_self]
  refine ⟨_, rfl, ?_, ?_⟩
  · exact forall₂_zipIdx (fun a k => ⟨rfl, rfl, rfl, rfl, rfl, rfl, rfl, rfl, rfl⟩) _
  · refine forall₂_zipIdx (fun a k => ⟨rfl, rfl, rfl, rfl, rfl, rfl, rfl, rfl, ?_, rfl, rfl, rfl⟩) _
    rintro b rfl
    rfl

/-- The energy that the points of one level give to the parent `i`. -/
def energyGiven (l : List ChildRow × List ParentRow) (i : Int) : Rat :=
  ((l.1.filter fun c => c.flashId = i).map ChildRow.power).sum

theorem energyGiven_eq {own : List SplitChild} {l : List ChildRow × List ParentRow} {base : Option Int}
    (h : List.Forall₂ (ChildFrom base) own l.1) (i : Int) :
    energyGiven l i = ((own.filter fun o => o.row.parent = i).map SplitChild.energy).sum := by
  unfold energyGiven
  obtain ⟨cs, ps⟩ := l
  simp only at h ⊢
  induction h with
  | nil => rfl
  | cons hsc _ ih =>
    rw [List.filter_cons, List.filter_cons, hsc.1]
    split
    · rw [List.map_cons, List.map_cons, List.sum_cons, List.sum_cons, ih, hsc.2.1]
    · exact ih

/-- What a caller has to provide so that a chunk `d` of the file `glm` can be split. -/
structure SplitInput (clip : Poly → Poly → List Poly) (join : List Poly → List Poly)
    (quads : Rat → List Pt → List Poly) (x y : List Rat) (glm d : GFile) : Prop where
  xAxis : AxisOk x
  yAxis : AxisOk y
  size : 2 < x.length ∨ 2 < y.length
  pieces : ∀ p q s, s ∈ clip p q → s ≠ []
  foot : ∀ s pts, (quads s pts).length = pts.length ∧ ∀ p ∈ quads s pts, p ≠ []
  unions : ∀ ps, ∀ u ∈ join ps, u ≠ []
  data : HasData glm
  chunk : HasData d
  flashes : UniqueIds glm.flashes
  groups : UniqueIds glm.groups
  events : UniqueIds glm.events
  eventsIn : ∀ e ∈ d.events, ∃ r ∈ glm.events, r.id = e.id
  groupsIn : ∀ e ∈ d.events, ∃ r ∈ glm.groups, r.id = e.pid
  flashesIn : ∀ e ∈ d.events, ∃ r ∈ glm.flashes, r.id = e.val.flashOf

/-- The positions of the events. -/
def eventPlaces (d : GFile) : List Pt := d.events.map fun e => (e.val.lon, e.val.lat)

/-- The outline of the events of one parent: the polygons of the union of their footprints. -/
def outline (join : List Poly → List Poly) (quads : Rat → List Pt → List Poly) (d : GFile)
    (parentOf : Row GVal → Int) (i : Int) : List Poly :=
  join (footprintsOf (quads (102 / 100) (eventPlaces d)) (d.events.map parentOf) i)

/-- C87: splitting succeeds, and the points of a flash or group carry its energy once for every
polygon of its outline, times the share of that polygon that was found. -/
theorem C87_exact (clip : Poly → Poly → List Poly) (query : List Pt → Pt → Nat → List Nat)
    (join : List Poly → List Poly) (quads : Rat → List Pt → List Poly)
    (mem : Nat → ChildRow) (pmem : Nat → ParentRow) (base : Option Int) {x y : List Rat} {glm d : GFile}
    (h : SplitInput clip join quads x y glm d) :
    ∃ out, readFlashChunk clip query join quads mem pmem glm base false (some (gridMesh x y)) d = .ok out ∧
      (∀ f ∈ glm.flashes, f.id ∈ d.events.map (fun e => e.val.flashOf) →
        energyGiven out.flash f.id = f.val.energy *
          ((outline join quads d (fun e => e.val.flashOf) f.id).map
            (coveredShare clip query (gridMesh x y) .true)).sum) ∧
      (∀ g ∈ glm.groups, g.id ∈ d.events.map Row.pid →
        energyGiven out.group g.id = g.val.energy *
          ((outline join quads d Row.pid g.id).map (coveredShare clip query (gridMesh x y) .true)).sum) ∧
      (∀ e ∈ glm.events, energyGiven out.event e.id = e.val.energy * ((footprintsOf (quads 1 (eventPlaces d))
          (d.events.map Row.id) e.id).map (coveredShare clip query (gridMesh x y) .none)).sum) ∧
      List.Forall₂ (ParentOf base (fun r => r.val.area) endsAt) d.flashes out.flash.2 ∧
      List.Forall₂ (ParentOf base (fun r => r.val.area) beginsAt) d.groups out.group.2 ∧
      List.Forall₂ (ParentOf base (fun _ => 0) beginsAt) d.events out.event.2 ∧
      (∀ c ∈ out.flash.1, ∃ f ∈ glm.flashes, ∃ u ∈ outline join quads d (fun e => e.val.flashOf) f.id,
        ChildPiece clip x y base u f c) ∧
      (∀ c ∈ out.group.1, ∃ g ∈ glm.groups, ∃ u ∈ outline join quads d Row.pid g.id,
        ChildPiece clip x y base u g c) ∧
      ∀ c ∈ out.event.1, ∃ e ∈ glm.events,
        ∃ u ∈ footprintsOf (quads 1 (eventPlaces d)) (d.events.map Row.id) e.id,
          ChildPiece clip x y base u e c := by
  obtain ⟨f1, f2⟩ := h.foot 1 (eventPlaces d)
  obtain ⟨g1, g2⟩ := h.foot (102 / 100) (eventPlaces d)
  obtain ⟨ev, e1, e2, e3⟩ := splitLevel_sums clip query h.xAxis h.yAxis (bbox := .none)
    (Or.inl ⟨rfl, h.size⟩) h.pieces h.data (above := [⟨"flash_id", none, glm.flashes⟩,
      ⟨"group_id", some "group_parent_flash_id", glm.groups⟩]) (below := [])
    (L := ⟨"event_id", some "event_parent_group_id", glm.events⟩) rfl h.events
    (quads 1 (eventPlaces d)) (d.events.map Row.id) f2 (by rw [f1]; simp [eventPlaces])
    (by intro i hi; obtain ⟨e, he, rfl⟩ := List.mem_map.mp hi; exact h.eventsIn e he)
  obtain ⟨a1, a2, a3, a4⟩ := unionPolys_zip join (quads (102 / 100) (eventPlaces d)) (d.events.map Row.pid)
  obtain ⟨gr, r1, r2, r3⟩ := splitLevel_sums clip query h.xAxis h.yAxis (bbox := .true)
    (Or.inr rfl) h.pieces h.data (above := [⟨"flash_id", none, glm.flashes⟩])
    (below := [⟨"event_id", some "event_parent_group_id", glm.events⟩])
    (L := ⟨"group_id", some "group_parent_flash_id", glm.groups⟩) rfl h.groups
    (unionPolys join (quads (102 / 100) (eventPlaces d)) (d.events.map Row.pid)).1 _
    (by intro u hu; obtain ⟨ps, hps⟩ := a3 u hu; exact h.unions ps u hps) a1
    (by intro i hi; obtain ⟨e, he, rfl⟩ := List.mem_map.mp (a2 i hi); exact h.groupsIn e he)
  obtain ⟨b1, b2, b3, b4⟩ := unionPolys_zip join (quads (102 / 100) (eventPlaces d))
    (d.events.map fun e => e.val.flashOf)
  obtain ⟨fl, s1, s2, s3⟩ := splitLevel_sums clip query h.xAxis h.yAxis (bbox := .true)
    (Or.inr rfl) h.pieces h.data (above := [])
    (below := [⟨"group_id", some "group_parent_flash_id", glm.groups⟩,
      ⟨"event_id", some "event_parent_group_id", glm.events⟩])
    (L := ⟨"flash_id", none, glm.flashes⟩) rfl h.flashes
    (unionPolys join (quads (102 / 100) (eventPlaces d)) (d.events.map fun e => e.val.flashOf)).1 _
    (by intro u hu; obtain ⟨ps, hps⟩ := b3 u hu; exact h.unions ps u hps) b1
    (by intro i hi; obtain ⟨e, he, rfl⟩ := List.mem_map.mp (b2 i hi); exact h.flashesIn e he)
  obtain ⟨l1, p1, p2, p3⟩ := fakeLmaLevel_split mem pmem d d.flashes (fun r => r.val.area) lastTime
    (fun e => e.val.flashOf) base h.chunk.1 ev fl
  obtain ⟨l2, q1, q2, q3⟩ := fakeLmaLevel_split mem pmem d d.groups (fun r => r.val.area) firstTime
    Row.pid base h.chunk.2.1 ev gr
  obtain ⟨l3, t1, t2, t3⟩ := fakeLmaLevel_split mem pmem d d.events (fun _ => 0) firstTime
    Row.id base h.chunk.2.2 ev ev
  have hshare : ∀ (bbox : BBoxArg) (l : List (Poly × Int)),
      (l.map fun q => coveredShare clip query (gridMesh x y) bbox q.1) =
        (l.map Prod.fst).map (coveredShare clip query (gridMesh x y) bbox) := by
    intro bbox l; rw [List.map_map]; rfl
  refine ⟨⟨l1, l2, l3⟩, ?_, ?_, ?_, ?_, p3, q3, t3, ?_, ?_, ?_⟩
  · unfold readFlashChunk
    have e1' := e1
    have r1' := r1
    have s1' := s1
    unfold eventPlaces at e1' r1' s1'
    simp only [Bool.false_eq_true, if_false, bind, Except.bind, e1', r1', s1']
    unfold mimicLmaDataset fakeLmaFlashes fakeLmaGroups fakeLmaEventLevel
    simp only [p1, q1, t1, bind, Except.bind, pure, Except.pure]
  · intro f hf hm
    rw [energyGiven_eq p2, s3 f hf, hshare, b4 _ hm]
    rfl
  · intro g hg hm
    rw [energyGiven_eq q2, r3 g hg, hshare, a4 _ hm]
    rfl
  · intro e he
    rw [energyGiven_eq t2, e3 e he, hshare]
    rfl
  · intro c hc
    obtain ⟨o, ho, k⟩ := mem_of_forall₂_right p2 hc
    obtain ⟨q, hq, f, hf, hid, hpo⟩ := s2 o ho
    refine ⟨f, hf, q.1, ?_, childPiece_of hpo k⟩
    unfold outline
    rw [hid, ← b4 q.2 (b2 _ (List.of_mem_zip hq).2)]
    exact List.mem_map.mpr ⟨q, List.mem_filter.mpr ⟨hq, by simp⟩, rfl⟩
  · intro c hc
    obtain ⟨o, ho, k⟩ := mem_of_forall₂_right q2 hc
    obtain ⟨q, hq, f, hf, hid, hpo⟩ := r2 o ho
    refine ⟨f, hf, q.1, ?_, childPiece_of hpo k⟩
    unfold outline
    rw [hid, ← a4 q.2 (a2 _ (List.of_mem_zip hq).2)]
    exact List.mem_map.mpr ⟨q, List.mem_filter.mpr ⟨hq, by simp⟩, rfl⟩
  · intro c hc
    obtain ⟨o, ho, k⟩ := mem_of_forall₂_right t2 hc
    obtain ⟨q, hq, f, hf, hid, hpo⟩ := e2 o ho
    refine ⟨f, hf, q.1, ?_, childPiece_of hpo k⟩
    unfold footprintsOf
    rw [hid]
    exact List.mem_map.mpr ⟨q, List.mem_filter.mpr ⟨hq, by simp⟩, rfl⟩

/-- The property: if nothing of the outline of a flash or group is lost, its points carry its energy. -/
def C87_full : Prop := ∀ (clip : Poly → Poly → List Poly) (query : List Pt → Pt → Nat → List Nat)
    (join : List Poly → List Poly) (quads : Rat → List Pt → List Poly)
    (mem : Nat → ChildRow) (pmem : Nat → ParentRow) (base : Option Int) (x y : List Rat) (glm d : GFile),
  SplitInput clip join quads x y glm d → (∀ ps, (∃ p ∈ ps, p ≠ []) → join ps ≠ []) →
  ∃ out, readFlashChunk clip query join quads mem pmem glm base false (some (gridMesh x y)) d = .ok out ∧
    (∀ f ∈ glm.flashes, (∃ e ∈ d.events, e.val.flashOf = f.id) →
      (∀ u ∈ outline join quads d (fun e => e.val.flashOf) f.id,
        coveredShare clip query (gridMesh x y) .true u = 1) →
      energyGiven out.flash f.id = f.val.energy) ∧
    (∀ g ∈ glm.groups, (∃ e ∈ d.events, e.pid = g.id) →
      (∀ u ∈ outline join quads d Row.pid g.id, coveredShare clip query (gridMesh x y) .true u = 1) →
      energyGiven out.group g.id = g.val.energy)

theorem map_eq_one {α : Type} {f : α → Rat} {l : List α} (h : ∀ u ∈ l, f u = 1) :
    (l.map f).sum = l.length := by
  induction l with
  | nil => rfl
  | cons a l ih =>
    rw [List.map_cons, List.sum_cons, h a (by simp), ih fun u hu => h u (by simp [hu]), List.length_cons]
    push_cast; ring

/-- C87: the energy is multiplied by the number of polygons in the outline. -/
theorem C87_count_partial (clip : Poly → Poly → List Poly) (query : List Pt → Pt → Nat → List Nat)
    (join : List Poly → List Poly) (quads : Rat → List Pt → List Poly)
    (mem : Nat → ChildRow) (pmem : Nat → ParentRow) (base : Option Int) {x y : List Rat} {glm d : GFile}
    (h : SplitInput clip join quads x y glm d) :
    ∃ out, readFlashChunk clip query join quads mem pmem glm base false (some (gridMesh x y)) d = .ok out ∧
      (∀ f ∈ glm.flashes, (∃ e ∈ d.events, e.val.flashOf = f.id) →
        (∀ u ∈ outline join quads d (fun e => e.val.flashOf) f.id,
          coveredShare clip query (gridMesh x y) .true u = 1) →
        energyGiven out.flash f.id =
          f.val.energy * (outline join quads d (fun e => e.val.flashOf) f.id).length) ∧
      (∀ g ∈ glm.groups, (∃ e ∈ d.events, e.pid = g.id) →
        (∀ u ∈ outline join quads d Row.pid g.id, coveredShare clip query (gridMesh x y) .true u = 1) →
        energyGiven out.group g.id = g.val.energy * (outline join quads d Row.pid g.id).length) := by
  obtain ⟨out, h1, h2, h3, -⟩ := C87_exact clip query join quads mem pmem base h
  refine ⟨out, h1, ?_, ?_⟩
  · rintro f hf ⟨e, he, hef⟩ hall
    rw [h2 f hf (List.mem_map.mpr ⟨e, he, hef⟩)]
    exact congrArg _ (map_eq_one hall)
  · rintro g hg ⟨e, he, heg⟩ hall
    rw [h3 g hg (List.mem_map.mpr ⟨e, he, heg⟩)]
    exact congrArg _ (map_eq_one hall)

/-- C87 for a flash or group whose outline is one polygon.  Missing: outlines of several polygons. -/
theorem C87_one_polygon_partial (clip : Poly → Poly → List Poly) (query : List Pt → Pt → Nat → List Nat)
    (join : List Poly → List Poly) (quads : Rat → List Pt → List Poly)
    (mem : Nat → ChildRow) (pmem : Nat → ParentRow) (base : Option Int) {x y : List Rat} {glm d : GFile}
    (h : SplitInput clip join quads x y glm d) :
    ∃ out, readFlashChunk clip query join quads mem pmem glm base false (some (gridMesh x y)) d = .ok out ∧
      (∀ f ∈ glm.flashes, (∃ e ∈ d.events, e.val.flashOf = f.id) →
        (∃ u, outline join quads d (fun e => e.val.flashOf) f.id = [u] ∧
          coveredShare clip query (gridMesh x y) .true u = 1) →
        energyGiven out.flash f.id = f.val.energy) ∧
      (∀ g ∈ glm.groups, (∃ e ∈ d.events, e.pid = g.id) →
        (∃ u, outline join quads d Row.pid g.id = [u] ∧
          coveredShare clip query (gridMesh x y) .true u = 1) →
        energyGiven out.group g.id = g.val.energy) := by
  obtain ⟨out, h1, h2, h3⟩ := C87_count_partial clip query join quads mem pmem base h
  refine ⟨out, h1, ?_, ?_⟩
  · rintro f hf he ⟨u, hu, hc⟩
    rw [h2 f hf he (by rw [hu]; simpa using hc), hu]
    simp
  · rintro g hg he ⟨u, hu, hc⟩
    rw [h3 g hg he (by rw [hu]; simpa using hc), hu]
    simp

theorem footprintsOf_unique : ∀ (foot : List Poly) (l : List (Row GVal)), foot.length = l.length →
    (l.map Row.id).Nodup → ∀ e ∈ l, ∃ p ∈ foot, footprintsOf foot (l.map Row.id) e.id = [p] := by
  intro foot l
  induction l generalizing foot with
  | nil => intro _ _ e he; simp at he
  | cons r l ih =>
    intro hl hn e he
    cases foot with
    | nil => simp at hl
    | cons p foot =>
      rw [List.map_cons, List.nodup_cons] at hn
      unfold footprintsOf at ih ⊢
      rw [List.map_cons, List.zip_cons_cons, List.filter_cons]
      rcases List.mem_cons.mp he with rfl | he
      · refine ⟨p, by simp, ?_⟩
        have hnil : (foot.zip (l.map Row.id)).filter (fun q => q.2 = e.id) = [] := by
          rw [List.filter_eq_nil_iff]
          intro q hq hqe
          exact hn.1 (by
            have := (List.of_mem_zip hq).2
            rwa [of_decide_eq_true hqe] at this)
        rw [if_pos (by simp), hnil]
        rfl
      · have hne : r.id ≠ e.id := by
          intro h
          exact hn.1 (h ▸ List.mem_map_of_mem he)
        rw [if_neg (by simpa using hne)]
        obtain ⟨p', hp', h⟩ := ih foot (by simpa using hl) hn.2 e he
        exact ⟨p', by simp [hp'], h⟩

/-- C87 at the event level: the points of an event carry its energy. -/
theorem C87_events_partial (clip : Poly → Poly → List Poly) (query : List Pt → Pt → Nat → List Nat)
    (join : List Poly → List Poly) (quads : Rat → List Pt → List Poly)
    (mem : Nat → ChildRow) (pmem : Nat → ParentRow) (base : Option Int) {x y : List Rat} {glm d : GFile}
    (h : SplitInput clip join quads x y glm d) (hu : UniqueIds d.events)
    (hc : ∀ p ∈ quads 1 (eventPlaces d), coveredShare clip query (gridMesh x y) .none p = 1) :
    ∃ out, readFlashChunk clip query join quads mem pmem glm base false (some (gridMesh x y)) d = .ok out ∧
      ∀ e ∈ glm.events, (∃ e' ∈ d.events, e'.id = e.id) → energyGiven out.event e.id = e.val.energy := by
  obtain ⟨out, h1, -, -, h4, -⟩ := C87_exact clip query join quads mem pmem base h
  refine ⟨out, h1, ?_⟩
  rintro e he ⟨e', he', hid⟩
  obtain ⟨p, hp, hf⟩ := footprintsOf_unique (quads 1 (eventPlaces d)) d.events
    (by rw [(h.foot 1 _).1]; simp [eventPlaces]) hu e' he'
  rw [h4 e he, ← hid, hf, List.map_singleton, List.sum_singleton, hc p hp, mul_one]

/-- A cell with a part in an interval meets it. -/
theorem overlap_meets {edge : List Rat} {a b : Rat} {k : Nat} (hk : k + 1 < edge.length)
    (ho : overlap a b (edge.getD k 0) (edge.getD (k + 1) 0) ≠ 0) : meets edge k a b := by
  have hlt : max a (edge.getD k 0) < min b (edge.getD (k + 1) 0) := by
    by_contra hn
    apply ho
    unfold overlap
    exact max_eq_left (by linarith)
  refine ⟨max a (edge.getD k 0), ⟨hk, le_max_right _ _, ?_⟩, le_max_left _ _, ?_⟩
  · exact hlt.le.trans (min_le_right _ _)
  · exact hlt.le.trans (min_le_left _ _)

/-- A rectangle inside of the grid is covered by the cells that its box selects. -/
theorem rect_covered_box (query : List Pt → Pt → Nat → List Nat) {x y : List Rat} {a b c d : Rat}
    (hx : AxisOk x) (hy : AxisOk y) (hab : a < b) (hcd : c < d)
    (hx0 : x.getD 0 0 < a) (hx1 : b ≤ x.getD (x.length - 1) 0)
    (hy0 : y.getD 0 0 < c) (hy1 : d ≤ y.getD (y.length - 1) 0) :
    coveredShare rectClip query (gridMesh x y) .true (rect a b c d) = 1 := by
  have hbox : polyBox (rect a b c d) = .ok ⟨a, b, c, d⟩ := by
    unfold polyBox rect
    simp only [List.map_cons, List.map_nil, List.foldl_cons, List.foldl_nil]
    simp [min_eq_left hab.le, max_eq_right hab.le, min_eq_left hcd.le, max_eq_right hcd.le,
      max_eq_left hab.le]
  obtain ⟨C, h1, ⟨w1, w2, w3, w4⟩, h4⟩ := C24_inside_partial x y ⟨a, b, c, d⟩ hx hy hab.le hcd.le
    hx0 hx1 hy0 hy1
  have hC : candidatesFor query (gridMesh x y) .true (rect a b c d) = .ok C := by
    unfold candidatesFor
    simp only [hbox, bind, Except.bind, h1]
  unfold coveredShare
  rw [hC]
  simp only
  have har : |signedArea (rect a b c d)| = (b - a) * (d - c) := by
    rw [rect_area, abs_of_pos (mul_pos (by linarith) (by linarith))]
  have hsum : ((C.quads.flatMap (rectClip (rect a b c d))).map fun s => |signedArea s|).sum =
      (b - a) * (d - c) := by
    rw [w4, List.flatMap_def, List.map_map, List.map_flatten, List.sum_flatten, List.map_map,
      List.map_map]
    have hcongr : ((C.xi.zip C.yi).map ((List.sum ∘ List.map fun s => |signedArea s|) ∘
        rectClip (rect a b c d) ∘ fun rk => cellRect x y rk.1 rk.2)) =
        (C.xi.zip C.yi).map fun rk => overlap c d (y.getD rk.1 0) (y.getD (rk.1 + 1) 0) *
          overlap a b (x.getD rk.2 0) (x.getD (rk.2 + 1) 0) := by
      apply List.map_congr_left
      intro rk _
      exact rectClip_area x y a b c d rk
    rw [hcongr, list_sum_finset w2]
    rw [Finset.sum_subset (s₂ := Finset.range (y.length - 1) ×ˢ Finset.range (x.length - 1))]
    · rw [Finset.sum_product]
      simp only [← Finset.mul_sum]
      rw [overlap_sum hx (le_of_lt hab) hx0.le hx1, ← Finset.sum_mul,
        overlap_sum hy (le_of_lt hcd) hy0.le hy1]
      ring
    · intro rk hrk
      rw [List.mem_toFinset] at hrk
      have := w3 rk.1 rk.2 hrk
      rw [Finset.mem_product, Finset.mem_range, Finset.mem_range]
      omega
    · intro rk hrk hn
      rw [Finset.mem_product, Finset.mem_range, Finset.mem_range] at hrk
      rw [List.mem_toFinset] at hn
      by_contra hne
      apply hn
      have hx' : overlap a b (x.getD rk.2 0) (x.getD (rk.2 + 1) 0) ≠ 0 := right_ne_zero_of_mul hne
      have hy' : overlap c d (y.getD rk.1 0) (y.getD (rk.1 + 1) 0) ≠ 0 := left_ne_zero_of_mul hne
      exact h4 rk.1 rk.2 (overlap_meets (by omega) hx') (overlap_meets (by omega) hy')
  rw [hsum, har, div_self]
  exact (mul_pos (by linarith) (by linarith)).ne'

/-! ### Sample -/

/-- Flash 5 has two events far from each other, flash 3 has one. -/
def apartSample : GFile where
  flashes := [⟨5, 0, { area := 100, energy := 9 }⟩, ⟨3, 0, { area := 60, energy := 5 }⟩]
  groups := [⟨11, 5, { energy := 9 }⟩, ⟨12, 3, { energy := 5 }⟩]
  events := [⟨100, 11, { lon := 3/2, lat := 3/2, energy := 2, flashOf := 5 }⟩,
    ⟨101, 11, { lon := 9/2, lat := 3/2, energy := 7, flashOf := 5 }⟩,
    ⟨102, 12, { lon := 3, lat := 7/2, energy := 5, flashOf := 3 }⟩]

/-- Square footprints. -/
def squareQuads (s : Rat) (pts : List Pt) : List Poly :=
  pts.map fun p => rect (p.1 - 3/4 * s) (p.1 + 3/4 * s) (p.2 - 3/4 * s) (p.2 + 3/4 * s)

/-- The footprints of `apartSample` are disjoint: their union consists of the footprints. -/
theorem apartSample_input : SplitInput rectClip (List.filter (· ≠ [])) squareQuads sampleX sampleY
    apartSample apartSample where
  xAxis := sample_axes.1
  yAxis := sample_axes.2.1
  size := Or.inl (by decide)
  pieces := rectClip_ne_nil
  foot := by
    intro s pts
    refine ⟨by simp [squareQuads], ?_⟩
    intro p hp
    obtain ⟨q, -, rfl⟩ := List.mem_map.mp hp
    simp [rect]
  unions := by
    intro ps u hu
    simpa using (List.mem_filter.mp hu).2
  data := by unfold HasData; decide
  chunk := by unfold HasData; decide
  flashes := by unfold UniqueIds; decide
  groups := by unfold UniqueIds; decide
  events := by unfold UniqueIds; decide
  eventsIn := by decide
  groupsIn := by decide
  flashesIn := by decide

theorem apart_outline : outline (List.filter (· ≠ [])) squareQuads apartSample (fun e => e.val.flashOf) 5 =
      [rect (147/200) (453/200) (147/200) (453/200), rect (747/200) (1053/200) (147/200) (453/200)] ∧
    outline (List.filter (· ≠ [])) squareQuads apartSample (fun e => e.val.flashOf) 3 =
      [rect (447/200) (753/200) (547/200) (853/200)] := by
  decide +kernel

theorem apart_covered (query : List Pt → Pt → Nat → List Nat) :
    (∀ u ∈ outline (List.filter (· ≠ [])) squareQuads apartSample (fun e => e.val.flashOf) 5,
      coveredShare rectClip query (gridMesh sampleX sampleY) .true u = 1) ∧
    ∀ u ∈ outline (List.filter (· ≠ [])) squareQuads apartSample (fun e => e.val.flashOf) 3,
      coveredShare rectClip query (gridMesh sampleX sampleY) .true u = 1 := by
  rw [apart_outline.1, apart_outline.2]
  constructor
  · intro u hu
    simp only [List.mem_cons, List.not_mem_nil, or_false] at hu
    rcases hu with rfl | rfl <;>
      exact rect_covered_box query sample_axes.1 sample_axes.2.1 (by norm_num) (by norm_num)
        (by decide +kernel) (by decide +kernel) (by decide +kernel) (by decide +kernel)
  · intro u hu
    simp only [List.mem_cons, List.not_mem_nil, or_false] at hu
    rcases hu with rfl
    exact rect_covered_box query sample_axes.1 sample_axes.2.1 (by norm_num) (by norm_num)
      (by decide +kernel) (by decide +kernel) (by decide +kernel) (by decide +kernel)

/-- C87: flash 5 of the sample has 9 units of energy, its points 18.  Flash 3 has 5, its points 5. -/
theorem apart_energy (query : List Pt → Pt → Nat → List Nat) (mem : Nat → ChildRow)
    (pmem : Nat → ParentRow) :
    ∃ out, readFlashChunk rectClip query (List.filter (· ≠ [])) squareQuads mem pmem apartSample (some 0)
        false (some (gridMesh sampleX sampleY)) apartSample = .ok out ∧
      energyGiven out.flash 5 = 18 ∧ energyGiven out.flash 3 = 5 := by
  obtain ⟨out, h1, h2, -⟩ := C87_count_partial rectClip query _ squareQuads mem pmem (some 0) apartSample_input
  refine ⟨out, h1, ?_, ?_⟩
  · have := h2 ⟨5, 0, { area := 100, energy := 9 }⟩ (by decide) (by decide) (apart_covered query).1
    rw [apart_outline.1] at this
    rw [this]; norm_num
  · have := h2 ⟨3, 0, { area := 60, energy := 5 }⟩ (by decide) (by decide) (apart_covered query).2
    rw [apart_outline.2] at this
    rw [this]; norm_num

/-- C87 fails: a flash with two separate parts counts twice. -/
theorem C87_full_false : ¬ C87_full := by
  intro h
  obtain ⟨out, h1, h2, -⟩ := h rectClip (fun _ _ _ => []) (List.filter (· ≠ [])) squareQuads
    (fun _ => ⟨0, 0, 0, 0, none, 0, 0, 0, 0⟩)
    (fun _ => ⟨0, 0, 0, 0, 0, 0, none, none, 0, 0, 0, 0, 0⟩) (some 0) sampleX sampleY apartSample apartSample
    apartSample_input (by
      rintro ps ⟨p, hp, hne⟩ h0
      exact hne (by simpa using List.filter_eq_nil_iff.mp h0 p hp))
  obtain ⟨out', h1', h2', -⟩ := apart_energy (fun _ _ _ => [])
    (fun _ => ⟨0, 0, 0, 0, none, 0, 0, 0, 0⟩)
    (fun _ => ⟨0, 0, 0, 0, 0, 0, none, none, 0, 0, 0, 0, 0⟩)
  rw [h1] at h1'
  cases h1'
  have := h2 ⟨5, 0, { area := 100, energy := 9 }⟩ (by decide) (by decide) (apart_covered _).1
  rw [show energyGiven out.flash 5 = 18 from h2'] at this
  norm_num at this

/-! ## C88: the documented full-quality mode -/

/-- The property: a chunk can be split with the mesh on the fixed grid. -/
def C88_full : Prop := ∀ (clip : Poly → Poly → List Poly) (query : List Pt → Pt → Nat → List Nat)
    (join : List Poly → List Poly) (quads : Rat → List Pt → List Poly)
    (mem : Nat → ChildRow) (pmem : Nat → ParentRow) (base : Option Int) (fixedGrid : Bool)
    (x y : List Rat) (glm d : GFile), SplitInput clip join quads x y glm d →
  ∃ out, readFlashChunk clip query join quads mem pmem glm base fixedGrid (some (gridMesh x y)) d = .ok out

/-- C88: with a mesh and the fixed grid there is never a result. -/
theorem C88_never_partial (clip : Poly → Poly → List Poly) (query : List Pt → Pt → Nat → List Nat)
    (join : List Poly → List Poly) (quads : Rat → List Pt → List Poly)
    (mem : Nat → ChildRow) (pmem : Nat → ParentRow) (base : Option Int) (mesh : Mesh) (glm d : GFile) :
    readFlashChunk clip query join quads mem pmem glm base true (some mesh) d = .error .nameError := rfl

/-- C88 fails. -/
theorem C88_full_false : ¬ C88_full := by
  intro h
  obtain ⟨out, ho⟩ := h rectClip (fun _ _ _ => []) (List.filter (· ≠ [])) squareQuads
    (fun _ => ⟨0, 0, 0, 0, none, 0, 0, 0, 0⟩)
    (fun _ => ⟨0, 0, 0, 0, 0, 0, none, none, 0, 0, 0, 0, 0⟩) (some 0) true sampleX sampleY apartSample
    apartSample apartSample_input
  cases ho

/-- C88 without the fixed grid, or without a mesh.  Missing: the fixed grid with a mesh. -/
theorem C88_other_modes_partial (clip : Poly → Poly → List Poly)
    (query : List Pt → Pt → Nat → List Nat) (join : List Poly → List Poly)
    (quads : Rat → List Pt → List Poly) (mem : Nat → ChildRow) (pmem : Nat → ParentRow) (base : Option Int)
    {x y : List Rat} {glm d : GFile} (h : SplitInput clip join quads x y glm d) :
    (∃ out, readFlashChunk clip query join quads mem pmem glm base false (some (gridMesh x y)) d = .ok out) ∧
    ∀ fixedGrid, ∃ out, readFlashChunk clip query join quads mem pmem glm base fixedGrid none d = .ok out := by
  obtain ⟨out, h1, -⟩ := C87_exact clip query join quads mem pmem base h
  obtain ⟨f, h2, -⟩ := mimic_plain mem pmem base h.chunk
  exact ⟨⟨out, h1⟩, fun _ => ⟨f, h2⟩⟩

example (query : List Pt → Pt → Nat → List Nat) (mem : Nat → ChildRow) (pmem : Nat → ParentRow) :=
  C88_other_modes_partial rectClip query _ squareQuads mem pmem (some 0) apartSample_input

/-! ## C65 on this route -/

/-- C65 without the lookup table: every parent row of a chunk says how many events the whole chunk has. -/
theorem C65_points_partial (clip : Poly → Poly → List Poly) (query : List Pt → Pt → Nat → List Nat)
    (join : List Poly → List Poly) (quads : Rat → List Pt → List Poly) (mem : Nat → ChildRow)
    (pmem : Nat → ParentRow) (glm : GFile) (base : Option Int) (fixedGrid : Bool) {d : GFile} (h : HasData d) :
    ∃ out, readFlashChunk clip query join quads mem pmem glm base fixedGrid none d = .ok out ∧
      ∀ p ∈ out.flash.2 ++ out.group.2 ++ out.event.2, p.nPoints = toInt16 d.events.length := by
  obtain ⟨h1, h2, h3⟩ := h
  obtain ⟨l1, a1, -, -, a2⟩ := fakeLmaLevel_plain mem pmem d d.flashes (fun r => r.val.area) lastTime
    (fun e => e.val.flashOf) base h1
  obtain ⟨l2, b1, -, -, b2⟩ := fakeLmaLevel_plain mem pmem d d.groups (fun r => r.val.area) firstTime
    Row.pid base h2
  obtain ⟨l3, c1, -, -, c2⟩ := fakeLmaLevel_plain mem pmem d d.events (fun _ => 0) firstTime
    Row.id base h3
  refine ⟨⟨l1, l2, l3⟩, ?_, ?_⟩
  · unfold readFlashChunk mimicLmaDataset fakeLmaFlashes fakeLmaGroups fakeLmaEventLevel
    simp only [a1, b1, c1, bind, Except.bind, pure, Except.pure]
  · intro p hp
    rcases List.mem_append.mp hp with hp | hp
    · rcases List.mem_append.mp hp with hp | hp
      · exact (mem_of_forall₂_right a2 hp).elim fun _ k => k.2
      · exact (mem_of_forall₂_right b2 hp).elim fun _ k => k.2
    · exact (mem_of_forall₂_right c2 hp).elim fun _ k => k.2

example (clip : Poly → Poly → List Poly) (query : List Pt → Pt → Nat → List Nat)
    (join : List Poly → List Poly) (quads : Rat → List Pt → List Poly) (mem : Nat → ChildRow)
    (pmem : Nat → ParentRow) :=
  C65_points_partial clip query join quads mem pmem openSample (some 0) false openSample_hyps.1

end Verif.Props
