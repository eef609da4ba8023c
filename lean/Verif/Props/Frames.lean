import Verif.Props.Units
import Verif.Model.Frames

/-!
# C149: calls with several frames

C137 and C142 are about calls with one frame.  Here the period of the call is cut into frames, and there is one image for each
frame.  The code puts all that is read from a file at the product time of the file, so the image of a frame shows the files
whose product time is in the frame.
-/

namespace Verif.Props

open Verif.Py Verif.Model Verif.Spec Verif.Proofs

/-! ## Specification -/

/-- An instant is in a frame: seconds after the base date, from the start of the frame up to but not including its end. -/
def InFrame (basedate : Int) (t : Rat × Rat) (instant : Int) : Prop :=
  t.1 ≤ ((instant - basedate : Int) : Rat) / 1000000000 ∧ ((instant - basedate : Int) : Rat) / 1000000000 < t.2

instance (basedate : Int) (t : Rat × Rat) (instant : Int) : Decidable (InFrame basedate t instant) := by
  unfold InFrame
  infer_instance

/-- What lmatools is assumed to do: of the children that arrive together, a frame gets those whose time is in the frame, in
any order. -/
def PicksByTime (F : Framing) : Prop :=
  ∀ t l, (F.pick t l).Perm (l.filter fun e => t.1 ≤ e.seconds ∧ e.seconds < t.2)

/-- The files of a frame. -/
def filesOf (env : Surroundings) (t : Rat × Rat) (files : List GFile) : List GFile :=
  files.filter fun d => InFrame env.basedate t (env.productTime d)

open scoped Classical in
/-- The energy of the events that took place during a frame, in a pixel. -/
noncomputable def energyDuring (env : Surroundings) (nav : Rat → Rat → Rat × Rat) (me mg : Option Int) (dx dy : Rat)
    (files : List GFile) (t : Rat × Rat) (X Y : Rat) : Rat :=
  (files.map fun d => (((fileEvents me mg d).filter fun e => InFrame env.basedate t (firstTime e)).map fun e =>
    e.val.energy * (partArea convexClip (env.foot (navPlace nav e)) (pixelAt dx dy X Y) /
      |signedArea (env.foot (navPlace nav e))|)).sum).sum

/-- The energies in the image of a frame, given by a value for each pixel. -/
def EnergiesShown (runs : List (TileRun TileState ImageFile)) (tEdges : List Rat)
    (value : Rat × Rat → Rat → Rat → Rat) : Prop :=
  ∀ r ∈ runs, ∀ (k : Nat) t nf, (pairwise tEdges)[k]? = some t → r.written[k]? = some nf →
    ∀ row col X Y, nf.2.x[col]? = some X → nf.2.y[row]? = some Y → ∀ img, ("total_energy", img) ∈ nf.2.fields →
      img.val row col = atLeastStep (r.scale != .bool false) (152597 / 100000000000) (value t X Y)

/-- Opening keeps the product time. -/
def KeepsTime (env : Surroundings) (files : List GFile) : Prop :=
  ∀ rev, ∀ d ∈ files, ∀ d', env.openFile rev d = .ok d' → env.productTime d' = env.productTime d

/-- **C149**, in full: in the image of a frame there are the energies of the events that took place during the frame. -/
def C149_full : Prop := ∀ (env : Surroundings) (F : Framing) (order : List Int → List Int) (nav : Rat → Rat → Rat × Rat)
  (kw shared : Dict) (xlo ylo dx dy : Rat) (M N s : Nat) (me mg : Option Int) (files : List GFile), PicksByTime F →
  FileCall env order nav kw xlo ylo dx dy M N s me mg files → KeepsTime env files → ∃ runs shared',
    gridGlmFlashes (framesGridder env F) files kw shared = .ok (runs, shared') ∧
    EnergiesShown runs F.tEdges (energyDuring env nav me mg dx dy files)

/-! ## What is read from a file is at its product time -/

theorem getLutevents_time {t : Int} {loc : Rat → Rat → Int} {d : GFile} {rows : List LutRow}
    (h : getLutevents t loc d = .ok rows) {r : LutRow} (hr : r ∈ rows) : r.time = t := by
  unfold getLutevents at h
  split at h
  · cases h
  · obtain ⟨kv, -, hk⟩ := mapM_ok_mem h hr
    unfold lutRow at hk
    simp only at hk
    obtain ⟨_, -, hk⟩ := bind_ok hk
    obtain ⟨_, -, hk⟩ := bind_ok hk
    obtain ⟨_, -, hk⟩ := bind_ok hk
    obtain ⟨_, -, hk⟩ := bind_ok hk
    obtain ⟨_, -, hk⟩ := bind_ok hk
    cases hk
    rfl

theorem chunk_times {clip : Poly → Poly → List Poly} {query : List Pt → Pt → Nat → List Nat} {quads : List Pt → List Poly}
    {mesh : Mesh} {t basedate : Int} {loc : Rat → Rat → Int} {d : GFile} {fake : FakeLma}
    (h : fastFixedGridReadChunk clip query quads mesh t basedate loc d = .ok (some fake)) {e : LmaEvent}
    (he : e ∈ fake.children) : e.time = t - basedate := by
  unfold fastFixedGridReadChunk at h
  obtain ⟨rows, hrows, h⟩ := bind_ok h
  obtain ⟨_, -, h⟩ := bind_ok h
  obtain ⟨_, -, h⟩ := bind_ok h
  obtain ⟨_, -, h⟩ := bind_ok h
  obtain ⟨split, hsp, h⟩ := bind_ok h
  have hst : ∀ s ∈ split, s.time = t := by
    intro s hs
    obtain ⟨p, -, hp⟩ := mapM_ok_mem hsp hs
    split at hp
    · cases hp
    · rename_i r hr
      cases hp
      exact getLutevents_time hrows (List.mem_of_find?_eq_some hr)
  have hm : mimicLmaDatasetLut d split basedate = .ok fake := by
    split at h
    · rename_i f hf
      rw [hf]
      simp only [pure, Except.pure, Except.ok.injEq] at h
      split at h
      · rw [Option.some.inj h]
      · cases h
    · cases h
    · cases h
  unfold mimicLmaDatasetLut at hm
  obtain ⟨evs, hev, hm⟩ := bind_ok hm
  cases hm
  have hne : split ≠ [] := by rintro rfl; cases hev
  obtain ⟨evs', h1, -, h2, -⟩ := C31_cells split basedate hne
  obtain rfl := Except.ok.inj (hev.symm.trans h1)
  obtain ⟨s, hs, hv⟩ := (h2 e he).time.1
  have : s ∈ split := (List.mem_filter.mp hs).1
  rw [hst s this] at hv
  omega

/-! ## What is read from files -/

/-- The children of a chunk. -/
structure GoodChildren (x y : List Rat) (children : List LmaEvent) : Prop where
  onGrid : ∀ e ∈ children, e.meshYi < x.length - 1 ∧ e.meshXi < y.length - 1
  once : (children.map fun e => (e.meshYi, e.meshXi)).Nodup
  area : ∀ e ∈ children, 0 < e.minFlashArea

theorem chunk_children {clip : Poly → Poly → List Poly} {query : List Pt → Pt → Nat → List Nat} {foot : Pt → Poly}
    {x y : List Rat} {t basedate : Int} {loc : Rat → Rat → Int} {d : GFile} {rows : List LutRow} (hx : AxisOk x)
    (hy : AxisOk y) (hsz : 2 < x.length ∨ 2 < y.length) (hclip : ∀ p q s, s ∈ clip p q → s ≠ [])
    (hc : ChunkOk clip query foot x y t loc d rows) {fake : FakeLma}
    (h : fastFixedGridReadChunk clip query (fun pts => pts.map foot) (gridMesh x y) t basedate loc d = .ok (some fake)) :
    GoodChildren x y fake.children := by
  obtain ⟨k1, k2, k3, k4, k5⟩ := hc
  have hpol : ∀ p ∈ (rows.map fun r => (r.x, r.y)).map foot, ∃ r ∈ rows, p = foot (r.x, r.y) := by
    intro p hp
    rw [List.map_map] at hp
    obtain ⟨r, hr, rfl⟩ := List.mem_map.mp hp
    exact ⟨r, hr, rfl⟩
  have q1 : ∀ p ∈ (rows.map fun r => (r.x, r.y)).map foot, p ≠ [] ∧ signedArea p ≠ 0 := by
    intro p hp
    obtain ⟨r, hr, rfl⟩ := hpol p hp
    exact k2 r hr
  have q2 : ∃ p ∈ (rows.map fun r => (r.x, r.y)).map foot, coveredArea clip query (gridMesh x y) p ≠ 0 := by
    obtain ⟨r, hr, h⟩ := k3
    exact ⟨_, List.mem_map.mpr ⟨_, List.mem_map.mpr ⟨r, hr, rfl⟩, rfl⟩, h⟩
  have q3 : ∀ p ∈ (rows.map fun r => (r.x, r.y)).map foot, SearchComplete clip query x y p := by
    intro p hp
    obtain ⟨r, hr, rfl⟩ := hpol p hp
    exact k4 r hr
  obtain ⟨fake', f1, f2, -⟩ := C67_chunk clip query (fun pts => pts.map foot) x y t basedate loc d
    rows _ hx hy hsz hclip k1 rfl (by simp) q1 q2 q3
  obtain rfl := Option.some.inj (Except.ok.inj (h.symm.trans f1))
  have hmin := C67_chunk_min clip query (fun pts => pts.map foot) x y t basedate loc d rows _ fake
    hx hy hsz hclip k1 rfl (by simp) (fun p hp => (q1 p hp).1) q2 q3 f1
  obtain ⟨g1, g2⟩ := f2 _ (List.mem_singleton.mpr rfl)
  refine ⟨g1, g2, ?_⟩
  intro e he
  have hr := g1 e he
  have hon : e ∈ onCell e.meshYi e.meshXi [(fake.children, [])] := by
    unfold onCell
    simp [he]
  obtain ⟨a, ha, -, hma⟩ := (hmin e.meshYi e.meshXi (by omega) (by omega)).1 e hon
  rw [hma]
  exact k5 _ (List.of_mem_zip ha).2

/-- What is read from a file: children that can be gridded, at the product time of the file. -/
structure SentFrom (x y : List Rat) (basedate : Int) (d : Int × GFile) (fake : FakeLma) : Prop where
  children : GoodChildren x y fake.children
  time : ∀ e ∈ fake.children, e.time = d.1 - basedate

theorem files_sent_from {clip : Poly → Poly → List Poly} {query : List Pt → Pt → Nat → List Nat} {foot : Pt → Poly}
    {x y : List Rat} {basedate : Int} {loc : Rat → Rat → Int} {order : List Int → List Int} {c : Criteria} {n : Nat}
    (hx : AxisOk x) (hy : AxisOk y) (hsz : 2 < x.length ∨ 2 < y.length) (hclip : ∀ p q s, s ∈ clip p q → s ≠ [])
    (ho : ∀ l, (order l).Perm l) (hn : 0 < n) {files : List (Int × GFile)}
    (h : ∀ d ∈ files, d.2.events ≠ [] → FileOk clip query foot x y loc order c n d.2) {fakes : List FakeLma}
    (hr : readFiles clip query (fun pts => pts.map foot) (gridMesh x y) basedate loc order c n files = .ok fakes) :
    ∃ sent : List (List FakeLma), fakes = sent.flatten ∧
      List.Forall₂ (fun d l => (if d.2.events.length > 0 then
        readFlashesLut clip query (fun pts => pts.map foot) (gridMesh x y) basedate loc order c n d.1 d.2 else pure []) =
          Except.ok l ∧ ∀ fake ∈ l, SentFrom x y basedate d fake) files sent := by
  unfold readFiles at hr
  obtain ⟨sent, hs, hr⟩ := bind_ok hr
  cases hr
  refine ⟨sent, rfl, ?_⟩
  refine (forall₂_mem (mapM_ok_forall₂ hs)).imp ?_
  rintro d l ⟨hd, hmem, -⟩
  refine ⟨hd, ?_⟩
  intro fake hf
  split at hd
  · rename_i hlen
    have hfo := h d hmem (List.length_pos_iff.mp hlen)
    obtain ⟨parts, p1, p2, p3, -⟩ := file_tables ho hn d.1 hfo
    unfold readFlashesLut at hd
    obtain ⟨chunks, hc, hd⟩ := bind_ok hd
    obtain ⟨all, ha, hd⟩ := bind_ok hd
    cases hd
    obtain ⟨o, hom, rfl⟩ := List.mem_filterMap.mp hf
    obtain ⟨ch, hch, hread⟩ := mapM_ok_mem ha hom
    obtain rfl := Except.ok.inj (hc.symm.trans p1)
    obtain ⟨p, hp, rfl⟩ := List.mem_map.mp hch
    have := p3 p hp
    rw [p2 p hp] at this
    exact ⟨chunk_children hx hy hsz hclip this hread, fun e he => chunk_times hread he⟩
  · cases hd
    cases hf

/-- What a frame gets of the chunks of one file: all, or nothing. -/
theorem picked_file {F : Framing} (hp : PicksByTime F) (t : Rat × Rat) {x y : List Rat} {basedate : Int} {d : Int × GFile}
    {l : List FakeLma} (hl : ∀ fake ∈ l, SentFrom x y basedate d fake) :
    (l.flatMap fun f => F.pick t f.children).Perm
      (if InFrame basedate t d.1 then l.flatMap FakeLma.children else []) := by
  induction l with
  | nil => split <;> exact List.Perm.refl _
  | cons fake l ih =>
    have ih := ih fun f hf => hl f (List.mem_cons_of_mem _ hf)
    have ht := (hl fake List.mem_cons_self).time
    have one : (F.pick t fake.children).Perm (if InFrame basedate t d.1 then fake.children else []) := by
      refine (hp t fake.children).trans ?_
      split
      · rename_i hin
        rw [List.filter_eq_self.mpr]
        intro e he
        refine decide_eq_true ?_
        unfold LmaEvent.seconds
        rw [ht e he]
        exact hin
      · rename_i hout
        rw [List.filter_eq_nil_iff.mpr]
        intro e he hc
        refine hout ?_
        have := of_decide_eq_true hc
        unfold LmaEvent.seconds at this
        rw [ht e he] at this
        exact this
    rw [List.flatMap_cons, List.flatMap_cons]
    split
    · rename_i hin
      rw [if_pos hin] at one ih
      exact one.append ih
    · rename_i hout
      rw [if_neg hout] at one ih
      exact one.append ih

/-- What a frame gets of all files is what would be read from the files of the frame alone. -/
theorem picked_files {F : Framing} (hp : PicksByTime F) (t : Rat × Rat) {x y : List Rat} {basedate : Int}
    {read : Int × GFile → Except Err (List FakeLma)} {files : List (Int × GFile)} {sent : List (List FakeLma)}
    (h : List.Forall₂ (fun d l => read d = .ok l ∧ ∀ fake ∈ l, SentFrom x y basedate d fake) files sent) :
    ∃ sent', (files.filter fun d => InFrame basedate t d.1).mapM read = .ok sent' ∧
      (∀ l ∈ sent', ∀ fake ∈ l, GoodChildren x y fake.children) ∧
      (sent.flatten.flatMap fun f => F.pick t f.children).Perm (sent'.flatten.flatMap FakeLma.children) := by
  induction h with
  | nil => exact ⟨[], rfl, by simp, List.Perm.refl _⟩
  | @cons d l files sent hd _ ih =>
    obtain ⟨sent', i1, i2, i3⟩ := ih
    have one := picked_file hp t hd.2
    by_cases hin : InFrame basedate t d.1
    · refine ⟨l :: sent', ?_, ?_, ?_⟩
      · rw [List.filter_cons_of_pos (by simpa using hin), List.mapM_cons, hd.1, i1]
        rfl
      · intro l' hl'
        rcases List.mem_cons.mp hl' with rfl | hl'
        · exact fun fake hf => (hd.2 fake hf).children
        · exact i2 l' hl'
      · rw [if_pos hin] at one
        rw [List.flatten_cons, List.flatten_cons, List.flatMap_append, List.flatMap_append]
        exact one.append i3
    · refine ⟨sent', ?_, i2, ?_⟩
      · rw [List.filter_cons_of_neg (by simpa using hin), i1]
      · rw [if_neg hin] at one
        rw [List.flatten_cons, List.flatMap_append]
        exact (one.append i3).trans (by rw [List.nil_append])

theorem flatMap_map_fst {α β γ : Type} (l : List α) (f : α → List β) (g : α → γ) :
    (l.map fun a => (f a, g a)).flatMap Prod.fst = l.flatMap f := by
  rw [List.flatMap_map]

/-- The grids of a frame hold what the files of the frame put there. -/
theorem framed_cells {F : Framing} (hp : PicksByTime F) {clip : Poly → Poly → List Poly}
    {query : List Pt → Pt → Nat → List Nat} {foot : Pt → Poly} {x y : List Rat} (basedate : Int) {loc : Rat → Rat → Int}
    {order : List Int → List Int} {c : Criteria} {n : Nat} {files : List (Int × GFile)}
    (points : Grid → List LmaParent → Grid) (label : String) (hx : AxisOk x) (hy : AxisOk y)
    (hsz : 2 < x.length ∨ 2 < y.length) (hclip : ∀ p q s, s ∈ clip p q → s ≠ []) (ho : ∀ l, (order l).Perm l) (hn : 0 < n)
    (h : ∀ d ∈ files, d.2.events ≠ [] → FileOk clip query foot x y loc order c n d.2) :
    ∃ fakes outgrids, readFiles clip query (fun pts => pts.map foot) (gridMesh x y) basedate loc order c n files = .ok fakes ∧
      lutPipelineSetup = .ok outgrids ∧
      ∀ (t : Rat × Rat) (par : String → FakeLma → List LmaParent), ∃ grids, ∃ grid : String → Grid,
        gridFrame points (x.length - 1) (y.length - 1) outgrids
          (fun k => fakes.map fun f => (F.pick t f.children, par k f)) = .ok grids ∧
        (∀ name ∈ sixNames, gridNamed label grids name = some (grid name)) ∧
        ∀ i j, i + 1 < x.length → j + 1 < y.length →
          CellsOfFiles clip foot x y c (files.filter fun d => InFrame basedate t d.1) i j
            ((grid "flash_extent_density").val i j) ((grid "average_flash_area").val i j)
            ((grid "total_energy").val i j) ((grid "group_extent_density").val i j)
            ((grid "average_group_area").val i j) ((grid "minimum_flash_area").val i j) := by
  obtain ⟨fakes, outgrids, -, -, -, -, -, -, -, a1, a2, -⟩ := C93_partial clip query foot x y basedate loc order c n files
    points label (fun _ _ => []) hx hy hsz hclip ho hn h
  refine ⟨fakes, outgrids, a1, a2, ?_⟩
  intro t par
  obtain ⟨sent, rfl, hsent⟩ := files_sent_from hx hy hsz hclip ho hn h a1
  obtain ⟨sent', s1, s2, s3⟩ := picked_files hp t hsent
  obtain ⟨fakes', outgrids', grids', fed', fa', te', ged', ga', mfa', b1, b2, b3, n1, n2, n3, n4, n5, n6, -, hv⟩ :=
    C93_partial clip query foot x y basedate loc order c n (files.filter fun d => InFrame basedate t d.1)
      points label (fun _ _ => []) hx hy hsz hclip ho hn fun d hd => h d (List.mem_filter.mp hd).1
  obtain rfl := Except.ok.inj (a2.symm.trans b2)
  have hf' : fakes' = sent'.flatten := by
    unfold readFiles at b1
    rw [s1] at b1
    exact (Except.ok.inj b1).symm
  subst hf'
  -- what arrives at the frame, and what would arrive of its files alone
  have onPerm : ∀ i j (k : String), (onCell i j (sent.flatten.map fun f => (F.pick t f.children, par k f))).Perm
      (onCell i j (sent'.flatten.map fun f => (f.children, ([] : List LmaParent)))) := by
    intro i j k
    unfold onCell
    rw [flatMap_map_fst, flatMap_map_fst]
    exact s3.filter _
  have good' : ∀ f ∈ sent'.flatten, GoodChildren x y f.children := by
    intro f hf
    obtain ⟨l, hl, hf⟩ := List.mem_flatten.mp hf
    exact s2 l hl f hf
  have good : ∀ f ∈ sent.flatten, GoodChildren x y (F.pick t f.children) := by
    intro f hf
    obtain ⟨l, hl, hf⟩ := List.mem_flatten.mp hf
    obtain ⟨d, -, -, hd⟩ := mem_of_forall₂_right hsent hl
    obtain ⟨g1, g2, g3⟩ := (hd f hf).children
    have hperm := hp t f.children
    have sub : ∀ e ∈ F.pick t f.children, e ∈ f.children := fun e he => (List.mem_filter.mp (hperm.mem_iff.mp he)).1
    refine ⟨fun e he => g1 e (sub e he), ?_, fun e he => g3 e (sub e he)⟩
    rw [(hperm.map _).nodup_iff]
    exact g2.sublist (List.filter_sublist.map _)
  obtain ⟨o1, grids, fed, -, fa, te, ged, -, ga, mfa, c1, c2, -, -, ⟨m1, w1⟩, -, ⟨m2, w2⟩, ⟨m3, w3⟩, ⟨m4, w4⟩, -, ⟨m5, w5⟩,
    ⟨m6, w6⟩⟩ := C35_contents points label (x.length - 1) (y.length - 1)
      (fun k => sent.flatten.map fun f => (F.pick t f.children, par k f)) (by
        intro k f hf
        obtain ⟨g, hg, rfl⟩ := List.mem_map.mp hf
        exact ⟨(good g hg).onGrid, (good g hg).once⟩) (by
        intro f hf
        obtain ⟨g, hg, rfl⟩ := List.mem_map.mp hf
        exact (good g hg).area)
  obtain ⟨o2, grids2, fed2, -, fa2, te2, ged2, -, ga2, mfa2, d1, d2, -, -, ⟨l1, v1⟩, -, ⟨l2, v2⟩, ⟨l3, v3⟩, ⟨l4, v4⟩, -,
    ⟨l5, v5⟩, ⟨l6, v6⟩⟩ := C35_contents points label (x.length - 1) (y.length - 1)
      (fun _ => sent'.flatten.map fun f => (f.children, ([] : List LmaParent))) (by
        intro k f hf
        obtain ⟨g, hg, rfl⟩ := List.mem_map.mp hf
        exact ⟨(good' g hg).onGrid, (good' g hg).once⟩) (by
        intro f hf
        obtain ⟨g, hg, rfl⟩ := List.mem_map.mp hf
        exact (good' g hg).area)
  obtain rfl := Except.ok.inj (a2.symm.trans c1)
  obtain rfl := Except.ok.inj (a2.symm.trans d1)
  obtain rfl := Except.ok.inj (b3.symm.trans d2)
  obtain rfl := Option.some.inj (n1.symm.trans l1)
  obtain rfl := Option.some.inj (n2.symm.trans l2)
  obtain rfl := Option.some.inj (n3.symm.trans l3)
  obtain rfl := Option.some.inj (n4.symm.trans l4)
  obtain rfl := Option.some.inj (n5.symm.trans l5)
  obtain rfl := Option.some.inj (n6.symm.trans l6)
  refine ⟨grids, fun name => if name = "flash_extent_density" then fed else if name = "average_flash_area" then fa else
    if name = "total_energy" then te else if name = "group_extent_density" then ged else
    if name = "average_group_area" then ga else mfa, c2, ?_, ?_⟩
  · intro name hname
    simp only [sixNames, List.mem_cons, List.not_mem_nil, or_false] at hname
    rcases hname with rfl | rfl | rfl | rfl | rfl | rfl
    · exact m1
    · exact m2
    · exact m3
    · exact m4
    · exact m5
    · exact m6
  · intro i j hi hj
    have e1 : fed.val i j = fed'.val i j := by rw [w1, v1, ((onPerm i j "flash").map _).sum_eq]
    have e2 : fa.val i j = fa'.val i j := by rw [w2, v2, ((onPerm i j "flash").map _).sum_eq]
    have e3 : te.val i j = te'.val i j := by rw [w3, v3, ((onPerm i j "event").map _).sum_eq]
    have e4 : ged.val i j = ged'.val i j := by rw [w4, v4, ((onPerm i j "group").map _).sum_eq]
    have e5 : ga.val i j = ga'.val i j := by rw [w5, v5, ((onPerm i j "group").map _).sum_eq]
    have e6 : mfa.val i j = mfa'.val i j := leastOrZero_unique ((onPerm i j "flash").map _) (w6 i j) (v6 i j)
    have := hv i j hi hj
    rw [← e1, ← e2, ← e3, ← e4, ← e5, ← e6] at this
    exact this

/-! ## Images of frames -/

/-- The grids in the order in which they are made, by their names. -/
theorem eight_named {label : String} {g0 g1 g2 g3 g4 g5 g6 g7 : Grid} {grid : String → Grid}
    (h : ∀ name ∈ sixNames, gridNamed label [g0, g1, g2, g3, g4, g5, g6, g7] name = some (grid name)) :
    g0 = grid "flash_extent_density" ∧ g2 = grid "average_flash_area" ∧ g3 = grid "total_energy" ∧
    g4 = grid "group_extent_density" ∧ g6 = grid "average_group_area" ∧ g7 = grid "minimum_flash_area" := by
  have e0 := h "flash_extent_density" (by simp [sixNames])
  have e2 := h "average_flash_area" (by simp [sixNames])
  have e3 := h "total_energy" (by simp [sixNames])
  have e4 := h "group_extent_density" (by simp [sixNames])
  have e6 := h "average_group_area" (by simp [sixNames])
  have e7 := h "minimum_flash_area" (by simp [sixNames])
  simp only [gridNamed, lutOutputSetup, outputSetup, List.zip_cons_cons, List.lookup, beq_self_eq_true, Option.some.injEq,
    show ("average_flash_area" == "flash_extent_density") = false by decide,
    show ("average_flash_area" == "flash_centroid_density") = false by decide,
    show ("total_energy" == "flash_extent_density") = false by decide,
    show ("total_energy" == "flash_centroid_density") = false by decide,
    show ("total_energy" == "average_flash_area") = false by decide,
    show ("group_extent_density" == "flash_extent_density") = false by decide,
    show ("group_extent_density" == "flash_centroid_density") = false by decide,
    show ("group_extent_density" == "average_flash_area") = false by decide,
    show ("group_extent_density" == "total_energy") = false by decide,
    show ("average_group_area" == "flash_extent_density") = false by decide,
    show ("average_group_area" == "flash_centroid_density") = false by decide,
    show ("average_group_area" == "average_flash_area") = false by decide,
    show ("average_group_area" == "total_energy") = false by decide,
    show ("average_group_area" == "group_extent_density") = false by decide,
    show ("average_group_area" == "group_centroid_density") = false by decide,
    show ("minimum_flash_area" == "flash_extent_density") = false by decide,
    show ("minimum_flash_area" == "flash_centroid_density") = false by decide,
    show ("minimum_flash_area" == "average_flash_area") = false by decide,
    show ("minimum_flash_area" == "total_energy") = false by decide,
    show ("minimum_flash_area" == "group_extent_density") = false by decide,
    show ("minimum_flash_area" == "group_centroid_density") = false by decide,
    show ("minimum_flash_area" == "average_group_area") = false by decide] at e0 e2 e3 e4 e6 e7
  exact ⟨e0, e2, e3, e4, e6, e7⟩

theorem forall₂_get {α β : Type} {R : α → β → Prop} {l : List α} {l' : List β} (h : List.Forall₂ R l l') {k : Nat} {a : α}
    (ha : l[k]? = some a) : ∃ b, l'[k]? = some b ∧ R a b := by
  induction h generalizing k with
  | nil => cases ha
  | cons hab _ ih =>
    cases k with
    | zero => cases ha; exact ⟨_, rfl, hab⟩
    | succ k => exact ih ha

theorem forall₂_of_get {α β : Type} {R : α → β → Prop} {l : List α} {l' : List β} (hl : l.length = l'.length)
    (h : ∀ (k : Nat) a b, l[k]? = some a → l'[k]? = some b → R a b) : List.Forall₂ R l l' := by
  induction l generalizing l' with
  | nil => cases l' with
    | nil => exact .nil
    | cons b l' => cases hl
  | cons a l ih => cases l' with
    | nil => cases hl
    | cons b l' =>
      exact .cons (h 0 a b rfl rfl) (ih (by simpa using hl) fun k a b h1 h2 => h (k + 1) a b h1 h2)

/-- The image files of a tile, one for each frame, from the grids of the frames. -/
theorem frames_image {env : Surroundings} {F : Framing} {xlo ylo dx dy : Rat} (hdx : 0 < dx) (hdy : 0 < dy)
    (he : MakesEdges env.edges)
    {a b c d p q : Nat} (hab : a + 2 ≤ b) (hcd : c + 1 ≤ d) {t : Tile}
    (hx : t.xBnd = (xlo + a * dx - p * dx, xlo + b * dx + p * dx))
    (hy : t.yBnd = (ylo + c * dy - q * dy, ylo + d * dy + q * dy)) (hp : t.pads = ⟨p, q, p * dx, q * dy⟩)
    {sent : List FakeLma} {outgrids : List (String × Accum)} {Q : Rat × Rat → (String → Grid) → Prop}
    (h1 : lutPipelineSetup = .ok outgrids)
    (h2 : ∀ tf, ∃ grids, ∃ grid : String → Grid,
      gridFrame (env.points (env.edges t.xBnd dx) (env.edges t.yBnd dy)) ((env.edges t.xBnd dx).length - 1) ((env.edges t.yBnd dy).length - 1) outgrids
        (fun k => sent.map fun f => (F.pick tf f.children, F.keep tf (f.parentsFor k))) = .ok grids ∧
      (∀ name ∈ sixNames, gridNamed env.label grids name = some (grid name)) ∧ Q tf grid)
    (out : Dict) (scale : Val) :
    ∃ files, framesImages env F ⟨env.edges t.xBnd dx, env.edges t.yBnd dy, sent⟩ out
        (.slices (getPadSlices t.pads).1 (getPadSlices t.pads).2) scale = .ok files ∧
      List.Forall₂ (fun tf f => ∃ grid, Q tf grid ∧ f.start = tf.1 ∧ f.stop = tf.2 ∧ f.x = boxCentres xlo dx a b ∧
        f.y = (boxCentres ylo dy c d).reverse ∧
        f.fields.map Prod.fst = eightNames ∧
        (∀ img ∈ f.fields.map Prod.snd, img.rows = d - c ∧ img.cols = b - a) ∧
        ∀ row col, row < d - c → col < b - a → ∀ name img, (name, img) ∈ f.fields →
          ∀ v, (name, v) ∈ shown (scale != .bool false)
            ((grid "flash_extent_density").val (p + col) (q + (d - c) - 1 - row))
            ((grid "average_flash_area").val (p + col) (q + (d - c) - 1 - row))
            ((grid "total_energy").val (p + col) (q + (d - c) - 1 - row))
            ((grid "group_extent_density").val (p + col) (q + (d - c) - 1 - row))
            ((grid "average_group_area").val (p + col) (q + (d - c) - 1 - row))
            ((grid "minimum_flash_area").val (p + col) (q + (d - c) - 1 - row)) → img.val row col = v)
        (pairwise F.tEdges) files := by
  have ex : (env.edges t.xBnd dx).length = b - a + 2 * p + 1 := by
    rw [hx, padded_edges he hdx (by omega), boxEdges_length]
  have ey : (env.edges t.yBnd dy).length = d - c + 2 * q + 1 := by
    rw [hy, padded_edges he hdy (by omega), boxEdges_length]
  obtain ⟨o, ho, hlen⟩ : ∃ o, lutPipelineSetup = .ok o ∧ o.length = 8 := ⟨_, rfl, rfl⟩
  obtain rfl := Except.ok.inj (h1.symm.trans ho)
  obtain ⟨frames, hframes⟩ : ∃ frames, (pairwise F.tEdges).mapM (fun tf => gridFrame (env.points (env.edges t.xBnd dx) (env.edges t.yBnd dy))
      ((env.edges t.xBnd dx).length - 1) ((env.edges t.yBnd dy).length - 1) outgrids fun k =>
        sent.map fun f => (F.pick tf f.children, F.keep tf (f.parentsFor k))) = .ok frames := by
    obtain ⟨frames, hfr, -⟩ := mapM_ok_of_forall (P := fun _ _ => True) (l := pairwise F.tEdges) (f := fun tf => gridFrame (env.points (env.edges t.xBnd dx) (env.edges t.yBnd dy))
      ((env.edges t.xBnd dx).length - 1) ((env.edges t.yBnd dy).length - 1) outgrids fun k =>
        sent.map fun f => (F.pick tf f.children, F.keep tf (f.parentsFor k))) fun tf _ => by
          obtain ⟨grids, -, h, -⟩ := h2 tf
          exact ⟨grids, h, trivial⟩
    exact ⟨frames, hfr⟩
  have hall := mapM_ok_forall₂ hframes
  have hfl : frames.length = F.tEdges.length - 1 := by rw [← hall.length_eq, pairwise_length]
  set S : ImageSetup :=
    { table := env.table, fileName := env.path out, xedge := env.edges t.xBnd dx, yedge := env.edges t.yBnd dy,
      tEdges := F.tEdges, names := (lutOutputSetup env.label).names,
      divide := (lutOutputSetup env.label).divide } with hS
  set at' : Nat → Nat → Nat → Nat → Rat := fun v i j k => ((frames.getD k []).getD v (Grid.zeros
    ((env.edges t.xBnd dx).length - 1) ((env.edges t.yBnd dy).length - 1))).val i j with hat
  set g : Grids := ⟨(env.edges t.xBnd dx).length - 1, (env.edges t.yBnd dy).length - 1, frames.length,
    (List.range outgrids.length).map at'⟩ with hg
  set pad : Option (PySlice × PySlice) := some (getPadSlices t.pads) with hpad
  have hgx : g.nx = b - a + 2 * p := by rw [hg]; simp only; omega
  have hgy : g.ny = d - c + 2 * q := by rw [hg]; simp only; omega
  have hw : written g pad = ((p, b - a + p), (q, d - c + q)) := by
    unfold written
    rw [hgx, hgy, hpad, hp]
    unfold getPadSlices
    simp only [Option.getD_some, padSlice_bounds]
  have hlut : LutGrids S g (at' 0) (at' 1) (at' 2) (at' 3) (at' 4) (at' 5) (at' 6) (at' 7) :=
    ⟨⟨env.label, rfl⟩, ⟨env.label, rfl⟩, by rw [hg, hlen]; rfl⟩
  obtain ⟨files, g', hwr⟩ := C41_written S pad (scale != .bool false) g (by rw [hgx]; exact ex) (by rw [hgy]; exact ey)
    (by simp only [hS, hg]; omega) (by rw [hw]; simp only; omega) (by rw [hw]; simp only; omega) (by
      intro i k hik
      have : k < 8 := by
        simp only [hS, lutOutputSetup, List.lookup] at hik
        split at hik
        · cases hik; omega
        · split at hik
          · cases hik; omega
          · cases hik
      simpa [hg, hlen] using this)
  obtain ⟨w1, w2, w3, w4, w5⟩ := writeImagery_ok hwr
  refine ⟨files, ?_, forall₂_of_get (by rw [pairwise_length, w4]) ?_⟩
  · unfold framesImages
    rw [ho]
    simp only [bind, Except.bind, pure, Except.pure]
    rw [hframes]
    simp only
    rw [show Val.asPad (.slices (getPadSlices t.pads).1 (getPadSlices t.pads).2) = pad from rfl]
    rw [show writeImagery _ pad (scale != .bool false) _ = .ok (files, g') from hwr]
  intro k tf f hk hf
  obtain ⟨-, b1, b2, b3, b4, -, -, b7⟩ := w5 k f hf
  obtain ⟨t1, t2⟩ := (pairwise_getElem? _ _ _).mp hk
  obtain ⟨grids, hgk, hgf⟩ := forall₂_get hall hk
  obtain ⟨grids', grid, hgf', hnamed, hQ⟩ := h2 tf
  obtain rfl := Except.ok.inj (hgf.symm.trans hgf')
  have hgl : grids.length = 8 := by
    unfold gridFrame at hgf
    rw [← (mapM_ok_forall₂ hgf).length_eq, hlen]
  obtain ⟨g0, g1, g2, g3, g4, g5, g6, g7, rfl⟩ : ∃ g0 g1 g2 g3 g4 g5 g6 g7, grids = [g0, g1, g2, g3, g4, g5, g6, g7] := by
    match grids, hgl with
    | [g0, g1, g2, g3, g4, g5, g6, g7], _ => exact ⟨_, _, _, _, _, _, _, _, rfl⟩
  obtain ⟨e0, e2, e3, e4, e6, e7⟩ := eight_named hnamed
  have hD : frames.getD k [] = [g0, g1, g2, g3, g4, g5, g6, g7] := by
    rw [List.getD_eq_getElem?_getD, hgk]
    rfl
  refine ⟨grid, hQ, Option.some.inj (b1.symm.trans t1), Option.some.inj (b2.symm.trans t2), ?_, ?_, ?_, ?_, ?_⟩
  · rw [b3]
    show PySlice.apply (getPadSlices t.pads).1 (cellCentres (env.edges t.xBnd dx)) = _
    rw [hp, hx]
    exact trim_axis env.edges he xlo dx a b p (by omega) hdx
  · rw [b4]
    congr 1
    show PySlice.apply (getPadSlices t.pads).2 (cellCentres (env.edges t.yBnd dy)) = _
    rw [hp, hy]
    exact trim_axis env.edges he ylo dy c d q (by omega) hdy
  · rw [b7, lut_fieldList hlut]
    rfl
  · intro img himg
    rw [b7, List.map_map] at himg
    obtain ⟨i, -, rfl⟩ := List.mem_map.mp himg
    have := imageOf_shape g' (getPadSlices t.pads).1 (getPadSlices t.pads).2 k i.1
    have hw1 : ((getPadSlices t.pads).1.bounds g.nx, (getPadSlices t.pads).2.bounds g.ny) = _ := hw
    simp only [Prod.mk.injEq] at hw1
    rw [w1.nx, w1.ny, hw1.1, hw1.2] at this
    simp only at this
    exact ⟨this.1.trans (by omega), this.2.trans (by omega)⟩
  · intro row col hrow hcol name img him v hv
    have hpx := lut_pixels hlut hwr hf him (r := row) (c := col) (by rw [hw]; simp only; omega)
      (by rw [hw]; simp only; omega) (a := p + col) (b := q + (d - c) - 1 - row) (by rw [hw]) (by rw [hw]; simp only; omega)
    simp only [hat, hD, List.getD_cons_zero, List.getD_cons_succ] at hpx
    rw [← e0, ← e2, ← e3, ← e4, ← e6, ← e7] at hv
    simp only [shown, List.mem_cons, Prod.mk.injEq, List.not_mem_nil, or_false] at hv hpx
    rcases hv with ⟨rfl, rfl⟩ | ⟨rfl, rfl⟩ | ⟨rfl, rfl⟩ | ⟨rfl, rfl⟩ | ⟨rfl, rfl⟩ | ⟨rfl, rfl⟩ <;> simpa using hpx

/-- The images of a tile: what is read for it can be gridded and written, and the image of each frame shows what the files of
the frame should give. -/
theorem tile_frames {env : Surroundings} {F : Framing} (hF : PicksByTime F) {xlo ylo dx dy : Rat} (hdx : 0 < dx) (hdy : 0 < dy)
    (he : MakesEdges env.edges)
    {a b c d p q : Nat} (hab : a + 2 ≤ b) (hcd : c + 1 ≤ d) (hp2 : 2 ≤ p) (hq2 : 2 ≤ q) {t : Tile}
    (tx : t.xBnd = (xlo + a * dx - p * dx, xlo + b * dx + p * dx))
    (ty : t.yBnd = (ylo + c * dy - q * dy, ylo + d * dy + q * dy)) (tp : t.pads = ⟨p, q, p * dx, q * dy⟩)
    (me mg : Option Int) {files : List GFile} (hclip : ∀ p q s, s ∈ env.clip p q → s ≠ [])
    (hbeside : ∀ x y p i j, Beside x y p i j → env.clip p (cellRect x y j i) = []) (ho : ∀ l, (env.order l).Perm l)
    (hf : ∀ g ∈ files, g.events ≠ [] → CompactFile env.foot env.loc dx dy (p * dx) (q * dy) g)
    (hcen : ∀ g ∈ files, ∀ e ∈ g.events, CentredAt env.clip env.foot dx dy (placeOf e)) :
    ∃ fakes,
      readFiles env.clip env.query (fun pts => pts.map env.foot) (gridMesh (env.edges t.xBnd dx) (env.edges t.yBnd dy))
        env.basedate env.loc env.order { x := some t.xBnd, y := some t.yBnd, minEvents := me, minGroups := mg } 20000
        (files.map fun g => (env.productTime g, g)) = .ok fakes ∧
      ∀ out scale, ∃ imgs, framesImages env F ⟨env.edges t.xBnd dx, env.edges t.yBnd dy, fakes⟩ out
          (.slices (getPadSlices t.pads).1 (getPadSlices t.pads).2) scale = .ok imgs ∧
        List.Forall₂ (fun tf f => ImageShows env.clip env.foot me mg (filesOf env tf files) dx dy (scale != .bool false) tf
          (boxCentres xlo dx a b) (boxCentres ylo dy c d) f) (pairwise F.tEdges) imgs := by
  classical
  have ext : env.edges t.xBnd dx = boxEdges (xlo + a * dx - p * dx) dx (b - a + 2 * p) := by
    rw [tx, padded_edges he hdx (by omega)]
  have eyt : env.edges t.yBnd dy = boxEdges (ylo + c * dy - q * dy) dy (d - c + 2 * q) := by
    rw [ty, padded_edges he hdy (by omega)]
  have hax : AxisOk (env.edges t.xBnd dx) := by rw [ext]; exact boxEdges_axis hdx (by omega)
  have hay : AxisOk (env.edges t.yBnd dy) := by rw [eyt]; exact boxEdges_axis hdy (by omega)
  have hsz : 2 < (env.edges t.xBnd dx).length := by rw [ext, boxEdges_length]; omega
  have ux : Spaced (env.edges t.xBnd dx) dx := by rw [ext]; exact boxEdges_spaced hdx
  have uy : Spaced (env.edges t.yBnd dy) dy := by rw [eyt]; exact boxEdges_spaced hdy
  have x0 : (env.edges t.xBnd dx).getD 0 0 = t.xBnd.1 := by
    rw [ext, boxEdges_getD _ _ (by omega), tx]
    push_cast
    ring
  have y0 : (env.edges t.yBnd dy).getD 0 0 = t.yBnd.1 := by
    rw [eyt, boxEdges_getD _ _ (by omega), ty]
    push_cast
    ring
  have x1 : (env.edges t.xBnd dx).getD ((env.edges t.xBnd dx).length - 1) 0 = t.xBnd.2 := by
    rw [ext, boxEdges_length, boxEdges_getD _ _ (by omega), tx]
    rw [show b - a + 2 * p + 1 - 1 = b - a + 2 * p by omega]
    push_cast [Nat.cast_sub (show a ≤ b by omega)]
    ring
  have y1 : (env.edges t.yBnd dy).getD ((env.edges t.yBnd dy).length - 1) 0 = t.yBnd.2 := by
    rw [eyt, boxEdges_length, boxEdges_getD _ _ (by omega), ty]
    rw [show d - c + 2 * q + 1 - 1 = d - c + 2 * q by omega]
    push_cast [Nat.cast_sub (show c ≤ d by omega)]
    ring
  obtain ⟨fakes, outgrids, h1, h2, h3⟩ := framed_cells hF (query := env.query) (order := env.order) (loc := env.loc)
    (clip := foundClip env.clip env.query (env.edges t.xBnd dx) (env.edges t.yBnd dy)) (foot := env.foot) (n := 20000)
    (c := { x := some t.xBnd, y := some t.yBnd, minEvents := me, minGroups := mg }) (files := files.map fun g => (env.productTime g, g))
    env.basedate (env.points (env.edges t.xBnd dx) (env.edges t.yBnd dy)) env.label hax hay (Or.inl hsz) (by
      intro p q s hs
      unfold foundClip at hs
      split at hs
      · exact hclip p q s hs
      · exact absurd hs (List.not_mem_nil)) ho (by omega) (by
      intro g hg hne
      obtain ⟨g, hg', rfl⟩ := List.mem_map.mp hg
      have h := hf g hg' hne
      exact
        { hasData := h.hasData
          consistent := h.consistent
          derived := h.derived
          flashes := h.flashes
          groups := h.groups
          areas := h.areas
          pixels := h.pixels
          polygons := fun e he => ⟨(h.polygons e he).1, (h.polygons e he).2,
            search_found env.clip env.query hax hay (Or.inl hsz) (h.polygons e he).1⟩
          onGrid := fun chunks hc ch hch => by
            obtain ⟨e, he, hcov⟩ := chunks_on_grid (rest := { minEvents := me, minGroups := mg }) ho (by omega) hax hay hsz
              ux uy x0 x1 y0 y1 h (fun e hee => hcen g hg' e hee) chunks hc ch hch
            exact ⟨e, he, by rwa [covered_found]⟩ })
  rw [readFiles_found] at h1
  refine ⟨fakes, h1, ?_⟩
  intro out scale
  obtain ⟨imgs, i1, i2⟩ := frames_image (env := env) (F := F) (sent := fakes) hdx hdy he hab hcd tx ty tp h2
    (Q := fun tf grid => ∀ i j, i + 1 < (env.edges t.xBnd dx).length → j + 1 < (env.edges t.yBnd dy).length →
      CellsOfFiles (foundClip env.clip env.query (env.edges t.xBnd dx) (env.edges t.yBnd dy)) env.foot (env.edges t.xBnd dx)
        (env.edges t.yBnd dy) { x := some t.xBnd, y := some t.yBnd, minEvents := me, minGroups := mg }
        ((filesOf env tf files).map fun g => (env.productTime g, g)) i j
        ((grid "flash_extent_density").val i j) ((grid "average_flash_area").val i j)
        ((grid "total_energy").val i j) ((grid "group_extent_density").val i j)
        ((grid "average_group_area").val i j) ((grid "minimum_flash_area").val i j)) (by
      intro tf
      obtain ⟨grids, grid, g1, g2, g3⟩ := h3 tf fun k f => F.keep tf (f.parentsFor k)
      refine ⟨grids, grid, g1, g2, ?_⟩
      intro i j hi hj
      have := g3 i j hi hj
      rw [List.filter_map] at this
      exact this) out scale
  refine ⟨imgs, i1, i2.imp ?_⟩
  rintro tf f ⟨grid, hv, f2, f3, f4, f5, f6, f7, f8⟩
  refine ⟨f2, f3, f4, f5, f6, ?_, ?_⟩
  · intro img hi
    rw [boxCentres_length, boxCentres_length]
    exact f7 img hi
  · intro row col X Y hX hY
    rw [show f.x = boxCentres xlo dx a b from f4] at hX
    rw [show f.y = (boxCentres ylo dy c d).reverse from f5] at hY
    obtain ⟨hcol, hX⟩ := boxCentres_get hX
    have hrow : row < d - c := by
      obtain ⟨hr, -⟩ := List.getElem?_eq_some_iff.mp hY
      rwa [List.length_reverse, boxCentres_length] at hr
    rw [List.getElem?_reverse (by rw [boxCentres_length]; exact hrow), boxCentres_length] at hY
    obtain ⟨-, hY⟩ := boxCentres_get hY
    obtain ⟨k, hk⟩ : ∃ k, k = d - c - 1 - row := ⟨_, rfl⟩
    rw [← hk] at hY
    have hkd : c + k < d := by omega
    have f8 := f8 row col hrow hcol
    rw [show q + (d - c) - 1 - row = q + k by omega] at f8
    have hcell := hv (p + col) (q + k) (by rw [ext, boxEdges_length]; omega) (by rw [eyt, boxEdges_length]; omega)
    exact ⟨_, _, _, _, _, _, by
      rw [hX, hY]
      exact tile_cell_holds hdx hdy he hab hcd hp2 hq2 tx ty me mg hbeside
        (fun g hg => hf g (List.mem_filter.mp hg).1) hcol hkd hcell,
      fun name img v him hv => f8 name img him v hv⟩

/-! ## Calls -/

/-- The entries of a list that are marked. -/
def marked {α : Type} : List Bool → List α → List α
  | true :: m, x :: l => x :: marked m l
  | false :: m, _ :: l => marked m l
  | _, _ => []

theorem marked_forall₂ {α β : Type} {R : α → β → Prop} {l : List α} {l' : List β} (h : List.Forall₂ R l l') (m : List Bool) :
    List.Forall₂ R (marked m l) (marked m l') := by
  induction h generalizing m with
  | nil => match m with
    | [] => exact .nil
    | true :: _ => exact .nil
    | false :: _ => exact .nil
  | cons hab _ ih => match m with
    | [] => exact .nil
    | true :: m => exact .cons hab (ih m)
    | false :: m => exact ih m

theorem marked_map {α β : Type} (l : List α) (p : α → Bool) (g : α → β) : marked (l.map p) (l.map g) = (l.filter p).map g := by
  induction l with
  | nil => rfl
  | cons a l ih =>
    rw [List.map_cons, List.map_cons]
    cases h : p a with
    | true => rw [List.filter_cons_of_pos h, List.map_cons, ← ih]; rfl
    | false => rw [List.filter_cons_of_neg (by simp [h]), ← ih]; rfl

/-- A call with several frames, from its files to the pixels of its images: of each tile there is one image for each frame,
which shows what the files of the frame should give. -/
theorem convex_frames {env : Surroundings} {F : Framing} (hF : PicksByTime F) {kw : Dict} (shared : Dict)
    {xlo ylo dx dy : Rat} {M N s : Nat} {me mg : Option Int} {files opened : List GFile}
    (h : ConvexCall env kw xlo ylo dx dy M N s me mg files opened) :
    ∃ runs shared', gridGlmFlashes (framesGridder env F) files kw shared = .ok (runs, shared') ∧
      (runs.map fun r => r.ij) = ((List.range s).flatMap fun i => (List.range s).map fun j => (i, j)) ∧
      (∀ r ∈ runs, ∃ imgs, r.written = imgs.map (fun f => (f.name, f)) ∧
        List.Forall₂ (fun tf f => ImageShows convexClip env.foot me mg (filesOf env tf opened) dx dy (r.scale != .bool false) tf
          (boxCentres xlo dx (tileStart M s r.ij.1) (tileStart M s (r.ij.1 + 1)))
          (boxCentres ylo dy (tileStart N s r.ij.2) (tileStart N s (r.ij.2 + 1))) f) (pairwise F.tEdges) imgs) ∧
      ∀ m n, m < M → n < N → ∃ r ∈ runs,
        xlo + (m + 1/2) * dx ∈ boxCentres xlo dx (tileStart M s r.ij.1) (tileStart M s (r.ij.1 + 1)) ∧
        ylo + (n + 1/2) * dy ∈ boxCentres ylo dy (tileStart N s r.ij.2) (tileStart N s (r.ij.2 + 1)) := by
  have g := h.good
  refine call_runs (env := env) (G := framesGridder env F)
    (P := fun sc xs ys (w : List (String × ImageFile)) => ∃ imgs, w = imgs.map (fun f => (f.name, f)) ∧
      List.Forall₂ (fun tf f => ImageShows convexClip env.foot me mg (filesOf env tf opened) dx dy sc tf xs ys f)
        (pairwise F.tEdges) imgs) rfl rfl rfl shared g.asked g.xPos g.yPos g.tiles g.xTiles g.yTiles g.xPad g.yPad g.opens
    g.some ?_
  intro t a b c d p q hab hcd hp hq ep eq tx ty tp
  subst ep eq
  obtain ⟨fakes, hread, himg⟩ := tile_frames hF g.xPos g.yPos g.edges hab hcd hp hq tx ty tp me mg (files := opened)
    g.parts g.beside g.order g.compact g.centred
  refine ⟨fakes, hread, fun out scale => ?_⟩
  obtain ⟨imgs, hi, hsh⟩ := himg out scale
  rw [h.clip] at hsh
  refine ⟨imgs.map fun f => (f.name, f), ?_, imgs, rfl, hsh⟩
  show (do let files ← framesImages env F _ out _ scale; pure (files.map fun (f : ImageFile) => (f.name, f))) = _
  rw [hi]
  rfl

/-- **C149**.  Like C142, for several frames: of each tile there is one image for each frame, in order, and it shows what is
recorded in the files whose product time is in the frame. -/
theorem C149_exact {env : Surroundings} {F : Framing} (hF : PicksByTime F) {nav : Rat → Rat → Rat × Rat} {kw : Dict}
    (shared : Dict) {xlo ylo dx dy : Rat} {M N s : Nat} {me mg : Option Int} {files : List GFile} (recorded : GFile → GFile)
    (h : PlainCall env kw xlo ylo dx dy M N s me mg) (hne : files ≠ [])
    (hopen : ∀ d ∈ files, ∃ d1 d', (∀ rev, env.openFile rev d = .ok d') ∧ ValidPart (recorded d) d1 ∧ GoodFile d1 ∧
      OpenedFrom nav d1 d')
    (htime : KeepsTime env files)
    (fit : ∀ d ∈ files, FitFile env.foot env.loc nav dx dy (padBoxes (28 / 10000) dx * dx) (padBoxes (28 / 10000) dy * dy)
      (recorded d)) :
    ∃ runs shared', gridGlmFlashes (framesGridder env F) files kw shared = .ok (runs, shared') ∧
      (runs.map fun r => r.ij) = ((List.range s).flatMap fun i => (List.range s).map fun j => (i, j)) ∧
      (∀ r ∈ runs, ∃ imgs, r.written = imgs.map (fun f => (f.name, f)) ∧
        List.Forall₂ (fun tf f => ImageOfFiles env.foot nav me mg ((filesOf env tf files).map recorded) dx dy
          (r.scale != .bool false) tf
          (boxCentres xlo dx (tileStart M s r.ij.1) (tileStart M s (r.ij.1 + 1)))
          (boxCentres ylo dy (tileStart N s r.ij.2) (tileStart N s (r.ij.2 + 1))) f) (pairwise F.tEdges) imgs) ∧
      ∀ m n, m < M → n < N → ∃ r ∈ runs,
        xlo + (m + 1/2) * dx ∈ boxCentres xlo dx (tileStart M s r.ij.1) (tileStart M s (r.ij.1 + 1)) ∧
        ylo + (n + 1/2) * dy ∈ boxCentres ylo dy (tileStart N s r.ij.2) (tileStart N s (r.ij.2 + 1)) := by
  obtain ⟨parts, opened, hp, ho, hc⟩ := h.convex recorded hne hopen fit
  obtain ⟨runs, sh, h1, h2, h3, h4⟩ := convex_frames hF shared hc
  refine ⟨runs, sh, h1, h2, ?_, h4⟩
  intro r hr
  obtain ⟨imgs, hi, hs⟩ := h3 r hr
  refine ⟨imgs, hi, hs.imp ?_⟩
  intro tf f hs
  refine ⟨hs.start, hs.stop, hs.x, hs.y, hs.names, hs.shape, ?_⟩
  intro row col X Y hx hy
  obtain ⟨fed, fa, te, ged, ga, mfa, hpx, hv⟩ := hs.pixels row col X Y hx hy
  refine ⟨fed, fa, te, ged, ga, mfa, ?_, hv⟩
  obtain ⟨rev, hrev⟩ := (Dict.has_iff _ _).mp (hc.asked.given "ellipse_rev" (by simp))
  set mark := files.map fun d => decide (InFrame env.basedate tf (env.productTime d)) with hmark
  have hm : mark = opened.map fun d => decide (InFrame env.basedate tf (env.productTime d)) := by
    refine (map_eq_of_forall₂ (f := fun d => decide (InFrame env.basedate tf (env.productTime d)))
      (g := fun d => decide (InFrame env.basedate tf (env.productTime d))) (forall₂_mem (hc.opens rev hrev)) ?_).symm
    intro d d' hd
    rw [htime rev d hd.2.1 d' hd.1]
  have e1 : marked mark opened = filesOf env tf opened := by
    have := marked_map opened (fun d => decide (InFrame env.basedate tf (env.productTime d))) id
    rw [List.map_id, List.map_id] at this
    rw [hm]
    exact this
  have e2 : marked mark (files.map recorded) = (filesOf env tf files).map recorded := marked_map _ _ _
  rw [← e1] at hpx
  rw [← e2]
  exact part_holds (marked_forall₂ hp mark) (opened_holds (marked_forall₂ ho mark) hpx)

/-- **C149** for files as the repository opens them. -/
theorem C149_partial {env : Surroundings} {F : Framing} (hF : PicksByTime F) {order : List Int → List Int}
    {nav : Rat → Rat → Rat × Rat} {kw : Dict} (shared : Dict) {xlo ylo dx dy : Rat} {M N s : Nat} {me mg : Option Int}
    {files : List GFile} (h : FileCall env order nav kw xlo ylo dx dy M N s me mg files) (htime : KeepsTime env files) :
    ∃ runs shared', gridGlmFlashes (framesGridder env F) files kw shared = .ok (runs, shared') ∧
      (runs.map fun r => r.ij) = ((List.range s).flatMap fun i => (List.range s).map fun j => (i, j)) ∧
      (∀ r ∈ runs, ∃ imgs, r.written = imgs.map (fun f => (f.name, f)) ∧
        List.Forall₂ (fun tf f => ImageOfFiles env.foot nav me mg (filesOf env tf files) dx dy
          (r.scale != .bool false) tf
          (boxCentres xlo dx (tileStart M s r.ij.1) (tileStart M s (r.ij.1 + 1)))
          (boxCentres ylo dy (tileStart N s r.ij.2) (tileStart N s (r.ij.2 + 1))) f) (pairwise F.tEdges) imgs) ∧
      ∀ m n, m < M → n < N → ∃ r ∈ runs,
        xlo + (m + 1/2) * dx ∈ boxCentres xlo dx (tileStart M s r.ij.1) (tileStart M s (r.ij.1 + 1)) ∧
        ylo + (n + 1/2) * dy ∈ boxCentres ylo dy (tileStart N s r.ij.2) (tileStart N s (r.ij.2 + 1)) := by
  have := C149_exact (nav := nav) hF shared id h.toPlainCall h.some (fun d hd => ?_) htime h.fit
  · simpa only [List.map_id] using this
  · obtain ⟨d1, d', h1, -, h2, h3, h4⟩ := (h.fit d hd).sound.opened h.ids nav
    exact ⟨d1, d', fun rev => by rw [h.opens]; exact h1, h2, h3, h4⟩

/-- A file is on one side of the edges of a frame: its events take place during the frame if its product time is in it, and
do not otherwise. -/
def OnOneSide (env : Surroundings) (t : Rat × Rat) (d : GFile) : Prop :=
  ∀ e ∈ d.events, InFrame env.basedate t (firstTime e) ↔ InFrame env.basedate t (env.productTime d)

theorem energy_contained {env : Surroundings} (nav : Rat → Rat → Rat × Rat) (me mg : Option Int) (dx dy X Y : Rat)
    {t : Rat × Rat} {files : List GFile} (hside : ∀ d ∈ files, OnOneSide env t d) :
    ((filesOf env t files).map fun d => ((fileEvents me mg d).map fun e => e.val.energy *
      (partArea convexClip (env.foot (navPlace nav e)) (pixelAt dx dy X Y) / |signedArea (env.foot (navPlace nav e))|)).sum).sum =
      energyDuring env nav me mg dx dy files t X Y := by
  classical
  unfold energyDuring filesOf
  induction files with
  | nil => rfl
  | cons d l ih =>
    have ih := ih fun d hd => hside d (List.mem_cons_of_mem _ hd)
    have hd := hside d List.mem_cons_self
    rw [List.map_cons, List.sum_cons, ← ih]
    by_cases hin : InFrame env.basedate t (env.productTime d)
    · have e : (fileEvents me mg d).filter (fun e => decide (InFrame env.basedate t (firstTime e))) = fileEvents me mg d := by
        refine List.filter_eq_self.mpr fun e he => ?_
        exact decide_eq_true ((hd e (List.mem_filter.mp he).1).mpr hin)
      rw [List.filter_cons_of_pos (by simpa using hin), List.map_cons, List.sum_cons, e]
    · have e : (fileEvents me mg d).filter (fun e => decide (InFrame env.basedate t (firstTime e))) = [] := by
        refine List.filter_eq_nil_iff.mpr fun e he hc => ?_
        exact hin ((hd e (List.mem_filter.mp he).1).mp (of_decide_eq_true hc))
      rw [List.filter_cons_of_neg (by simpa using hin), e, List.map_nil, List.sum_nil, zero_add]

/-- **C149** in full if no file is across an edge of the frames: the frames show the energies of their events. -/
theorem C149_contained_partial {env : Surroundings} {F : Framing} (hF : PicksByTime F) {order : List Int → List Int}
    {nav : Rat → Rat → Rat × Rat} {kw : Dict} (shared : Dict) {xlo ylo dx dy : Rat} {M N s : Nat} {me mg : Option Int}
    {files : List GFile} (h : FileCall env order nav kw xlo ylo dx dy M N s me mg files) (htime : KeepsTime env files)
    (hside : ∀ t ∈ pairwise F.tEdges, ∀ d ∈ files, OnOneSide env t d) :
    ∃ runs shared', gridGlmFlashes (framesGridder env F) files kw shared = .ok (runs, shared') ∧
      EnergiesShown runs F.tEdges (energyDuring env nav me mg dx dy files) := by
  obtain ⟨runs, sh, h1, -, h3, -⟩ := C149_partial hF shared h htime
  refine ⟨runs, sh, h1, ?_⟩
  intro r hr k t nf ht hnf row col X Y hX hY img himg
  obtain ⟨imgs, hw, hall⟩ := h3 r hr
  obtain ⟨f, hf, hi⟩ := forall₂_get hall ht
  have e : nf = (f.name, f) := by
    rw [hw, List.getElem?_map, hf] at hnf
    exact (Option.some.inj hnf).symm
  subst e
  obtain ⟨fed, fa, te, ged, ga, mfa, hp, hv⟩ := hi.pixels row col X Y hX hY
  have := hv "total_energy" img _ himg (List.mem_cons_of_mem _ (List.mem_cons_of_mem _ List.mem_cons_self))
  rw [this, hp.energy, energy_contained nav me mg dx dy X Y (hside t (List.mem_of_getElem? ht))]

/-! ## Sample -/

/-- A file whose events take place 65 s after the base date. -/
def lateFile : GFile :=
  { plainFile with events := plainFile.events.map fun e => { e with val := { e.val with times := [65000000000] } } }

/-- The surroundings of the sample: `lateFile` starts 50 s after the base date, other files at the base date. -/
def framesEnv : Surroundings :=
  { plainEnv with productTime := fun d => if d.events.any (fun e => e.val.times == [65000000000]) then 50000000000 else 0 }

/-- Frames with the given edges. -/
def sampleFrames (tEdges : List Rat) : Framing where
  tEdges := tEdges
  pick := fun t l => l.filter fun e => t.1 ≤ e.seconds ∧ e.seconds < t.2
  keep := fun t l => l.filter fun r => t.1 ≤ r.seconds ∧ r.seconds < t.2

theorem sampleFrames_pick (tEdges : List Rat) : PicksByTime (sampleFrames tEdges) := fun _ _ => List.Perm.refl _

theorem late_fit : FitFile framesEnv.foot framesEnv.loc sampleNav (1/1000) (1/1000) (padBoxes (28 / 10000) (1/1000) * (1/1000))
    (padBoxes (28 / 10000) (1/1000) * (1/1000)) lateFile := by
  have hpads : padBoxes (28 / 10000) (1 / 1000) = 2 := by decide +kernel
  rw [hpads]
  exact
    { sound := ⟨by unfold HasData; decide +kernel, by decide +kernel, by decide +kernel,
        by unfold UniqueIds; decide +kernel, by unfold UniqueIds; decide +kernel⟩
      areas := by decide +kernel
      pixels := by unfold navPlace; decide +kernel
      convex := fun _ _ => diamond_convex _
      area := by unfold navPlace; decide +kernel
      mean := fun _ _ => diamond_mean _
      narrow := by unfold navPlace; decide +kernel
      padded := by unfold navPlace; decide +kernel
      view := by unfold navPlace; decide +kernel
      compact := by unfold navPlace; decide +kernel }

/-- The sample meets the hypotheses of `C149_partial`. -/
theorem frames_call {files : List GFile} (hne : files ≠ []) (hf : ∀ d ∈ files, d = plainFile ∨ d = lateFile) :
    FileCall framesEnv id sampleNav wideCall 0 (-1/1000) (1/1000) (1/1000) 6 6 1 (some 2) none files :=
  { asked := plain_call.asked
    xPos := plain_call.xPos
    yPos := plain_call.yPos
    tiles := plain_call.tiles
    xTiles := plain_call.xTiles
    yTiles := plain_call.yTiles
    xPad := plain_call.xPad
    yPad := plain_call.yPad
    edges := plain_call.edges
    clip := plain_call.clip
    sets := plain_call.sets
    ids := plain_call.ids
    opens := plain_call.opens
    some := hne
    fit := by
      intro d hd
      rcases hf d hd with rfl | rfl
      · exact plain_call.fit _ (by simp)
      · exact late_fit }

theorem frames_time {files : List GFile} (hf : ∀ d ∈ files, d = plainFile ∨ d = lateFile) : KeepsTime framesEnv files := by
  have key : ∀ d ∈ [plainFile, lateFile], ∃ d', openDataset id sampleNav true true d = .ok d' ∧
      framesEnv.productTime d' = framesEnv.productTime d := by
    intro d hd
    simp only [List.mem_cons, List.not_mem_nil, or_false] at hd
    rcases hd with rfl | rfl
    · cases h : openDataset id sampleNav true true plainFile with
      | error e =>
        have : (openDataset id sampleNav true true plainFile).isOk = true := by decide +kernel
        rw [h] at this
        cases this
      | ok d' =>
        refine ⟨d', rfl, ?_⟩
        have : (openDataset id sampleNav true true plainFile).toOption.map framesEnv.productTime =
          some (framesEnv.productTime plainFile) := by decide +kernel
        rw [h] at this
        exact Option.some.inj this
    · cases h : openDataset id sampleNav true true lateFile with
      | error e =>
        have : (openDataset id sampleNav true true lateFile).isOk = true := by decide +kernel
        rw [h] at this
        cases this
      | ok d' =>
        refine ⟨d', rfl, ?_⟩
        have : (openDataset id sampleNav true true lateFile).toOption.map framesEnv.productTime =
          some (framesEnv.productTime lateFile) := by decide +kernel
        rw [h] at this
        exact Option.some.inj this
  intro rev d hd d' ho
  obtain ⟨d'', h1, h2⟩ := key d (by rcases hf d hd with rfl | rfl <;> simp)
  obtain rfl := Except.ok.inj (h1.symm.trans ho)
  exact h2

example : ∃ runs shared', gridGlmFlashes (framesGridder framesEnv (sampleFrames [0, 30, 60])) [plainFile, lateFile] wideCall [] =
    .ok (runs, shared') ∧ (runs.map fun r => r.ij) = [(0, 0)] := by
  obtain ⟨runs, sh, h1, h2, -⟩ := C149_partial (sampleFrames_pick [0, 30, 60]) []
    (frames_call (files := [plainFile, lateFile]) (by simp) (by simp)) (frames_time (by simp))
  exact ⟨runs, sh, h1, h2⟩

/-- Without `lateFile` no file of the sample is across an edge. -/
example : ∀ t ∈ pairwise (sampleFrames [0, 30, 60]).tEdges, ∀ d ∈ [plainFile], OnOneSide framesEnv t d := by
  unfold OnOneSide
  decide +kernel

/-- Energies in the images of frames. -/
def frameEnergies (tEdges : List Rat) (files : List GFile) : List (List Rat) :=
  match gridGlmFlashes (framesGridder framesEnv (sampleFrames tEdges)) files wideCall [] with
  | .ok (runs, _) => runs.flatMap fun (r : TileRun TileState ImageFile) => r.written.flatMap fun nf =>
      nf.2.fields.filterMap fun p => if p.1 = "total_energy" then some [p.2.val 2 1, p.2.val 3 1] else none
  | .error _ => []

example : frameEnergies [0, 30, 60, 90] [plainFile, lateFile] = [[11/6, 11/6], [11/6, 11/6], [0, 0]] := by decide +kernel

/-- C149 does not hold in full: the events of `lateFile` are shown in the frame of its product time, before they took place. -/
theorem C149_full_false : ¬ C149_full := by
  classical
  intro hfull
  have hf : ∀ d ∈ [lateFile], d = plainFile ∨ d = lateFile := by simp
  obtain ⟨runs, sh, h1, h2⟩ := hfull framesEnv (sampleFrames [0, 60]) id sampleNav wideCall [] 0 (-1/1000) (1/1000) (1/1000) 6 6 1
    (some 2) none [lateFile] (sampleFrames_pick _) (frames_call (by simp) hf) (frames_time hf)
  obtain ⟨runs', sh', g1, g2, g3, -⟩ := C149_partial (sampleFrames_pick [0, 60]) []
    (frames_call (files := [lateFile]) (by simp) hf) (frames_time hf)
  obtain ⟨rfl, rfl⟩ := Prod.mk.inj (Except.ok.inj (h1.symm.trans g1))
  have hE : frameEnergies [0, 60] [lateFile] = [[11/6, 11/6]] := by decide +kernel
  unfold frameEnergies at hE
  rw [h1] at hE
  simp only at hE
  have hm : [11/6, 11/6] ∈ ([[11/6, 11/6]] : List (List Rat)) := List.mem_singleton.mpr rfl
  rw [← hE] at hm
  obtain ⟨r, hr, hm⟩ := List.mem_flatMap.mp hm
  obtain ⟨nf, hnf, hm⟩ := List.mem_flatMap.mp hm
  obtain ⟨⟨name, img⟩, hp, hm⟩ := List.mem_filterMap.mp hm
  split at hm
  case isFalse => cases hm
  rename_i hname
  subst hname
  have hval : img.val 2 1 = 11/6 := by
    have := Option.some.inj hm
    simp only [List.cons.injEq] at this
    exact this.1
  obtain ⟨imgs, hw, hall⟩ := g3 r hr
  have hpair : pairwise (sampleFrames [0, 60]).tEdges = [(0, 60)] := rfl
  rw [hpair] at hall
  obtain ⟨f, rfl⟩ : ∃ f, imgs = [f] := by
    cases hall with
    | cons _ h => cases h; exact ⟨_, rfl⟩
  rw [hw, List.map_singleton, List.mem_singleton] at hnf
  subst hnf
  cases hall with
  | cons hi _ =>
    have hij : r.ij = (0, 0) := by
      have : r.ij ∈ runs.map fun r => r.ij := List.mem_map_of_mem hr
      rw [g2] at this
      simpa using this
    have hx := hi.x
    have hy := hi.y
    rw [hij] at hx hy
    obtain ⟨X, hX⟩ : ∃ X, f.x[1]? = some X := by
      rw [hx]
      exact ⟨_, List.getElem?_eq_getElem (by rw [boxCentres_length]; decide)⟩
    obtain ⟨Y, hY⟩ : ∃ Y, f.y[2]? = some Y := by
      rw [hy]
      exact ⟨_, List.getElem?_eq_getElem (by rw [List.length_reverse, boxCentres_length]; decide)⟩
    have hval' := h2 r hr 0 (0, 60) (f.name, f) rfl (by rw [hw]; rfl) 2 1 X Y hX hY img hp
    have hzero : energyDuring framesEnv sampleNav (some 2) none (1/1000) (1/1000) [lateFile] (0, 60) X Y = 0 := by
      unfold energyDuring
      rw [List.map_singleton, List.sum_singleton, List.filter_eq_nil_iff.mpr, List.map_nil, List.sum_nil]
      intro e he hc
      have hout : ∀ e ∈ lateFile.events, ¬ InFrame framesEnv.basedate (0, 60) (firstTime e) := by decide +kernel
      exact hout e (List.mem_filter.mp he).1 (of_decide_eq_true hc)
    rw [hzero, hval] at hval'
    unfold atLeastStep at hval'
    simp at hval'

end Verif.Props
