import Verif.Model.Session
import Verif.Props.Gridding
import Verif.Props.Chunk

/-!
# From files to the cells of the grids: C93, C94
-/

namespace Verif.Props

open Verif.Py Verif.Model Verif.Spec Verif.Proofs

/-! ## Specification -/

/-- The place of an event, in image coordinates. -/
def placeOf (e : Row GVal) : Pt := (e.val.x, e.val.y)

/-- The places at which a flash has events, each once. -/
def flashPlaces (d : GFile) (f : Row GVal) : List Pt :=
  ((d.events.filter fun e => EventOfFlash d f.id e).map placeOf).dedup

/-- The places at which a group has events, each once. -/
def groupPlaces (d : GFile) (g : Row GVal) : List Pt :=
  ((d.events.filter fun e => e.pid = g.id).map placeOf).dedup

open scoped Classical in
/-- The groups of the flashes that are asked for. -/
noncomputable def askedGroups (d : GFile) (c : Criteria) : List (Row GVal) :=
  d.groups.filter fun g => ∃ f ∈ askedFor d c, f.id = g.pid

open scoped Classical in
/-- The events of the flashes that are asked for. -/
noncomputable def askedEvents (d : GFile) (c : Criteria) : List (Row GVal) :=
  d.events.filter fun e => ∃ f ∈ askedFor d c, EventOfFlash d f.id e

/-- Events that the table puts together are at the same place. -/
def PixelExact (loc : Rat → Rat → Int) (d : GFile) : Prop :=
  ∀ e ∈ d.events, ∀ e' ∈ d.events, loc e.val.x e.val.y = loc e'.val.x e'.val.y → placeOf e = placeOf e'

/-! ## One table -/

theorem row_place {t : Int} {loc : Rat → Rat → Int} {w : GFile} {rows : List LutRow}
    (h : getLutevents t loc w = .ok rows) (hp : PixelExact loc w) {r : LutRow} (hr : r ∈ rows)
    {e : Row GVal} (he : e ∈ eventsAt loc w r.id) : placeOf e = (r.x, r.y) := by
  have hs := ((C17_conservation h).2.2.1 r hr).2
  have hall : ∀ e' ∈ eventsAt loc w r.id, placeOf e' = placeOf e := by
    intro e' he'
    obtain ⟨h1, h2⟩ := List.mem_filter.mp he
    obtain ⟨h3, h4⟩ := List.mem_filter.mp he'
    exact hp e' h3 e h1 (by rw [of_decide_eq_true h4, of_decide_eq_true h2])
  have hlen : ((eventsAt loc w r.id).length : Rat) ≠ 0 := by
    have : (eventsAt loc w r.id).length ≠ 0 := fun h0 => hs.occupied (List.length_eq_zero_iff.mp h0)
    exact_mod_cast this
  have key : ∀ (F : Row GVal → Rat) (v : Rat), (∀ e' ∈ eventsAt loc w r.id, F e' = F e) →
      v * (eventsAt loc w r.id).length = ((eventsAt loc w r.id).map F).sum → F e = v := by
    intro F v hF hv
    rw [List.map_congr_left hF, List.map_const', List.sum_replicate, nsmul_eq_mul, mul_comm] at hv
    exact (mul_left_cancel₀ hlen hv).symm
  have hx := key (fun e => e.val.x) r.x (fun e' he' => congrArg Prod.fst (hall e' he')) hs.x
  have hy := key (fun e => e.val.y) r.y (fun e' he' => congrArg Prod.snd (hall e' he')) hs.y
  exact Prod.ext hx hy

/-- The row of an event. -/
theorem row_of_event {t : Int} {loc : Rat → Rat → Int} {w : GFile} {rows : List LutRow}
    (h : getLutevents t loc w = .ok rows) {e : Row GVal} (he : e ∈ w.events) :
    ∃ r ∈ rows, e ∈ eventsAt loc w r.id := by
  obtain ⟨r, ⟨hr, hid⟩, -⟩ := (C17_conservation h).2.1 e he
  exact ⟨r, hr, List.mem_filter.mpr ⟨he, by simpa using hid.symm⟩⟩

/-- Every row stands for an event. -/
theorem event_of_row {t : Int} {loc : Rat → Rat → Int} {w : GFile} {rows : List LutRow}
    (h : getLutevents t loc w = .ok rows) {r : LutRow} (hr : r ∈ rows) :
    ∃ e, e ∈ eventsAt loc w r.id :=
  List.exists_mem_of_ne_nil _ ((C17_conservation h).2.2.1 r hr).2.occupied

theorem row_places_nodup {t : Int} {loc : Rat → Rat → Int} {w : GFile} {rows : List LutRow}
    (h : getLutevents t loc w = .ok rows) (hp : PixelExact loc w) :
    (rows.map fun r => (r.x, r.y)).Nodup := by
  have hn : (rows.map LutRow.id).Nodup := by rw [lut_ids h]; exact npUnique_nodup _
  refine List.Nodup.map_on ?_ hn.of_map
  intro r hr r' hr' heq
  refine List.inj_on_of_nodup_map hn hr hr' ?_
  obtain ⟨e, he⟩ := event_of_row h hr
  obtain ⟨e', he'⟩ := event_of_row h hr'
  have h1 : placeOf e = placeOf e' := by rw [row_place h hp hr he, row_place h hp hr' he', heq]
  have h2 := of_decide_eq_true (List.mem_filter.mp he).2
  have h3 := of_decide_eq_true (List.mem_filter.mp he').2
  rw [← h2, ← h3]
  unfold placeOf at h1
  rw [(Prod.mk.inj h1).1, (Prod.mk.inj h1).2]

theorem sum_swap {α β : Type} (l : List α) (m : List β) (R : α → β → Prop) [∀ a, DecidablePred (R a)]
    [∀ b, DecidablePred fun a => R a b] (u : β → Rat) (s : α → Rat) :
    (l.map fun a => ((m.filter fun b => R a b).map u).sum * s a).sum =
      (m.map fun b => u b * ((l.filter fun a => R a b).map s).sum).sum := by
  induction m with
  | nil => simp
  | cons b m ih =>
    rw [List.map_cons, List.sum_cons, ← ih]
    clear ih
    induction l with
    | nil => simp
    | cons a l ih =>
      rw [List.map_cons, List.sum_cons, ih, List.map_cons, List.sum_cons]
      by_cases h : R a b
      · rw [List.filter_cons_of_pos (by simpa using h), List.filter_cons_of_pos (by simpa using h)]
        simp only [List.map_cons, List.sum_cons]
        ring
      · rw [List.filter_cons_of_neg (by simpa using h), List.filter_cons_of_neg (by simpa using h)]
        ring

/-- A total over parents at the location of a row, times a weight of the place. -/
theorem parents_sum {t : Int} {loc : Rat → Rat → Int} {w : GFile} {rows : List LutRow}
    (h : getLutevents t loc w = .ok rows) (hp : PixelExact loc w) (P : List (Row GVal))
    (bel : Row GVal → Row GVal → Prop) [∀ f, DecidablePred (bel f)] (u : Row GVal → Rat) (q : LutRow → Rat)
    (hq : ∀ r ∈ rows, q r = ((P.filter fun f => ∃ e ∈ eventsAt loc w r.id, bel f e).map u).sum) (S : Pt → Rat) :
    (rows.map fun r => q r * S (r.x, r.y)).sum =
      (P.map fun f => u f * ((((w.events.filter fun e => bel f e).map placeOf).dedup).map S).sum).sum := by
  have h1 : (rows.map fun r => q r * S (r.x, r.y)) = rows.map fun (r : LutRow) =>
      ((P.filter fun f => ∃ e ∈ eventsAt loc w r.id, bel f e).map u).sum * S (r.x, r.y) := by
    apply List.map_congr_left
    intro r hr
    rw [hq r hr]
  rw [h1, sum_swap rows P (fun r f => ∃ e ∈ eventsAt loc w r.id, bel f e) u fun r => S (r.x, r.y)]
  congr 1
  apply List.map_congr_left
  intro f _
  congr 1
  have hperm : ((rows.filter fun (r : LutRow) => ∃ e ∈ eventsAt loc w r.id, bel f e).map fun r => (r.x, r.y)).Perm
      ((w.events.filter fun e => bel f e).map placeOf).dedup := by
    rw [List.perm_ext_iff_of_nodup ((row_places_nodup h hp).sublist
      (List.filter_sublist.map _)) (List.nodup_dedup _)]
    intro p
    rw [List.mem_dedup, List.mem_map, List.mem_map]
    constructor
    · rintro ⟨r, hr, rfl⟩
      obtain ⟨hr1, hr2⟩ := List.mem_filter.mp hr
      obtain ⟨e, he, hb⟩ := of_decide_eq_true hr2
      exact ⟨e, List.mem_filter.mpr ⟨(List.mem_filter.mp he).1, by simpa using hb⟩, row_place h hp hr1 he⟩
    · rintro ⟨e, he, rfl⟩
      obtain ⟨he1, he2⟩ := List.mem_filter.mp he
      obtain ⟨r, hr, her⟩ := row_of_event h he1
      exact ⟨r, List.mem_filter.mpr ⟨hr, by simpa using ⟨e, her, of_decide_eq_true he2⟩⟩,
        (row_place h hp hr her).symm⟩
  rw [← (hperm.map S).sum_eq, List.map_map]
  rfl

/-- A total over events at the location of a row, times a weight of the place. -/
theorem events_sum {t : Int} {loc : Rat → Rat → Int} {w : GFile} {rows : List LutRow}
    (h : getLutevents t loc w = .ok rows) (hp : PixelExact loc w) (S : Pt → Rat) :
    (rows.map fun r => r.energy * S (r.x, r.y)).sum =
      (w.events.map fun e => e.val.energy * S (placeOf e)).sum := by
  have h1 : (rows.map fun r => r.energy * S (r.x, r.y)) = (rows.map LutRow.id).map fun k =>
      ((eventsAt loc w k).map fun e => e.val.energy * S (placeOf e)).sum := by
    rw [List.map_map]
    apply List.map_congr_left
    intro r hr
    have h2 : ((eventsAt loc w r.id).map fun e => e.val.energy * S (placeOf e)) =
        (eventsAt loc w r.id).map fun e => e.val.energy * S (r.x, r.y) :=
      List.map_congr_left fun e he => by rw [row_place h hp hr he]
    simp only [Function.comp]
    rw [h2, ((C17_conservation h).2.2.1 r hr).2.energy, ← List.sum_map_mul_right]
  rw [h1, lut_ids h]
  apply sum_blocks w.events (fun e => loc e.val.x e.val.y) (fun e => e.val.energy * S (placeOf e))
    (npUnique_nodup _)
  intro e he
  rw [mem_npUnique]
  exact List.mem_map_of_mem he

/-! ## The chunks of a file -/

/-- An event of a chunk belongs to a flash of the chunk as in the file. -/
theorem kept_eventOfFlash {d : GFile} {cc : List Int} {i : Int} (hi : i ∈ cc) {e : Row GVal} :
    EventOfFlash (keptFlashes d cc) i e ↔ EventOfFlash d i e := by
  constructor
  · rintro ⟨g, hg, h1, h2⟩
    exact ⟨g, (mem_childrenInOrder.mp hg).1, h1, h2⟩
  · rintro ⟨g, hg, h1, h2⟩
    exact ⟨g, mem_childrenInOrder.mpr ⟨hg, by rw [h2]; exact hi⟩, h1, h2⟩

theorem kept_flashPlaces {d : GFile} {cc : List Int} {f : Row GVal} (hi : f.id ∈ cc) :
    (flashPlaces (keptFlashes d cc) f).Perm (flashPlaces d f) := by
  unfold flashPlaces
  rw [List.perm_ext_iff_of_nodup (List.nodup_dedup _) (List.nodup_dedup _)]
  intro p
  simp only [List.mem_dedup, List.mem_map, List.mem_filter, decide_eq_true_eq]
  constructor
  · rintro ⟨e, ⟨h1, h2⟩, rfl⟩
    exact ⟨e, ⟨(mem_childrenInOrder.mp h1).1, (kept_eventOfFlash hi).mp h2⟩, rfl⟩
  · rintro ⟨e, ⟨h1, h2⟩, rfl⟩
    refine ⟨e, ⟨?_, (kept_eventOfFlash hi).mpr h2⟩, rfl⟩
    obtain ⟨g, hg, h3, h4⟩ := (kept_eventOfFlash hi).mpr h2
    exact mem_childrenInOrder.mpr ⟨h1, by rw [← h3]; exact List.mem_map_of_mem hg⟩

theorem kept_groupPlaces {d : GFile} {cc : List Int} {g : Row GVal} (hg : g ∈ (keptFlashes d cc).groups) :
    (groupPlaces (keptFlashes d cc) g).Perm (groupPlaces d g) := by
  unfold groupPlaces
  rw [List.perm_ext_iff_of_nodup (List.nodup_dedup _) (List.nodup_dedup _)]
  intro p
  simp only [List.mem_dedup, List.mem_map, List.mem_filter, decide_eq_true_eq]
  constructor
  · rintro ⟨e, ⟨h1, h2⟩, rfl⟩
    exact ⟨e, ⟨(mem_childrenInOrder.mp h1).1, h2⟩, rfl⟩
  · rintro ⟨e, ⟨h1, h2⟩, rfl⟩
    exact ⟨e, ⟨mem_childrenInOrder.mpr ⟨h1, by rw [h2]; exact List.mem_map_of_mem hg⟩, h2⟩, rfl⟩

/-- What is assumed about a file: it has been opened without defects, flashes have an area, footprints are
polygons with an area of which the search finds all cells, and every chunk has a footprint with a part on the
grid. -/
structure FileFit (clip : Poly → Poly → List Poly) (query : List Pt → Pt → Nat → List Nat) (foot : Pt → Poly)
    (x y : List Rat) (order : List Int → List Int) (c : Criteria) (n : Nat) (d : GFile) : Prop where
  hasData : HasData d
  consistent : Consistent d
  derived : Derived d
  flashes : UniqueIds d.flashes
  groups : UniqueIds d.groups
  areas : ∀ f ∈ d.flashes, 0 < f.val.area
  polygons : ∀ e ∈ d.events, foot (placeOf e) ≠ [] ∧ signedArea (foot (placeOf e)) ≠ 0 ∧
    SearchComplete clip query x y (foot (placeOf e))
  onGrid : ∀ chunks, readFlashesChunks order d c n = .ok chunks → ∀ ch ∈ chunks, ∃ e ∈ ch.events,
    coveredArea clip query (gridMesh x y) (foot (placeOf e)) ≠ 0

/-- Moreover the table of the file puts only events at one place together. -/
structure FileOk (clip : Poly → Poly → List Poly) (query : List Pt → Pt → Nat → List Nat) (foot : Pt → Poly)
    (x y : List Rat) (loc : Rat → Rat → Int) (order : List Int → List Int) (c : Criteria) (n : Nat)
    (d : GFile) : Prop extends FileFit clip query foot x y order c n d where
  pixels : PixelExact loc d

/-- What the rows of the tables of a file amount to. -/
structure RowsOf (d : GFile) (c : Criteria) (rows : List LutRow) : Prop where
  energy : ∀ S : Pt → Rat, (rows.map fun r => r.energy * S (r.x, r.y)).sum =
    ((askedEvents d c).map fun e => e.val.energy * S (placeOf e)).sum
  flashCount : ∀ S : Pt → Rat, (rows.map fun r => (r.flashCount : Rat) * S (r.x, r.y)).sum =
    ((askedFor d c).map fun f => ((flashPlaces d f).map S).sum).sum
  groupCount : ∀ S : Pt → Rat, (rows.map fun r => (r.groupCount : Rat) * S (r.x, r.y)).sum =
    ((askedGroups d c).map fun g => ((groupPlaces d g).map S).sum).sum
  flashArea : ∀ S : Pt → Rat, (rows.map fun r => r.totalFlashArea * S (r.x, r.y)).sum =
    ((askedFor d c).map fun f => f.val.area * ((flashPlaces d f).map S).sum).sum
  groupArea : ∀ S : Pt → Rat, (rows.map fun r => r.totalGroupArea * S (r.x, r.y)).sum =
    ((askedGroups d c).map fun g => g.val.area * ((groupPlaces d g).map S).sum).sum
  least : ∀ r ∈ rows, ∃ f ∈ askedFor d c, (r.x, r.y) ∈ flashPlaces d f ∧ r.minFlashArea = f.val.area
  reached : ∀ f ∈ askedFor d c, ∀ p ∈ flashPlaces d f, ∃ r ∈ rows, (r.x, r.y) = p ∧
    r.minFlashArea ≤ f.val.area

theorem asked_mem {d : GFile} {c : Criteria} {f : Row GVal} (h : f ∈ askedFor d c) : f ∈ d.flashes := by
  unfold askedFor at h
  split at h
  · exact h
  · exact (List.mem_filter.mp h).1

theorem sum_flatMap_map {α β : Type} (l : List α) (f : α → List β) (q : β → Rat) :
    ((l.flatMap f).map q).sum = (l.map fun a => ((f a).map q).sum).sum := by
  induction l with
  | nil => rfl
  | cons a l ih => rw [List.flatMap_cons, List.map_append, List.sum_append, ih, List.map_cons, List.sum_cons]

/-- The tables of the chunks of a file. -/
theorem file_tables {clip : Poly → Poly → List Poly} {query : List Pt → Pt → Nat → List Nat} {foot : Pt → Poly}
    {x y : List Rat} {loc : Rat → Rat → Int} {order : List Int → List Int} (ho : ∀ l, (order l).Perm l)
    {c : Criteria} {n : Nat} (hn : 0 < n) {d : GFile} (t : Int)
    (h : FileOk clip query foot x y loc order c n d) :
    ∃ parts : List ((Int × GFile) × List LutRow),
      readFlashesChunks order d c n = .ok (parts.map fun p => p.1.2) ∧ (∀ p ∈ parts, p.1.1 = t) ∧
      (∀ p ∈ parts, ChunkOk clip query foot x y p.1.1 loc p.1.2 p.2) ∧
      RowsOf d c (parts.flatMap Prod.snd) := by
  obtain ⟨ids, hnd, hs, hp, -, hr, -⟩ := readFlashes_ids ho c (n := n) h.hasData h.derived h.flashes h.groups
  obtain ⟨chunks, hr', hperm, -⟩ := C20_chunks ho c hn h.hasData h.derived h.flashes h.groups
  have hroot : Rooted d := ⟨h.consistent.groupHasFlash, h.derived.flashOf⟩
  set cs : List (List Int) := if ids = [] then [] else arraySplit ids (max (ids.length / n) 1) with hcs
  have hchunks : (if ids = [] then [] else (arraySplit ids (max (ids.length / n) 1)).map (keptFlashes d)) =
      cs.map (keptFlashes d) := by
    rw [hcs]; split <;> rfl
  rw [hchunks] at hr
  have hch : chunks = cs.map (keptFlashes d) := by rw [hr] at hr'; injection hr' with hr'; exact hr'.symm
  have hk0 : 0 < max (ids.length / n) 1 := by omega
  have hfl : cs.flatten = ids := by
    rw [hcs]; split
    · rename_i h0; rw [h0]; rfl
    · exact arraySplit_flatten ids hk0
  have hcnd : ∀ cc ∈ cs, cc.Nodup := by
    intro cc hcc
    have := hnd
    rw [← hfl, List.nodup_flatten] at this
    exact this.1 cc hcc
  have hcsub : ∀ cc ∈ cs, ∀ i ∈ cc, i ∈ ids := fun cc hcc i hi => by
    rw [← hfl]; exact List.mem_flatten.mpr ⟨cc, hcc, hi⟩
  have hcne : ∀ cc ∈ cs, cc ≠ [] := by
    intro cc hcc h0
    obtain ⟨chunks', hr'', -, hlen, -⟩ := C20_chunks ho c hn h.hasData h.derived h.flashes h.groups
    rw [hr] at hr''
    injection hr'' with hr''
    have := (hlen (keptFlashes d cc) (by rw [← hr'']; exact List.mem_map_of_mem hcc)).1
    rw [h0] at this
    exact absurd this (by simp [keptFlashes, rowsInOrder])
  have hpix : ∀ cc, PixelExact loc (keptFlashes d cc) := fun cc e he e' he' =>
    h.pixels e (mem_childrenInOrder.mp he).1 e' (mem_childrenInOrder.mp he').1
  -- the tables
  obtain ⟨tables, ht1, ht2⟩ := mapM_ok_of_forall (f := getLutevents t loc ∘ keptFlashes d)
    (P := fun cc rows => getLutevents t loc (keptFlashes d cc) = .ok rows ∧
      ∀ r ∈ rows, ParentStats loc (keptFlashes d cc) r)
    (l := cs) (by
      intro cc hcc
      obtain ⟨rs, h1, h2⟩ := lut_ok t loc (kept_hasData h.consistent (hcne cc hcc)
        fun i hi => hs i (hcsub cc hcc i hi)) (kept_rooted hroot cc h.groups)
        (kept_unique (hcnd cc hcc) h.flashes h.groups).1 (kept_unique (hcnd cc hcc) h.flashes h.groups).2
      exact ⟨rs, h1, h1, h2⟩)
  have hlen : cs.length = tables.length := ht2.length_eq
  have hz1 : (cs.zip tables).map Prod.fst = cs := List.map_fst_zip (le_of_eq hlen)
  have hz2 : (cs.zip tables).map Prod.snd = tables := List.map_snd_zip (le_of_eq hlen.symm)
  have hz : ∀ q ∈ cs.zip tables, q.1 ∈ cs ∧ getLutevents t loc (keptFlashes d q.1) = .ok q.2 ∧
      ∀ r ∈ q.2, ParentStats loc (keptFlashes d q.1) r := fun q hq =>
    ⟨(List.of_mem_zip hq).1, List.forall₂_zip ht2 hq⟩
  have hrows : ((cs.zip tables).map fun q => ((t, keptFlashes d q.1), q.2)).flatMap Prod.snd =
      (cs.zip tables).flatMap Prod.snd := by
    rw [List.flatMap_map]
  have hsum : ∀ (q : LutRow → Rat) (G : List Int → Rat),
      (∀ p ∈ cs.zip tables, (p.2.map q).sum = G p.1) →
      (((cs.zip tables).flatMap Prod.snd).map q).sum = (cs.map G).sum := by
    intro q G hG
    rw [sum_flatMap_map, List.map_congr_left hG]
    have : (cs.zip tables).map (fun p => G p.1) = ((cs.zip tables).map Prod.fst).map G := by
      rw [List.map_map]; rfl
    rw [this, hz1]
  obtain ⟨k1, k2, k3⟩ := kept_concat d cs
  rw [hfl] at k1 k2 k3
  have hasked : ∀ i, i ∈ ids ↔ ∃ f ∈ askedFor d c, f.id = i := by
    intro i; rw [hp.mem_iff, List.mem_map]
  have hflashes : ∀ F : Row GVal → Rat,
      (cs.map fun cc => ((keptFlashes d cc).flashes.map F).sum).sum = ((askedFor d c).map F).sum := by
    intro F
    rw [hch] at hperm
    rw [← (hperm.map F).sum_eq, sum_flatMap_map, List.map_map]
    rfl
  have hgroups : ∀ F : Row GVal → Rat,
      (cs.map fun cc => ((keptFlashes d cc).groups.map F).sum).sum = ((askedGroups d c).map F).sum := by
    intro F
    have h1 : (keptFlashes d ids).groups.Perm (askedGroups d c) := by
      refine (childrenInOrder_perm hnd _).trans (List.Perm.of_eq ?_)
      unfold askedGroups
      apply List.filter_congr
      intro g _
      rw [decide_eq_decide]
      exact hasked g.pid
    rw [← (h1.map F).sum_eq, ← k2, sum_flatMap_map, List.map_map]
    rfl
  have hevents : ∀ F : Row GVal → Rat,
      (cs.map fun cc => ((keptFlashes d cc).events.map F).sum).sum = ((askedEvents d c).map F).sum := by
    intro F
    have h1 : (keptFlashes d ids).events.Perm (askedEvents d c) := by
      refine (kept_events_perm hroot h.groups hnd).trans (List.Perm.of_eq ?_)
      unfold askedEvents
      apply List.filter_congr
      intro e he
      rw [decide_eq_decide, hasked]
      constructor
      · rintro ⟨f, hf, hf2⟩
        exact ⟨f, hf, by rw [hf2]; exact h.derived.flashOf e he⟩
      · rintro ⟨f, hf, hf2⟩
        exact ⟨f, hf, eventOfFlash_unique h.groups hf2 (h.derived.flashOf e he)⟩
    rw [← (h1.map F).sum_eq, ← k3, sum_flatMap_map, List.map_map]
    rfl
  have len : ∀ l : List (Row GVal), (l.length : Rat) = (l.map fun _ => (1 : Rat)).sum := by
    intro l; simp
  have hpl : ∀ cc, ∀ S : Pt → Rat, ∀ u : Row GVal → Rat,
      ((keptFlashes d cc).flashes.map fun f => u f * (((((keptFlashes d cc).events.filter fun e =>
        EventOfFlash (keptFlashes d cc) f.id e).map placeOf).dedup).map S).sum) =
      (keptFlashes d cc).flashes.map fun f => u f * ((flashPlaces d f).map S).sum := by
    intro cc S u
    apply List.map_congr_left
    intro f hf
    have := ((kept_flashPlaces (d := d) (mem_rowsInOrder.mp hf).2).map S).sum_eq
    unfold flashPlaces at this ⊢
    rw [this]
  have hpg : ∀ cc, ∀ S : Pt → Rat, ∀ u : Row GVal → Rat,
      ((keptFlashes d cc).groups.map fun g => u g * (((((keptFlashes d cc).events.filter fun e =>
        e.pid = g.id).map placeOf).dedup).map S).sum) =
      (keptFlashes d cc).groups.map fun g => u g * ((groupPlaces d g).map S).sum := by
    intro cc S u
    apply List.map_congr_left
    intro g hg
    have := ((kept_groupPlaces (d := d) hg).map S).sum_eq
    unfold groupPlaces at this ⊢
    rw [this]
  have hF : ∀ (S : Pt → Rat) (u : Row GVal → Rat) (q : LutRow → Rat),
      (∀ p ∈ cs.zip tables, ∀ r ∈ p.2, q r =
        ((flashesAt loc (keptFlashes d p.1) r.id).map u).sum) →
      (((cs.zip tables).flatMap Prod.snd).map fun r => q r * S (r.x, r.y)).sum =
        ((askedFor d c).map fun f => u f * ((flashPlaces d f).map S).sum).sum := by
    intro S u q hq
    rw [← hflashes]
    apply hsum
    intro p hpz
    rw [parents_sum (hz p hpz).2.1 (hpix p.1) (keptFlashes d p.1).flashes
      (fun f e => EventOfFlash (keptFlashes d p.1) f.id e) u q (hq p hpz) S, hpl]
  have hG : ∀ (S : Pt → Rat) (u : Row GVal → Rat) (q : LutRow → Rat),
      (∀ p ∈ cs.zip tables, ∀ r ∈ p.2, q r =
        ((groupsAt loc (keptFlashes d p.1) r.id).map u).sum) →
      (((cs.zip tables).flatMap Prod.snd).map fun r => q r * S (r.x, r.y)).sum =
        ((askedGroups d c).map fun f => u f * ((groupPlaces d f).map S).sum).sum := by
    intro S u q hq
    rw [← hgroups]
    apply hsum
    intro p hpz
    rw [parents_sum (hz p hpz).2.1 (hpix p.1) (keptFlashes d p.1).groups
      (fun g e => e.pid = g.id) u q (hq p hpz) S, hpg]
  refine ⟨(cs.zip tables).map fun q => ((t, keptFlashes d q.1), q.2), ?_, ?_, ?_, ?_⟩
  · rw [hr, List.map_map]
    congr 1
    conv_lhs => rw [← hz1, List.map_map]
    rfl
  · intro p hpm
    obtain ⟨q, -, rfl⟩ := List.mem_map.mp hpm
    rfl
  · intro p hpm
    obtain ⟨q, hq, rfl⟩ := List.mem_map.mp hpm
    obtain ⟨hc1, htab, hst⟩ := hz q hq
    have hin : ∀ r ∈ q.2, ∃ e ∈ d.events, placeOf e = (r.x, r.y) := by
      intro r hr
      obtain ⟨e, he⟩ := event_of_row htab hr
      exact ⟨e, (mem_childrenInOrder.mp (List.mem_filter.mp he).1).1, row_place htab (hpix q.1) hr he⟩
    refine ⟨htab, ?_, ?_, ?_, ?_⟩
    · intro r hr
      obtain ⟨e, he, hpe⟩ := hin r hr
      rw [← hpe]
      exact ⟨(h.polygons e he).1, (h.polygons e he).2.1⟩
    · obtain ⟨e, he, hcov⟩ := h.onGrid _ hr (keptFlashes d q.1) (List.mem_map_of_mem hc1)
      obtain ⟨r, hr, her⟩ := row_of_event htab he
      exact ⟨r, hr, by rw [← row_place htab (hpix q.1) hr her]; exact hcov⟩
    · intro r hr
      obtain ⟨e, he, hpe⟩ := hin r hr
      rw [← hpe]
      exact (h.polygons e he).2.2
    · intro r hr
      obtain ⟨f, hf, hm⟩ := (hst r hr).minMem
      rw [hm]
      exact h.areas f (mem_rowsInOrder.mp (List.mem_filter.mp hf).1).1
  · rw [hrows]
    refine ⟨?_, ?_, ?_, ?_, ?_, ?_, ?_⟩
    · intro S
      rw [← hevents]
      apply hsum
      intro p hpz
      exact events_sum (hz p hpz).2.1 (hpix p.1) S
    · intro S
      rw [hF S (fun _ => 1) (fun r => r.flashCount) fun p hpz r hr => by
        rw [← len, ((hz p hpz).2.2 r hr).flashCount]]
      simp only [one_mul]
    · intro S
      rw [hG S (fun _ => 1) (fun r => r.groupCount) fun p hpz r hr => by
        rw [← len, ((hz p hpz).2.2 r hr).groupCount]]
      simp only [one_mul]
    · intro S
      exact hF S (fun f => f.val.area) LutRow.totalFlashArea fun p hpz r hr =>
        ((hz p hpz).2.2 r hr).totalFlashArea
    · intro S
      exact hG S (fun f => f.val.area) LutRow.totalGroupArea fun p hpz r hr =>
        ((hz p hpz).2.2 r hr).totalGroupArea
    · intro r hr
      obtain ⟨p, hpz, hrp⟩ := List.mem_flatMap.mp hr
      obtain ⟨hc1, htab, hst⟩ := hz p hpz
      obtain ⟨f, hf, hm⟩ := (hst r hrp).minMem
      obtain ⟨hf1, hf2⟩ := List.mem_filter.mp hf
      obtain ⟨e, he, hef⟩ := of_decide_eq_true hf2
      obtain ⟨hf3, hf4⟩ := mem_rowsInOrder.mp hf1
      obtain ⟨f', hf', hid⟩ := (hasked f.id).mp (hcsub p.1 hc1 f.id hf4)
      have hff : f' = f := List.inj_on_of_nodup_map h.flashes (asked_mem hf') hf3 hid
      refine ⟨f, hff ▸ hf', ?_, hm⟩
      rw [flashPlaces, List.mem_dedup, List.mem_map]
      exact ⟨e, List.mem_filter.mpr ⟨(mem_childrenInOrder.mp (List.mem_filter.mp he).1).1,
        by simpa using (kept_eventOfFlash hf4).mp hef⟩, row_place htab (hpix p.1) hrp he⟩
    · intro f hf pt hpt
      have hfi : f.id ∈ ids := (hasked f.id).mpr ⟨f, hf, rfl⟩
      rw [← hfl] at hfi
      obtain ⟨cc, hcc, hfc⟩ := List.mem_flatten.mp hfi
      rw [← hz1] at hcc
      obtain ⟨p, hpz, rfl⟩ := List.mem_map.mp hcc
      obtain ⟨hc1, htab, hst⟩ := hz p hpz
      rw [← (kept_flashPlaces (d := d) hfc).mem_iff, flashPlaces, List.mem_dedup, List.mem_map] at hpt
      obtain ⟨e, he, rfl⟩ := hpt
      obtain ⟨he1, he2⟩ := List.mem_filter.mp he
      obtain ⟨r, hr, her⟩ := row_of_event htab he1
      refine ⟨r, List.mem_flatMap.mpr ⟨p, hpz, hr⟩, (row_place htab (hpix p.1) hr her).symm, ?_⟩
      apply (hst r hr).minLe
      refine List.mem_filter.mpr ⟨mem_rowsInOrder.mpr ⟨asked_mem hf, hfc⟩, ?_⟩
      simpa using ⟨e, her, of_decide_eq_true he2⟩

/-! ## A list of files -/

theorem rowsOf_empty {d : GFile} (c : Criteria) (h : d.events = []) : RowsOf d c [] := by
  have hf : ∀ f, flashPlaces d f = [] := fun f => by unfold flashPlaces; rw [h]; rfl
  have hg : ∀ f, groupPlaces d f = [] := fun f => by unfold groupPlaces; rw [h]; rfl
  refine ⟨?_, ?_, ?_, ?_, ?_, ?_, ?_⟩
  · intro S; unfold askedEvents; rw [h]; rfl
  · intro S; simp [hf]
  · intro S; simp [hg]
  · intro S; simp [hf]
  · intro S; simp [hg]
  · intro r hr; exact absurd hr (List.not_mem_nil)
  · intro f _ p hp; rw [hf] at hp; exact absurd hp (List.not_mem_nil)

/-- What the rows of the tables of all files amount to. -/
structure RowsOfFiles (files : List (Int × GFile)) (c : Criteria) (rows : List LutRow) : Prop where
  energy : ∀ S : Pt → Rat, (rows.map fun r => r.energy * S (r.x, r.y)).sum =
    (files.map fun d => ((askedEvents d.2 c).map fun e => e.val.energy * S (placeOf e)).sum).sum
  flashCount : ∀ S : Pt → Rat, (rows.map fun r => (r.flashCount : Rat) * S (r.x, r.y)).sum =
    (files.map fun d => ((askedFor d.2 c).map fun f => ((flashPlaces d.2 f).map S).sum).sum).sum
  groupCount : ∀ S : Pt → Rat, (rows.map fun r => (r.groupCount : Rat) * S (r.x, r.y)).sum =
    (files.map fun d => ((askedGroups d.2 c).map fun g => ((groupPlaces d.2 g).map S).sum).sum).sum
  flashArea : ∀ S : Pt → Rat, (rows.map fun r => r.totalFlashArea * S (r.x, r.y)).sum =
    (files.map fun d => ((askedFor d.2 c).map fun f => f.val.area * ((flashPlaces d.2 f).map S).sum).sum).sum
  groupArea : ∀ S : Pt → Rat, (rows.map fun r => r.totalGroupArea * S (r.x, r.y)).sum =
    (files.map fun d => ((askedGroups d.2 c).map fun g =>
      g.val.area * ((groupPlaces d.2 g).map S).sum).sum).sum
  least : ∀ r ∈ rows, ∃ d ∈ files, ∃ f ∈ askedFor d.2 c, (r.x, r.y) ∈ flashPlaces d.2 f ∧
    r.minFlashArea = f.val.area
  reached : ∀ d ∈ files, ∀ f ∈ askedFor d.2 c, ∀ p ∈ flashPlaces d.2 f, ∃ r ∈ rows, (r.x, r.y) = p ∧
    r.minFlashArea ≤ f.val.area

theorem rowsOfFiles_cons {files : List (Int × GFile)} {c : Criteria} {rows rows' : List LutRow}
    {d : Int × GFile} (h : RowsOf d.2 c rows) (h' : RowsOfFiles files c rows') :
    RowsOfFiles (d :: files) c (rows ++ rows') := by
  refine ⟨?_, ?_, ?_, ?_, ?_, ?_, ?_⟩
  · intro S; rw [List.map_append, List.sum_append, h.energy, h'.energy, List.map_cons, List.sum_cons]
  · intro S; rw [List.map_append, List.sum_append, h.flashCount, h'.flashCount, List.map_cons, List.sum_cons]
  · intro S; rw [List.map_append, List.sum_append, h.groupCount, h'.groupCount, List.map_cons, List.sum_cons]
  · intro S; rw [List.map_append, List.sum_append, h.flashArea, h'.flashArea, List.map_cons, List.sum_cons]
  · intro S; rw [List.map_append, List.sum_append, h.groupArea, h'.groupArea, List.map_cons, List.sum_cons]
  · intro r hr
    rcases List.mem_append.mp hr with hr | hr
    · obtain ⟨f, hf, h1, h2⟩ := h.least r hr
      exact ⟨d, List.mem_cons_self, f, hf, h1, h2⟩
    · obtain ⟨d', hd', f, hf, h1, h2⟩ := h'.least r hr
      exact ⟨d', List.mem_cons_of_mem _ hd', f, hf, h1, h2⟩
  · intro d' hd' f hf p hp
    rcases List.mem_cons.mp hd' with rfl | hd'
    · obtain ⟨r, hr, h1⟩ := h.reached f hf p hp
      exact ⟨r, List.mem_append_left _ hr, h1⟩
    · obtain ⟨r, hr, h1⟩ := h'.reached d' hd' f hf p hp
      exact ⟨r, List.mem_append_right _ hr, h1⟩

theorem ok_bind' {α β : Type} (a : α) (f : α → Except Err β) : (Except.ok a >>= f) = f a := rfl

theorem mapM_of_forall₂ {α β γ : Type} {f : α → Except Err β} {g : γ → α} {l : List γ} {m : List β}
    (h : List.Forall₂ (fun c b => f (g c) = .ok b) l m) : (l.map g).mapM f = .ok m := by
  induction h with
  | nil => rfl
  | cons h1 _ ih => rw [List.map_cons, List.mapM_cons, h1, ok_bind', ih]; rfl

theorem readFlashesLut_of {clip : Poly → Poly → List Poly} {query : List Pt → Pt → Nat → List Nat}
    {foot : Pt → Poly} {x y : List Rat} {loc : Rat → Rat → Int} {order : List Int → List Int} {c : Criteria}
    {n : Nat} {t basedate : Int} {d : GFile} {ps : List ((Int × GFile) × List LutRow)} {f1 : List FakeLma}
    (j1 : readFlashesChunks order d c n = .ok (ps.map fun p => p.1.2)) (j2 : ∀ p ∈ ps, p.1.1 = t)
    (hf1 : List.Forall₂ (fun (p : (Int × GFile) × List LutRow) (fake : FakeLma) =>
        fastFixedGridReadChunk clip query (fun pts => pts.map foot) (gridMesh x y) p.1.1 basedate loc
          p.1.2 = .ok (some fake)) ps f1) :
    readFlashesLut clip query (fun pts => pts.map foot) (gridMesh x y) basedate loc order c n t d = .ok f1 := by
  unfold readFlashesLut
  rw [j1, ok_bind']
  have : (ps.map fun p => p.1.2).mapM (fastFixedGridReadChunk clip query (fun pts => pts.map foot)
      (gridMesh x y) t basedate loc) = .ok (f1.map some) := by
    apply mapM_of_forall₂
    rw [List.forall₂_map_right_iff]
    refine List.Forall₂.imp ?_ ((List.forall₂_and_left _ _).mpr ⟨fun p hp => j2 p hp, hf1⟩)
    rintro p fake ⟨hp1, hp2⟩
    rw [← hp1]
    exact hp2
  rw [this, ok_bind']
  simp [pure, Except.pure]

/-- The parts into which the files are read. -/
theorem files_parts {clip : Poly → Poly → List Poly} {query : List Pt → Pt → Nat → List Nat} {foot : Pt → Poly}
    {x y : List Rat} {loc : Rat → Rat → Int} {order : List Int → List Int} {c : Criteria}
    {n : Nat} (basedate : Int) (R : GFile → List LutRow → Prop) (Q : List (Int × GFile) → List LutRow → Prop)
    (hnil : Q [] []) (hcons : ∀ d files rows rows', R d.2 rows → Q files rows' → Q (d :: files) (rows ++ rows'))
    (hempty : ∀ d, d.events = [] → R d []) {files : List (Int × GFile)}
    (h : ∀ d ∈ files, d.2.events ≠ [] → ∃ parts : List ((Int × GFile) × List LutRow),
      readFlashesChunks order d.2 c n = .ok (parts.map fun p => p.1.2) ∧ (∀ p ∈ parts, p.1.1 = d.1) ∧
      (∀ p ∈ parts, ChunkOk clip query foot x y p.1.1 loc p.1.2 p.2) ∧ R d.2 (parts.flatMap Prod.snd)) :
    ∃ parts : List ((Int × GFile) × List LutRow),
      (∀ p ∈ parts, ChunkOk clip query foot x y p.1.1 loc p.1.2 p.2) ∧
      Q files (parts.flatMap Prod.snd) ∧
      ∀ fakes, List.Forall₂ (fun (p : (Int × GFile) × List LutRow) (fake : FakeLma) =>
        fastFixedGridReadChunk clip query (fun pts => pts.map foot) (gridMesh x y) p.1.1 basedate loc
          p.1.2 = .ok (some fake)) parts fakes →
        readFiles clip query (fun pts => pts.map foot) (gridMesh x y) basedate loc order c n files =
          .ok fakes := by
  induction files with
  | nil =>
    refine ⟨[], fun p hp => absurd hp (List.not_mem_nil), ?_, ?_⟩
    · exact hnil
    · intro fakes hf
      cases hf
      rfl
  | cons d files ih =>
    obtain ⟨parts, i1, i2, i3⟩ := ih fun d' hd' => h d' (List.mem_cons_of_mem _ hd')
    by_cases he : d.2.events = []
    · refine ⟨parts, i1, ?_, ?_⟩
      · have := hcons d files [] _ (hempty d.2 he) i2
        rwa [List.nil_append] at this
      · intro fakes hf
        have h3 := i3 fakes hf
        unfold readFiles at h3 ⊢
        rw [List.mapM_cons, if_neg (by rw [he]; simp)]
        simp only [bind, Except.bind, pure, Except.pure] at h3 ⊢
        cases hm : (files.mapM fun f => if f.2.events.length > 0 then
            readFlashesLut clip query (fun pts => pts.map foot) (gridMesh x y) basedate loc order c n f.1 f.2
          else Except.ok []) with
        | error e => rw [hm] at h3; exact absurd h3 (by simp)
        | ok v => rw [hm] at h3; simpa using h3
    · obtain ⟨ps, j1, j2, j3, j4⟩ := h d List.mem_cons_self he
      refine ⟨ps ++ parts, ?_, ?_, ?_⟩
      · intro p hp
        rcases List.mem_append.mp hp with hp | hp
        · exact j3 p hp
        · exact i1 p hp
      · rw [List.flatMap_append]
        exact hcons d files _ _ j4 i2
      · intro fakes hf
        obtain ⟨f1, f2, rfl, hf1, hf2⟩ : ∃ f1 f2, fakes = f1 ++ f2 ∧ List.Forall₂ _ ps f1 ∧
            List.Forall₂ _ parts f2 := by
          refine ⟨fakes.take ps.length, fakes.drop ps.length, (List.take_append_drop _ _).symm, ?_, ?_⟩
          · have := List.forall₂_take_append fakes ps parts hf.flip
            exact this.flip
          · have := List.forall₂_drop_append fakes ps parts hf.flip
            exact this.flip
        have h3 := i3 f2 hf2
        have h1 : readFlashesLut clip query (fun pts => pts.map foot) (gridMesh x y) basedate loc order c n
            d.1 d.2 = .ok f1 := readFlashesLut_of j1 j2 hf1
        unfold readFiles at h3 ⊢
        rw [List.mapM_cons, if_pos (List.length_pos_iff.mpr he), h1, ok_bind']
        simp only [bind, Except.bind, pure, Except.pure] at h3 ⊢
        cases hm : (files.mapM fun f => if f.2.events.length > 0 then
            readFlashesLut clip query (fun pts => pts.map foot) (gridMesh x y) basedate loc order c n f.1 f.2
          else Except.ok []) with
        | error e => rw [hm] at h3; exact absurd h3 (by simp)
        | ok v =>
          rw [hm] at h3
          simp only [Except.ok.injEq] at h3
          simp [h3]

/-- The parts, and what they amount to. -/
theorem files_tables {clip : Poly → Poly → List Poly} {query : List Pt → Pt → Nat → List Nat} {foot : Pt → Poly}
    {x y : List Rat} {loc : Rat → Rat → Int} {order : List Int → List Int} (ho : ∀ l, (order l).Perm l)
    {c : Criteria} {n : Nat} (hn : 0 < n) (basedate : Int) {files : List (Int × GFile)}
    (h : ∀ d ∈ files, d.2.events ≠ [] → FileOk clip query foot x y loc order c n d.2) :
    ∃ parts : List ((Int × GFile) × List LutRow),
      (∀ p ∈ parts, ChunkOk clip query foot x y p.1.1 loc p.1.2 p.2) ∧
      RowsOfFiles files c (parts.flatMap Prod.snd) ∧
      ∀ fakes, List.Forall₂ (fun (p : (Int × GFile) × List LutRow) (fake : FakeLma) =>
        fastFixedGridReadChunk clip query (fun pts => pts.map foot) (gridMesh x y) p.1.1 basedate loc
          p.1.2 = .ok (some fake)) parts fakes →
        readFiles clip query (fun pts => pts.map foot) (gridMesh x y) basedate loc order c n files =
          .ok fakes :=
  files_parts basedate (fun d rows => RowsOf d c rows) (fun files rows => RowsOfFiles files c rows)
    ⟨fun S => rfl, fun S => rfl, fun S => rfl, fun S => rfl, fun S => rfl,
      fun r hr => absurd hr (List.not_mem_nil), fun d hd => absurd hd (List.not_mem_nil)⟩
    (fun _ _ _ _ h1 h2 => rowsOfFiles_cons h1 h2) (fun _ he => rowsOf_empty c he)
    fun d hd he => file_tables ho hn d.1 (h d hd he)

theorem leastOrZero_trans {A B : List Rat} {v : Rat} (h1 : ∀ a ∈ A, a ∈ B) (h2 : ∀ b ∈ B, ∃ a ∈ A, a ≤ b)
    (h : LeastOrZero A v) : LeastOrZero B v := by
  constructor
  · intro hB
    apply h.1
    rw [List.eq_nil_iff_forall_not_mem]
    intro a ha
    have := h1 a ha
    rw [hB] at this
    exact absurd this (List.not_mem_nil)
  · intro hB
    obtain ⟨b, hb⟩ := List.exists_mem_of_ne_nil _ hB
    obtain ⟨a, ha, -⟩ := h2 b hb
    obtain ⟨h3, h4⟩ := h.2 (List.ne_nil_of_mem ha)
    refine ⟨h1 v h3, ?_⟩
    intro u hu
    obtain ⟨a', ha', hle⟩ := h2 u hu
    exact le_trans (h4 a' ha') hle

/-! ## C93 -/

/-- The values of the cells of the grids, from the contents of the files alone. -/
structure CellsOfFiles (clip : Poly → Poly → List Poly) (foot : Pt → Poly) (x y : List Rat) (c : Criteria)
    (files : List (Int × GFile)) (i j : Nat) (fed fa te ged ga mfa : Rat) : Prop where
  /-- Energy: of each event, the part of its footprint that is in the cell. -/
  energy : te = (files.map fun d => ((askedEvents d.2 c).map fun e =>
    e.val.energy * (areaInCell clip x y (foot (placeOf e)) i j / |signedArea (foot (placeOf e))|)).sum).sum
  /-- Flashes: the part of the cell that is under the footprint of each pixel of the flash. -/
  flashes : fed = (files.map fun d => ((askedFor d.2 c).map fun f => ((flashPlaces d.2 f).map fun p =>
    areaInCell clip x y (foot p) i j / gridCellArea x y i j).sum).sum).sum
  groups : ged = (files.map fun d => ((askedGroups d.2 c).map fun g => ((groupPlaces d.2 g).map fun p =>
    areaInCell clip x y (foot p) i j / gridCellArea x y i j).sum).sum).sum
  flashArea : fa = (files.map fun d => ((askedFor d.2 c).map fun f => f.val.area *
    ((flashPlaces d.2 f).map fun p => areaInCell clip x y (foot p) i j / gridCellArea x y i j).sum).sum).sum
  groupArea : ga = (files.map fun d => ((askedGroups d.2 c).map fun g => g.val.area *
    ((groupPlaces d.2 g).map fun p => areaInCell clip x y (foot p) i j / gridCellArea x y i j).sum).sum).sum
  /-- The least area among the flashes with a pixel whose footprint reaches the cell. -/
  least : LeastOrZero (files.flatMap fun (d : Int × GFile) => ((askedFor d.2 c).filter fun (f : Row GVal) =>
    ∃ p ∈ flashPlaces d.2 f, clip (foot p) (cellRect x y j i) ≠ []).map fun f => f.val.area) mfa

/-- **C93**, for files in which the table puts only events at one place together: the six grids hold in each
cell what the flashes, groups and events that are asked for put there, and nothing of this depends on
the size of the chunks, on the order of the flashes, or on the base date. -/
theorem C93_partial (clip : Poly → Poly → List Poly) (query : List Pt → Pt → Nat → List Nat)
    (foot : Pt → Poly) (x y : List Rat) (basedate : Int) (loc : Rat → Rat → Int)
    (order : List Int → List Int) (c : Criteria) (n : Nat) (files : List (Int × GFile))
    (points : Grid → List LmaParent → Grid) (label : String) (par : String → FakeLma → List LmaParent)
    (hx : AxisOk x) (hy : AxisOk y) (hsz : 2 < x.length ∨ 2 < y.length)
    (hclip : ∀ p q s, s ∈ clip p q → s ≠ []) (ho : ∀ l, (order l).Perm l) (hn : 0 < n)
    (h : ∀ d ∈ files, d.2.events ≠ [] → FileOk clip query foot x y loc order c n d.2) :
    ∃ fakes outgrids grids fed fa te ged ga mfa,
      readFiles clip query (fun pts => pts.map foot) (gridMesh x y) basedate loc order c n files =
        .ok fakes ∧ lutPipelineSetup = .ok outgrids ∧
      gridFrame points (x.length - 1) (y.length - 1) outgrids
        (fun k => fakes.map fun f => (f.children, par k f)) = .ok grids ∧
      gridNamed label grids "flash_extent_density" = some fed ∧
      gridNamed label grids "average_flash_area" = some fa ∧
      gridNamed label grids "total_energy" = some te ∧
      gridNamed label grids "group_extent_density" = some ged ∧
      gridNamed label grids "average_group_area" = some ga ∧
      gridNamed label grids "minimum_flash_area" = some mfa ∧
      (∀ g ∈ [fed, fa, te, ged, ga, mfa], g.n0 = x.length - 1 ∧ g.n1 = y.length - 1) ∧
      ∀ i j, i + 1 < x.length → j + 1 < y.length →
        CellsOfFiles clip foot x y c files i j (fed.val i j) (fa.val i j) (te.val i j) (ged.val i j)
          (ga.val i j) (mfa.val i j) := by
  obtain ⟨parts, p1, p2, p3⟩ := files_tables ho hn basedate h
  obtain ⟨fakes, hF, outgrids, grids, fed, fa, te, ged, ga, mfa, o1, o2, n1, n2, n3, n4, n5, n6, hd, hv⟩ :=
    C67_grids clip query foot x y basedate loc parts points label par hx hy hsz hclip p1
  refine ⟨fakes, outgrids, grids, fed, fa, te, ged, ga, mfa, p3 fakes hF, o1, o2, n1, n2, n3, n4, n5, n6, hd, ?_⟩
  intro i j hi hj
  obtain ⟨v1, v2, v3, v4, v5, v6⟩ := hv i j hi hj
  refine ⟨?_, ?_, ?_, ?_, ?_, ?_⟩
  · rw [v1, p2.energy fun p => areaInCell clip x y (foot p) i j / |signedArea (foot p)|]
  · rw [v2, p2.flashCount fun p => areaInCell clip x y (foot p) i j / gridCellArea x y i j]
  · rw [v3, p2.groupCount fun p => areaInCell clip x y (foot p) i j / gridCellArea x y i j]
  · rw [v4, p2.flashArea fun p => areaInCell clip x y (foot p) i j / gridCellArea x y i j]
  · rw [v5, p2.groupArea fun p => areaInCell clip x y (foot p) i j / gridCellArea x y i j]
  · refine leastOrZero_trans ?_ ?_ v6
    · intro a ha
      obtain ⟨r, hr, rfl⟩ := List.mem_map.mp ha
      obtain ⟨hr1, hr2⟩ := List.mem_filter.mp hr
      obtain ⟨d, hd, f, hf, hp, hm⟩ := p2.least r hr1
      refine List.mem_flatMap.mpr ⟨d, hd, List.mem_map.mpr ⟨f, List.mem_filter.mpr ⟨hf, ?_⟩, hm.symm⟩⟩
      simpa using ⟨_, _, hp, of_decide_eq_true hr2⟩
    · intro b hb
      obtain ⟨d, hd, hb⟩ := List.mem_flatMap.mp hb
      obtain ⟨f, hf, rfl⟩ := List.mem_map.mp hb
      obtain ⟨hf1, hf2⟩ := List.mem_filter.mp hf
      obtain ⟨p, hp, hcl⟩ := of_decide_eq_true hf2
      obtain ⟨r, hr, rfl, hle⟩ := p2.reached d hd f hf1 p hp
      exact ⟨r.minFlashArea, List.mem_map.mpr ⟨r, List.mem_filter.mpr ⟨hr, by simpa using hcl⟩, rfl⟩, hle⟩

/-- C93 in the form: the grids do not depend on the size of the chunks.  (For files of which only the
table is not restricted.) -/
def C93_full : Prop := ∀ (clip : Poly → Poly → List Poly) (query : List Pt → Pt → Nat → List Nat)
  (foot : Pt → Poly) (x y : List Rat) (basedate : Int) (loc : Rat → Rat → Int)
  (order : List Int → List Int) (c : Criteria) (n n' : Nat) (files : List (Int × GFile))
  (points : Grid → List LmaParent → Grid) (label : String) (par : String → FakeLma → List LmaParent),
  AxisOk x → AxisOk y → 2 < x.length ∨ 2 < y.length → (∀ p q s, s ∈ clip p q → s ≠ []) →
  (∀ l, (order l).Perm l) → 0 < n → 0 < n' →
  (∀ d ∈ files, d.2.events ≠ [] → FileFit clip query foot x y order c n d.2 ∧
    FileFit clip query foot x y order c n' d.2) →
  ∀ fakes fakes' outgrids grids grids',
    readFiles clip query (fun pts => pts.map foot) (gridMesh x y) basedate loc order c n files = .ok fakes →
    readFiles clip query (fun pts => pts.map foot) (gridMesh x y) basedate loc order c n' files = .ok fakes' →
    lutPipelineSetup = .ok outgrids →
    gridFrame points (x.length - 1) (y.length - 1) outgrids
      (fun k => fakes.map fun f => (f.children, par k f)) = .ok grids →
    gridFrame points (x.length - 1) (y.length - 1) outgrids
      (fun k => fakes'.map fun f => (f.children, par k f)) = .ok grids' →
    ∀ name ∈ ["flash_extent_density", "average_flash_area", "total_energy", "group_extent_density",
      "average_group_area", "minimum_flash_area"],
      ∃ g g', gridNamed label grids name = some g ∧ gridNamed label grids' name = some g' ∧
        ∀ i j, i + 1 < x.length → j + 1 < y.length → g.val i j = g'.val i j

/-- The same with the restriction on the table: chunks of any two sizes give the same grids. -/
theorem C93_chunk_size_partial (clip : Poly → Poly → List Poly) (query : List Pt → Pt → Nat → List Nat)
    (foot : Pt → Poly) (x y : List Rat) (basedate : Int) (loc : Rat → Rat → Int)
    (order : List Int → List Int) (c : Criteria) (n n' : Nat) (files : List (Int × GFile))
    (points : Grid → List LmaParent → Grid) (label : String) (par : String → FakeLma → List LmaParent)
    (hx : AxisOk x) (hy : AxisOk y) (hsz : 2 < x.length ∨ 2 < y.length)
    (hclip : ∀ p q s, s ∈ clip p q → s ≠ []) (ho : ∀ l, (order l).Perm l) (hn : 0 < n) (hn' : 0 < n')
    (h : ∀ d ∈ files, d.2.events ≠ [] → FileFit clip query foot x y order c n d.2 ∧
      FileFit clip query foot x y order c n' d.2) (hp : ∀ d ∈ files, PixelExact loc d.2) :
    ∀ fakes fakes' outgrids grids grids',
    readFiles clip query (fun pts => pts.map foot) (gridMesh x y) basedate loc order c n files = .ok fakes →
    readFiles clip query (fun pts => pts.map foot) (gridMesh x y) basedate loc order c n' files = .ok fakes' →
    lutPipelineSetup = .ok outgrids →
    gridFrame points (x.length - 1) (y.length - 1) outgrids
      (fun k => fakes.map fun f => (f.children, par k f)) = .ok grids →
    gridFrame points (x.length - 1) (y.length - 1) outgrids
      (fun k => fakes'.map fun f => (f.children, par k f)) = .ok grids' →
    ∀ name ∈ ["flash_extent_density", "average_flash_area", "total_energy", "group_extent_density",
      "average_group_area", "minimum_flash_area"],
      ∃ g g', gridNamed label grids name = some g ∧ gridNamed label grids' name = some g' ∧
        ∀ i j, i + 1 < x.length → j + 1 < y.length → g.val i j = g'.val i j := by
  intro fakes fakes' outgrids grids grids' r1 r2 hs g1 g2 name hname
  obtain ⟨f1, o1, gr1, fed, fa, te, ged, ga, mfa, a1, a2, a3, a4, a5, a6, a7, a8, a9, -, a10⟩ :=
    C93_partial clip query foot x y basedate loc order c n files points label par hx hy hsz hclip ho hn
      fun d hd he => { toFileFit := (h d hd he).1, pixels := hp d hd }
  obtain ⟨f2, o2, gr2, fed', fa', te', ged', ga', mfa', b1, b2, b3, b4, b5, b6, b7, b8, b9, -, b10⟩ :=
    C93_partial clip query foot x y basedate loc order c n' files points label par hx hy hsz hclip ho hn'
      fun d hd he => { toFileFit := (h d hd he).2, pixels := hp d hd }
  obtain rfl : f1 = fakes := Except.ok.inj (a1.symm.trans r1)
  obtain rfl : f2 = fakes' := Except.ok.inj (b1.symm.trans r2)
  obtain rfl : o1 = outgrids := Except.ok.inj (a2.symm.trans hs)
  obtain rfl : o2 = o1 := Except.ok.inj (b2.symm.trans hs)
  obtain rfl : gr1 = grids := Except.ok.inj (a3.symm.trans g1)
  obtain rfl : gr2 = grids' := Except.ok.inj (b3.symm.trans g2)
  simp only [List.mem_cons, List.not_mem_nil, or_false] at hname
  rcases hname with rfl | rfl | rfl | rfl | rfl | rfl
  · exact ⟨_, _, a4, b4, fun i j hi hj => by rw [(a10 i j hi hj).flashes, (b10 i j hi hj).flashes]⟩
  · exact ⟨_, _, a5, b5, fun i j hi hj => by rw [(a10 i j hi hj).flashArea, (b10 i j hi hj).flashArea]⟩
  · exact ⟨_, _, a6, b6, fun i j hi hj => by rw [(a10 i j hi hj).energy, (b10 i j hi hj).energy]⟩
  · exact ⟨_, _, a7, b7, fun i j hi hj => by rw [(a10 i j hi hj).groups, (b10 i j hi hj).groups]⟩
  · exact ⟨_, _, a8, b8, fun i j hi hj => by rw [(a10 i j hi hj).groupArea, (b10 i j hi hj).groupArea]⟩
  · exact ⟨_, _, a9, b9, fun i j hi hj => leastOrZero_unique (List.Perm.refl _) (a10 i j hi hj).least (b10 i j hi hj).least⟩

/-! ## Rectangular footprints -/

/-- Files whose events have rectangular footprints inside a grid of equal cells. -/
theorem fileFit_rect (query : List Pt → Pt → Nat → List Nat) {x y : List Rat} {dx dy w h : Rat}
    {order : List Int → List Int} (ho : ∀ l, (order l).Perm l) {c : Criteria} {n : Nat} (hn : 0 < n)
    {d : GFile} (hx : AxisOk x) (hy : AxisOk y) (hsz : 2 < x.length ∨ 2 < y.length)
    (ux : Spaced x dx) (uy : Spaced y dy) (hw0 : 0 < w) (hh0 : 0 < h) (hw : w ≤ 2 * dx) (hh : h ≤ 2 * dy)
    (hd : HasData d) (hc : Consistent d) (hv : Derived d) (hf : UniqueIds d.flashes) (hg : UniqueIds d.groups)
    (ha : ∀ f ∈ d.flashes, 0 < f.val.area)
    (hin : ∀ e ∈ d.events, x.getD 0 0 ≤ e.val.x - w ∧ e.val.x + w ≤ x.getD (x.length - 1) 0 ∧
      y.getD 0 0 ≤ e.val.y - h ∧ e.val.y + h ≤ y.getD (y.length - 1) 0) :
    FileFit rectClip query (fun p => rect (p.1 - w) (p.1 + w) (p.2 - h) (p.2 + h)) x y order c n d := by
  have hpos : 0 < (2 * w) * (2 * h) := by positivity
  refine ⟨hd, hc, hv, hf, hg, ha, ?_, ?_⟩
  · intro e he
    obtain ⟨i1, i2, i3, i4⟩ := hin e he
    refine ⟨by simp [rect], ?_, ?_⟩
    · rw [rect_area]
      simp only [placeOf]
      have : (e.val.x + w - (e.val.x - w)) * (e.val.y + h - (e.val.y - h)) = (2 * w) * (2 * h) := by ring
      rw [this]
      exact ne_of_gt hpos
    · simp only [placeOf]
      exact rect_search query x y dx dy _ _ _ _ hx hy hsz ux uy (by linarith) (by linarith)
        (by linarith) (by linarith) (by linarith) (by linarith)
  · intro chunks hch ch hm
    obtain ⟨ids, hnd, hs, hp, -, hr, -⟩ := readFlashes_ids ho c (n := n) hd hv hf hg
    obtain ⟨chunks', hr', -, hlen, -⟩ := C20_chunks ho c hn hd hv hf hg
    rw [hch] at hr hr'
    obtain rfl := Except.ok.inj hr'
    have hchunk := Except.ok.inj hr
    have hl := (hlen ch hm).1
    have hch2 : ∃ cc, ch = keptFlashes d cc ∧ cc ≠ [] ∧ ∀ i ∈ cc, i ∈ ids := by
      rw [hchunk] at hm
      split at hm
      · exact absurd hm (List.not_mem_nil)
      · obtain ⟨cc, hcc, rfl⟩ := List.mem_map.mp hm
        refine ⟨cc, rfl, ?_, ?_⟩
        · rintro rfl
          exact absurd hl (by simp [keptFlashes, rowsInOrder])
        · intro i hi
          rw [← arraySplit_flatten ids (n := max (ids.length / n) 1) (by omega)]
          exact List.mem_flatten.mpr ⟨cc, hcc, hi⟩
    obtain ⟨cc, rfl, hne, hsub⟩ := hch2
    obtain ⟨-, -, h3⟩ := kept_hasData hc hne fun i hi => hs i (hsub i hi)
    obtain ⟨e, he⟩ := List.exists_mem_of_ne_nil _ h3
    refine ⟨e, he, ?_⟩
    obtain ⟨i1, i2, i3, i4⟩ := hin e (mem_childrenInOrder.mp he).1
    simp only [placeOf]
    rw [rect_covered query x y dx dy _ _ _ _ hx hy hsz ux uy (by linarith) (by linarith) i1 i2
      i3 i4 (by linarith) (by linarith)]
    have : (e.val.x + w - (e.val.x - w)) * (e.val.y + h - (e.val.y - h)) = (2 * w) * (2 * h) := by ring
    rw [this]
    exact ne_of_gt hpos

/-- A file of two flashes with two events in one pixel of the table, at different places. -/
def nearSample : GFile where
  flashes := [⟨5, 0, { area := 100, nGroups := 1, nEvents := 1 }⟩, ⟨3, 0, { area := 60, nGroups := 1, nEvents := 1 }⟩]
  groups := [⟨11, 5, { nEvents := 1 }⟩, ⟨12, 3, { nEvents := 1 }⟩]
  events := [⟨100, 11, { x := 2, y := 2, energy := 1, flashOf := 5 }⟩,
    ⟨101, 12, { x := 5/2, y := 2, energy := 3, flashOf := 3 }⟩]

theorem nearSample_fit (query : List Pt → Pt → Nat → List Nat) {n : Nat} (hn : 0 < n) :
    FileFit rectClip query (fun p => rect (p.1 - 1/2) (p.1 + 1/2) (p.2 - 1/2) (p.2 + 1/2)) sampleX sampleY id {} n
      nearSample := by
  obtain ⟨a1, a2, -, -⟩ := sample_axes
  obtain ⟨a3, a4⟩ := sample_spaced
  refine fileFit_rect query (fun l => List.Perm.refl _) hn a1 a2 (Or.inl (by decide)) a3 a4 (by norm_num)
    (by norm_num) (by norm_num) (by norm_num) ?_ (by decide +kernel) ?_ ?_ ?_ (by decide +kernel)
    (by decide +kernel)
  · unfold HasData; decide +kernel
  · exact ⟨by decide +kernel, by decide +kernel, by decide +kernel, by decide +kernel⟩
  · unfold UniqueIds; decide +kernel
  · unfold UniqueIds; decide +kernel

/-- The tables of the chunks of `nearSample`: one chunk, or two. -/
def nearTable (d : GFile) : List LutRow :=
  match getLutevents 7 sampleLoc d with
  | .ok rows => rows
  | .error _ => []

theorem nearTable_eq {d : GFile} (h : (getLutevents 7 sampleLoc d).isOk = true) :
    getLutevents 7 sampleLoc d = .ok (nearTable d) := by
  unfold nearTable
  revert h
  cases getLutevents 7 sampleLoc d with
  | error e => intro h; exact absurd h (by simp [Except.isOk, Except.toBool])
  | ok v => intro _; rfl

/-- The grid of total energy of `nearSample`, for chunks of the given size. -/
theorem nearSample_energy (query : List Pt → Pt → Nat → List Nat) {n : Nat} {parts : List GFile}
    (points : Grid → List LmaParent → Grid) (par : String → FakeLma → List LmaParent)
    (h1 : readFlashesChunks id nearSample {} n = .ok parts)
    (h2 : ∀ p ∈ parts, (getLutevents 7 sampleLoc p).isOk = true ∧ nearTable p ≠ [] ∧ ∀ r ∈ nearTable p,
      0 < r.minFlashArea ∧ sampleX.getD 0 0 ≤ r.x - 1/2 ∧ r.x + 1/2 ≤ sampleX.getD (sampleX.length - 1) 0 ∧
      sampleY.getD 0 0 ≤ r.y - 1/2 ∧ r.y + 1/2 ≤ sampleY.getD (sampleY.length - 1) 0) :
    ∃ fakes outgrids grids te,
      readFiles rectClip query
        (fun pts => pts.map fun p => rect (p.1 - 1/2) (p.1 + 1/2) (p.2 - 1/2) (p.2 + 1/2))
        (gridMesh sampleX sampleY) 0 sampleLoc id {} n [(7, nearSample)] = .ok fakes ∧
      lutPipelineSetup = .ok outgrids ∧
      gridFrame points (sampleX.length - 1) (sampleY.length - 1) outgrids
        (fun k => fakes.map fun f => (f.children, par k f)) = .ok grids ∧
      gridNamed "" grids "total_energy" = some te ∧
      te.val 1 1 = ((parts.flatMap nearTable).map fun r => r.energy *
        (overlap (r.x - 1/2) (r.x + 1/2) 1 2 * overlap (r.y - 1/2) (r.y + 1/2) 1 2 / (2 * (1/2) * (2 * (1/2))))).sum := by
  obtain ⟨a1, a2, -, -⟩ := sample_axes
  obtain ⟨a3, a4⟩ := sample_spaced
  obtain ⟨fakes, hF, outgrids, grids, te, fed, o1, o2, n1, -, hv⟩ :=
    C67_rectangles query sampleX sampleY 1 1 (1/2) (1/2) 0 sampleLoc
      (parts.map fun p => ((7, p), nearTable p)) points "" par a1 a2 (Or.inl (by decide)) sample_axes.2.2.1 sample_axes.2.2.2 (by norm_num)
      (by norm_num) (by norm_num) (by norm_num) (by
        intro c hc
        obtain ⟨p, hp, rfl⟩ := List.mem_map.mp hc
        obtain ⟨k1, k2, k3⟩ := h2 p hp
        exact ⟨nearTable_eq k1, k2, k3⟩)
  refine ⟨fakes, outgrids, grids, te, ?_, o1, o2, n1, ?_⟩
  · have hr := readFlashesLut_of (foot := fun p => rect (p.1 - 1/2) (p.1 + 1/2) (p.2 - 1/2) (p.2 + 1/2))
      (order := id) (c := {}) (n := n) (t := 7) (d := nearSample)
      (ps := parts.map fun p => (((7 : Int), p), nearTable p))
      (by rw [h1, List.map_map]; simp [Function.comp_def])
      (by intro p hp; obtain ⟨q, -, rfl⟩ := List.mem_map.mp hp; rfl) hF
    unfold readFiles
    rw [List.mapM_cons, List.mapM_nil, if_pos (by decide), hr]
    simp [bind, Except.bind, pure, Except.pure]
  · have := (hv 1 1 (by decide) (by decide)).1
    rw [this, List.flatMap_map]
    rfl

/-- C93 is false: of two events with energies 1 and 3 that the table of one chunk puts together, the energy goes
to the footprint of their mean place, while the tables of two chunks keep them apart. -/
theorem C93_full_false : ¬ C93_full := by
  intro h
  have points : Grid → List LmaParent → Grid := fun g _ => g
  have par : String → FakeLma → List LmaParent := fun _ _ => []
  obtain ⟨c1, e1⟩ : ∃ c1, readFlashesChunks id nearSample {} 1 = .ok c1 := ⟨_, rfl⟩
  obtain ⟨c2, e2⟩ : ∃ c2, readFlashesChunks id nearSample {} 2 = .ok c2 := ⟨_, rfl⟩
  obtain ⟨f1, o1, g1, t1, i1, i2, i3, i4, i5⟩ := nearSample_energy (fun _ _ _ => []) (n := 1) points par e1 (by
    cases e1; decide +kernel)
  obtain ⟨f2, o2, g2, t2, j1, j2, j3, j4, j5⟩ := nearSample_energy (fun _ _ _ => []) (n := 2) points par e2 (by
    cases e2; decide +kernel)
  obtain rfl : o1 = o2 := Except.ok.inj (i2.symm.trans j2)
  obtain ⟨a1, a2, -, -⟩ := sample_axes
  obtain ⟨g, g', k1, k2, k3⟩ := h rectClip (fun _ _ _ => [])
    (fun p => rect (p.1 - 1/2) (p.1 + 1/2) (p.2 - 1/2) (p.2 + 1/2)) sampleX sampleY 0 sampleLoc id {} 1 2
    [(7, nearSample)] points "" par a1 a2 (Or.inl (by decide)) rectClip_ne_nil (fun l => List.Perm.refl _)
    (by decide) (by decide) (by
      intro d hd _
      obtain rfl := List.mem_singleton.mp hd
      exact ⟨nearSample_fit _ (by decide), nearSample_fit _ (by decide)⟩)
    f1 f2 o1 g1 g2 i1 j1 i2 i3 j3 "total_energy" (by decide)
  have := k3 1 1 (by decide) (by decide)
  obtain rfl : t1 = g := Option.some.inj (i4.symm.trans k1)
  obtain rfl : t2 = g' := Option.some.inj (j4.symm.trans k2)
  rw [i5, j5] at this
  cases e1
  cases e2
  revert this
  decide +kernel

/-- A file with two flashes in one pixel, and another pixel. -/
def pixelSample : GFile where
  flashes := [⟨5, 0, { area := 100, nGroups := 2, nEvents := 2 }⟩, ⟨3, 0, { area := 60, nGroups := 1, nEvents := 2 }⟩]
  groups := [⟨11, 5, { nEvents := 1, area := 40 }⟩, ⟨12, 3, { nEvents := 2, area := 50 }⟩,
    ⟨13, 5, { nEvents := 1, area := 30 }⟩]
  events := [⟨100, 13, { x := 2, y := 2, energy := 2, flashOf := 5 }⟩,
    ⟨101, 11, { x := 2, y := 2, energy := 3, flashOf := 5 }⟩,
    ⟨102, 12, { x := 2, y := 2, energy := 4, flashOf := 3 }⟩,
    ⟨103, 12, { x := 3, y := 3, energy := 5, flashOf := 3 }⟩]

/-- Files that meet the hypotheses of `C93_partial` and `C93_chunk_size_partial`, one of them without events. -/
example : (∀ d ∈ [(7, pixelSample), (8, (⟨[], [], []⟩ : GFile)), (9, pixelSample)], d.2.events ≠ [] →
      ∀ (n : Nat) (c : Criteria), 0 < n → FileOk rectClip (fun _ _ _ => [])
        (fun p => rect (p.1 - 3/4) (p.1 + 3/4) (p.2 - 3/4) (p.2 + 3/4)) sampleX sampleY sampleLoc id
        c n d.2) ∧
    askedFor pixelSample {} = pixelSample.flashes ∧
    pixelSample.flashes.map (flashPlaces pixelSample) = [[(2, 2)], [(2, 2), (3, 3)]] := by
  refine ⟨?_, if_pos (by unfold NoCriteria; decide), by decide +kernel⟩
  intro d hd he n c hn
  have : d.2 = pixelSample := by
    simp only [List.mem_cons, List.not_mem_nil, or_false] at hd
    rcases hd with rfl | rfl | rfl
    · rfl
    · exact absurd rfl he
    · rfl
  rw [this]
  obtain ⟨a1, a2, -, -⟩ := sample_axes
  obtain ⟨a3, a4⟩ := sample_spaced
  refine ⟨fileFit_rect _ (fun l => List.Perm.refl _) hn a1 a2 (Or.inl (by decide)) a3 a4
    (by norm_num) (by norm_num) (by norm_num) (by norm_num) ?_ (by decide +kernel) ?_ ?_ ?_ (by decide +kernel)
    (by decide +kernel), ?_⟩
  · unfold HasData; decide +kernel
  · exact ⟨by decide +kernel, by decide +kernel, by decide +kernel, by decide +kernel⟩
  · unfold UniqueIds; decide +kernel
  · unfold UniqueIds; decide +kernel
  · unfold PixelExact placeOf; decide +kernel

/-! ## C94 -/

/-- The sum of the values of all cells of a grid. -/
def gridTotal (x y : List Rat) (g : Grid) : Rat :=
  ((List.range (x.length - 1)).map fun i => ((List.range (y.length - 1)).map fun j => g.val i j).sum).sum

/-- The energy of the events of the flashes that are asked for. -/
noncomputable def askedEnergy (c : Criteria) (files : List (Int × GFile)) : Rat :=
  (files.map fun d => ((askedEvents d.2 c).map fun e => e.val.energy).sum).sum

/-- A place whose footprint is a polygon with an area, lies on the grid, and is found by the search. -/
structure PlaceOk (clip : Poly → Poly → List Poly) (query : List Pt → Pt → Nat → List Nat) (foot : Pt → Poly)
    (x y : List Rat) (p : Pt) : Prop where
  polygon : foot p ≠ []
  area : signedArea (foot p) ≠ 0
  search : SearchComplete clip query x y (foot p)
  covered : coveredArea clip query (gridMesh x y) (foot p) ≠ 0
  tiled : ((List.range (x.length - 1)).map fun i => ((List.range (y.length - 1)).map fun j =>
    areaInCell clip x y (foot p) i j).sum).sum = |signedArea (foot p)|

/-- A file as opened, with events in a box of such places. -/
structure FileBoxed (clip : Poly → Poly → List Poly) (query : List Pt → Pt → Nat → List Nat) (foot : Pt → Poly)
    (x y : List Rat) (d : GFile) : Prop where
  hasData : HasData d
  consistent : Consistent d
  derived : Derived d
  flashes : UniqueIds d.flashes
  groups : UniqueIds d.groups
  areas : ∀ f ∈ d.flashes, 0 < f.val.area
  box : ∃ a b c e : Rat, (∀ ev ∈ d.events, a ≤ ev.val.x ∧ ev.val.x ≤ b ∧ c ≤ ev.val.y ∧ ev.val.y ≤ e) ∧
    ∀ p : Pt, a ≤ p.1 → p.1 ≤ b → c ≤ p.2 → p.2 ≤ e → PlaceOk clip query foot x y p

theorem mean_between {α : Type} {l : List α} (hl : l ≠ []) {q : α → Rat} {a b v : Rat}
    (h : ∀ e ∈ l, a ≤ q e ∧ q e ≤ b) (hv : v * l.length = (l.map q).sum) : a ≤ v ∧ v ≤ b := by
  have hpos : (0 : Rat) < l.length := by exact_mod_cast List.length_pos_iff.mpr hl
  have key : ∀ m : List α, (∀ e ∈ m, a ≤ q e ∧ q e ≤ b) →
      a * m.length ≤ (m.map q).sum ∧ (m.map q).sum ≤ b * m.length := by
    intro m hm
    induction m with
    | nil => simp
    | cons e m ih =>
      have h1 := hm e List.mem_cons_self
      have h2 := ih fun e' he' => hm e' (List.mem_cons_of_mem _ he')
      rw [List.map_cons, List.sum_cons, List.length_cons]
      push_cast
      constructor <;> nlinarith [h1.1, h1.2, h2.1, h2.2]
  obtain ⟨k1, k2⟩ := key l h
  rw [← hv] at k1 k2
  exact ⟨le_of_mul_le_mul_right k1 hpos, le_of_mul_le_mul_right k2 hpos⟩

/-- The tables of the chunks of such a file. -/
theorem file_tables_box {clip : Poly → Poly → List Poly} {query : List Pt → Pt → Nat → List Nat}
    {foot : Pt → Poly} {x y : List Rat} (loc : Rat → Rat → Int) {order : List Int → List Int}
    (ho : ∀ l, (order l).Perm l) (c : Criteria) {n : Nat} (hn : 0 < n) {d : GFile} (t : Int)
    (h : FileBoxed clip query foot x y d) :
    ∃ parts : List ((Int × GFile) × List LutRow),
      readFlashesChunks order d c n = .ok (parts.map fun p => p.1.2) ∧ (∀ p ∈ parts, p.1.1 = t) ∧
      (∀ p ∈ parts, ChunkOk clip query foot x y p.1.1 loc p.1.2 p.2) ∧
      ((parts.flatMap Prod.snd).map LutRow.energy).sum = ((askedEvents d c).map fun e => e.val.energy).sum ∧
      ∀ r ∈ parts.flatMap Prod.snd, PlaceOk clip query foot x y (r.x, r.y) := by
  obtain ⟨ids, hnd, hs, hp, -, hr, -⟩ := readFlashes_ids ho c (n := n) h.hasData h.derived h.flashes h.groups
  have hroot : Rooted d := ⟨h.consistent.groupHasFlash, h.derived.flashOf⟩
  set cs : List (List Int) := if ids = [] then [] else arraySplit ids (max (ids.length / n) 1) with hcs
  have hchunks : (if ids = [] then [] else (arraySplit ids (max (ids.length / n) 1)).map (keptFlashes d)) =
      cs.map (keptFlashes d) := by
    rw [hcs]; split <;> rfl
  rw [hchunks] at hr
  have hk0 : 0 < max (ids.length / n) 1 := by omega
  have hfl : cs.flatten = ids := by
    rw [hcs]; split
    · rename_i h0; rw [h0]; rfl
    · exact arraySplit_flatten ids hk0
  have hcnd : ∀ cc ∈ cs, cc.Nodup := by
    intro cc hcc
    have := hnd
    rw [← hfl, List.nodup_flatten] at this
    exact this.1 cc hcc
  have hcsub : ∀ cc ∈ cs, ∀ i ∈ cc, i ∈ ids := fun cc hcc i hi => by
    rw [← hfl]; exact List.mem_flatten.mpr ⟨cc, hcc, hi⟩
  have hcne : ∀ cc ∈ cs, cc ≠ [] := by
    intro cc hcc h0
    obtain ⟨chunks', hr'', -, hlen, -⟩ := C20_chunks ho c hn h.hasData h.derived h.flashes h.groups
    rw [hr] at hr''
    injection hr'' with hr''
    have := (hlen (keptFlashes d cc) (by rw [← hr'']; exact List.mem_map_of_mem hcc)).1
    rw [h0] at this
    exact absurd this (by simp [keptFlashes, rowsInOrder])
  obtain ⟨tables, ht1, ht2⟩ := mapM_ok_of_forall (f := getLutevents t loc ∘ keptFlashes d)
    (P := fun cc rows => getLutevents t loc (keptFlashes d cc) = .ok rows ∧
      ∀ r ∈ rows, ParentStats loc (keptFlashes d cc) r)
    (l := cs) (by
      intro cc hcc
      obtain ⟨rs, h1, h2⟩ := lut_ok t loc (kept_hasData h.consistent (hcne cc hcc)
        fun i hi => hs i (hcsub cc hcc i hi)) (kept_rooted hroot cc h.groups)
        (kept_unique (hcnd cc hcc) h.flashes h.groups).1 (kept_unique (hcnd cc hcc) h.flashes h.groups).2
      exact ⟨rs, h1, h1, h2⟩)
  have hlen : cs.length = tables.length := ht2.length_eq
  have hz1 : (cs.zip tables).map Prod.fst = cs := List.map_fst_zip (le_of_eq hlen)
  have hz : ∀ q ∈ cs.zip tables, q.1 ∈ cs ∧ getLutevents t loc (keptFlashes d q.1) = .ok q.2 ∧
      ∀ r ∈ q.2, ParentStats loc (keptFlashes d q.1) r := fun q hq =>
    ⟨(List.of_mem_zip hq).1, List.forall₂_zip ht2 hq⟩
  obtain ⟨a, b, c', e', hbox, hplace⟩ := h.box
  have hok : ∀ q ∈ cs.zip tables, ∀ r ∈ q.2, PlaceOk clip query foot x y (r.x, r.y) := by
    intro q hq r hr
    obtain ⟨-, htab, -⟩ := hz q hq
    have hst := ((C17_conservation htab).2.2.1 r hr).2
    have hin : ∀ ev ∈ eventsAt loc (keptFlashes d q.1) r.id, ev ∈ d.events := fun ev hev =>
      (mem_childrenInOrder.mp (List.mem_filter.mp hev).1).1
    have h1 := mean_between hst.occupied (fun ev hev => ⟨(hbox ev (hin ev hev)).1, (hbox ev (hin ev hev)).2.1⟩)
      hst.x
    have h2 := mean_between hst.occupied (fun ev hev => (hbox ev (hin ev hev)).2.2) hst.y
    exact hplace _ h1.1 h1.2 h2.1 h2.2
  have hrows : ((cs.zip tables).map fun q => ((t, keptFlashes d q.1), q.2)).flatMap Prod.snd =
      (cs.zip tables).flatMap Prod.snd := by
    rw [List.flatMap_map]
  refine ⟨(cs.zip tables).map fun q => ((t, keptFlashes d q.1), q.2), ?_, ?_, ?_, ?_, ?_⟩
  · rw [hr, List.map_map]
    congr 1
    conv_lhs => rw [← hz1, List.map_map]
    rfl
  · intro p hpm
    obtain ⟨q, -, rfl⟩ := List.mem_map.mp hpm
    rfl
  · intro p hpm
    obtain ⟨q, hq, rfl⟩ := List.mem_map.mp hpm
    obtain ⟨hc1, htab, hst⟩ := hz q hq
    refine ⟨htab, fun r hr => ⟨(hok q hq r hr).polygon, (hok q hq r hr).area⟩, ?_,
      fun r hr => (hok q hq r hr).search, ?_⟩
    · obtain ⟨-, -, h3⟩ := kept_hasData h.consistent (hcne q.1 hc1) fun i hi => hs i (hcsub q.1 hc1 i hi)
      obtain ⟨e, he⟩ := List.exists_mem_of_ne_nil _ h3
      obtain ⟨r, hr, -⟩ := row_of_event htab he
      exact ⟨r, hr, (hok q hq r hr).covered⟩
    · intro r hr
      obtain ⟨f, hf, hm⟩ := (hst r hr).minMem
      rw [hm]
      exact h.areas f (mem_rowsInOrder.mp (List.mem_filter.mp hf).1).1
  · rw [hrows, sum_flatMap_map]
    have h1 : ((cs.zip tables).map fun q => (q.2.map LutRow.energy).sum) =
        (cs.zip tables).map fun q => ((keptFlashes d q.1).events.map fun e => e.val.energy).sum :=
      List.map_congr_left fun q hq => (C17_conservation (hz q hq).2.1).2.2.2.1
    have h2 : ((cs.zip tables).map fun q => ((keptFlashes d q.1).events.map fun e => e.val.energy).sum) =
        ((cs.zip tables).map Prod.fst).map fun cc => ((keptFlashes d cc).events.map fun e => e.val.energy).sum := by
      rw [List.map_map]; rfl
    obtain ⟨-, -, k3⟩ := kept_concat d cs
    rw [hfl] at k3
    have h3 : (keptFlashes d ids).events.Perm (askedEvents d c) := by
      refine (kept_events_perm hroot h.groups hnd).trans (List.Perm.of_eq ?_)
      unfold askedEvents
      apply List.filter_congr
      intro e he
      rw [decide_eq_decide, hp.mem_iff, List.mem_map]
      constructor
      · rintro ⟨f, hf, hf2⟩
        exact ⟨f, hf, by rw [hf2]; exact h.derived.flashOf e he⟩
      · rintro ⟨f, hf, hf2⟩
        exact ⟨f, hf, eventOfFlash_unique h.groups hf2 (h.derived.flashOf e he)⟩
    rw [h1, h2, hz1, ← (h3.map fun e => e.val.energy).sum_eq, ← k3, sum_flatMap_map, List.map_map]
    rfl
  · rw [hrows]
    intro r hr
    obtain ⟨q, hq, hrq⟩ := List.mem_flatMap.mp hr
    exact hok q hq r hrq

/-- What C94 says of one run. -/
def EnergyKept (clip : Poly → Poly → List Poly) (query : List Pt → Pt → Nat → List Nat) (foot : Pt → Poly)
    (x y : List Rat) (basedate : Int) (loc : Rat → Rat → Int) (order : List Int → List Int) (c : Criteria)
    (n : Nat) (files : List (Int × GFile)) (points : Grid → List LmaParent → Grid) (label : String)
    (par : String → FakeLma → List LmaParent) : Prop :=
  ∃ fakes outgrids grids te,
    readFiles clip query (fun pts => pts.map foot) (gridMesh x y) basedate loc order c n files = .ok fakes ∧
    lutPipelineSetup = .ok outgrids ∧
    gridFrame points (x.length - 1) (y.length - 1) outgrids
      (fun k => fakes.map fun f => (f.children, par k f)) = .ok grids ∧
    gridNamed label grids "total_energy" = some te ∧ gridTotal x y te = askedEnergy c files

/-- **C94**, for footprints of which the search finds all cells: the cells of the grid of total energy add up to
the energy of the events of the flashes that are asked for, however the table puts events together and whatever
the size of the chunks. -/
theorem C94_partial (clip : Poly → Poly → List Poly) (query : List Pt → Pt → Nat → List Nat)
    (foot : Pt → Poly) (x y : List Rat) (basedate : Int) (loc : Rat → Rat → Int)
    (order : List Int → List Int) (c : Criteria) (n : Nat) (files : List (Int × GFile))
    (points : Grid → List LmaParent → Grid) (label : String) (par : String → FakeLma → List LmaParent)
    (hx : AxisOk x) (hy : AxisOk y) (hsz : 2 < x.length ∨ 2 < y.length)
    (hclip : ∀ p q s, s ∈ clip p q → s ≠ []) (ho : ∀ l, (order l).Perm l) (hn : 0 < n)
    (h : ∀ d ∈ files, d.2.events ≠ [] → FileBoxed clip query foot x y d.2) :
    EnergyKept clip query foot x y basedate loc order c n files points label par := by
  obtain ⟨parts, p1, ⟨p2, p3⟩, p4⟩ := files_parts (clip := clip) (query := query) (foot := foot) (x := x) (y := y)
    (loc := loc) (order := order) (c := c) (n := n) basedate
    (fun d rows => (rows.map LutRow.energy).sum = ((askedEvents d c).map fun e => e.val.energy).sum ∧
      ∀ r ∈ rows, PlaceOk clip query foot x y (r.x, r.y))
    (fun files rows => (rows.map LutRow.energy).sum = askedEnergy c files ∧
      ∀ r ∈ rows, PlaceOk clip query foot x y (r.x, r.y))
    ⟨rfl, fun r hr => absurd hr (List.not_mem_nil)⟩
    (by
      rintro d files rows rows' ⟨a1, a2⟩ ⟨b1, b2⟩
      refine ⟨?_, ?_⟩
      · rw [List.map_append, List.sum_append, a1, b1]
        unfold askedEnergy
        rw [List.map_cons, List.sum_cons]
      · intro r hr
        rcases List.mem_append.mp hr with hr | hr
        · exact a2 r hr
        · exact b2 r hr)
    (by
      intro d he
      refine ⟨?_, fun r hr => absurd hr (List.not_mem_nil)⟩
      unfold askedEvents
      rw [he]
      rfl)
    (files := files) (fun d hd he => file_tables_box loc ho c hn d.1 (h d hd he))
  obtain ⟨fakes, hF, outgrids, grids, fed, fa, te, ged, ga, mfa, o1, o2, -, -, n3, -, -, -, -, hv⟩ :=
    C67_grids clip query foot x y basedate loc parts points label par hx hy hsz hclip p1
  refine ⟨fakes, outgrids, grids, te, p4 fakes hF, o1, o2, n3, ?_⟩
  rw [← p2]
  unfold gridTotal
  have h1 : ((List.range (x.length - 1)).map fun i => ((List.range (y.length - 1)).map fun j => te.val i j).sum) =
      (List.range (x.length - 1)).map fun i => ((List.range (y.length - 1)).map fun j =>
        ((parts.flatMap Prod.snd).map fun r => r.energy *
          (areaInCell clip x y (foot (r.x, r.y)) i j / |signedArea (foot (r.x, r.y))|)).sum).sum := by
    apply List.map_congr_left
    intro i hi
    congr 1
    apply List.map_congr_left
    intro j hj
    have hi' := List.mem_range.mp hi
    have hj' := List.mem_range.mp hj
    exact (hv i j (by omega) (by omega)).1
  rw [h1]
  clear h1 hv
  generalize parts.flatMap Prod.snd = rows at p3
  induction rows with
  | nil => simp
  | cons r rows ih =>
    have hr := p3 r List.mem_cons_self
    have har : |signedArea (foot (r.x, r.y))| ≠ 0 := abs_ne_zero.mpr hr.area
    simp only [List.map_cons, List.sum_cons, List.sum_map_add]
    rw [ih fun r' hr' => p3 r' (List.mem_cons_of_mem _ hr')]
    simp only [List.sum_map_mul_left, div_eq_mul_inv, List.sum_map_mul_right]
    rw [hr.tiled, mul_inv_cancel₀ har, mul_one]

/-- Rectangular footprints of up to four cells on a grid of equal cells. -/
theorem fileBoxed_rect (query : List Pt → Pt → Nat → List Nat) {x y : List Rat} {dx dy w h : Rat}
    {d : GFile} (hx : AxisOk x) (hy : AxisOk y) (hsz : 2 < x.length ∨ 2 < y.length)
    (ux : Spaced x dx) (uy : Spaced y dy) (hw0 : 0 < w) (hh0 : 0 < h) (hw : w ≤ 2 * dx) (hh : h ≤ 2 * dy)
    (hd : HasData d) (hc : Consistent d) (hv : Derived d) (hf : UniqueIds d.flashes) (hg : UniqueIds d.groups)
    (ha : ∀ f ∈ d.flashes, 0 < f.val.area)
    (hin : ∀ e ∈ d.events, x.getD 0 0 ≤ e.val.x - w ∧ e.val.x + w ≤ x.getD (x.length - 1) 0 ∧
      y.getD 0 0 ≤ e.val.y - h ∧ e.val.y + h ≤ y.getD (y.length - 1) 0) :
    FileBoxed rectClip query (fun p => rect (p.1 - w) (p.1 + w) (p.2 - h) (p.2 + h)) x y d := by
  have hpos : 0 < (2 * w) * (2 * h) := by positivity
  refine ⟨hd, hc, hv, hf, hg, ha, x.getD 0 0 + w, x.getD (x.length - 1) 0 - w, y.getD 0 0 + h,
    y.getD (y.length - 1) 0 - h, ?_, ?_⟩
  · intro e he
    obtain ⟨i1, i2, i3, i4⟩ := hin e he
    exact ⟨by linarith, by linarith, by linarith, by linarith⟩
  · intro p i1 i2 i3 i4
    have har : signedArea (rect (p.1 - w) (p.1 + w) (p.2 - h) (p.2 + h)) = (2 * w) * (2 * h) := by
      rw [rect_area]; ring
    refine ⟨by simp [rect], by rw [har]; exact ne_of_gt hpos, ?_, ?_, ?_⟩
    · exact rect_search query x y dx dy _ _ _ _ hx hy hsz ux uy (by linarith) (by linarith)
        (by linarith) (by linarith) (by linarith) (by linarith)
    · rw [rect_covered query x y dx dy _ _ _ _ hx hy hsz ux uy (by linarith) (by linarith) (by linarith)
        (by linarith) (by linarith) (by linarith) (by linarith) (by linarith)]
      have : (p.1 + w - (p.1 - w)) * (p.2 + h - (p.2 - h)) = (2 * w) * (2 * h) := by ring
      rw [this]
      exact ne_of_gt hpos
    · have hcell : ∀ i j, areaInCell rectClip x y (rect (p.1 - w) (p.1 + w) (p.2 - h) (p.2 + h)) i j =
          overlap (p.1 - w) (p.1 + w) (x.getD i 0) (x.getD (i + 1) 0) *
            overlap (p.2 - h) (p.2 + h) (y.getD j 0) (y.getD (j + 1) 0) := by
        intro i j
        have := rectClip_area x y (p.1 - w) (p.1 + w) (p.2 - h) (p.2 + h) (j, i)
        rw [mul_comm]
        exact this
      simp only [hcell, List.sum_map_mul_left, List.sum_map_mul_right]
      have sx := overlap_sum hx (a := p.1 - w) (b := p.1 + w) (by linarith) (by linarith) (by linarith)
      have sy := overlap_sum hy (a := p.2 - h) (b := p.2 + h) (by linarith) (by linarith) (by linarith)
      rw [har, abs_of_pos hpos]
      have conv : ∀ (n : Nat) (q : Nat → Rat), ((List.range n).map q).sum = ∑ i ∈ Finset.range n, q i := by
        intro n q
        induction n with
        | zero => rfl
        | succ n ih =>
          rw [List.range_succ, List.map_append, List.sum_append, ih, Finset.sum_range_succ]
          simp
      rw [conv, conv, sx, sy]
      ring

/-- C94 for rectangular footprints, cut by the exact intersection of rectangles: nothing is assumed of clipper or
search. -/
theorem C94_rectangles_partial (query : List Pt → Pt → Nat → List Nat) (x y : List Rat) (dx dy w h : Rat)
    (basedate : Int) (loc : Rat → Rat → Int) (order : List Int → List Int) (c : Criteria) (n : Nat)
    (files : List (Int × GFile)) (points : Grid → List LmaParent → Grid) (label : String)
    (par : String → FakeLma → List LmaParent)
    (hx : AxisOk x) (hy : AxisOk y) (hsz : 2 < x.length ∨ 2 < y.length) (ho : ∀ l, (order l).Perm l) (hn : 0 < n)
    (ux : Spaced x dx) (uy : Spaced y dy) (hw0 : 0 < w) (hh0 : 0 < h) (hw : w ≤ 2 * dx) (hh : h ≤ 2 * dy)
    (hf : ∀ d ∈ files, d.2.events ≠ [] → HasData d.2 ∧ Consistent d.2 ∧ Derived d.2 ∧ UniqueIds d.2.flashes ∧
      UniqueIds d.2.groups ∧ (∀ f ∈ d.2.flashes, 0 < f.val.area) ∧
      ∀ e ∈ d.2.events, x.getD 0 0 ≤ e.val.x - w ∧ e.val.x + w ≤ x.getD (x.length - 1) 0 ∧
        y.getD 0 0 ≤ e.val.y - h ∧ e.val.y + h ≤ y.getD (y.length - 1) 0) :
    EnergyKept rectClip query (fun p => rect (p.1 - w) (p.1 + w) (p.2 - h) (p.2 + h)) x y basedate loc order c n
      files points label par :=
  C94_partial rectClip query _ x y basedate loc order c n files points label par hx hy hsz rectClip_ne_nil ho hn
    fun d hd he => by
      obtain ⟨a1, a2, a3, a4, a5, a6, a7⟩ := hf d hd he
      exact fileBoxed_rect query hx hy hsz ux uy hw0 hh0 hw hh a1 a2 a3 a4 a5 a6 a7

/-- C94 for rectangular footprints of any size that lie on the grid. -/
def C94_full : Prop := ∀ (query : List Pt → Pt → Nat → List Nat) (x y : List Rat) (dx dy w h : Rat)
    (basedate : Int) (loc : Rat → Rat → Int) (order : List Int → List Int) (c : Criteria) (n : Nat)
    (files : List (Int × GFile)) (points : Grid → List LmaParent → Grid) (label : String)
    (par : String → FakeLma → List LmaParent),
    AxisOk x → AxisOk y → 2 < x.length ∨ 2 < y.length → (∀ l, (order l).Perm l) → 0 < n →
    Uniform x dx → Uniform y dy → 0 < w → 0 < h →
    (∀ d ∈ files, d.2.events ≠ [] → HasData d.2 ∧ Consistent d.2 ∧ Derived d.2 ∧ UniqueIds d.2.flashes ∧
      UniqueIds d.2.groups ∧ (∀ f ∈ d.2.flashes, 0 < f.val.area) ∧
      ∀ e ∈ d.2.events, x.getD 0 0 ≤ e.val.x - w ∧ e.val.x + w ≤ x.getD (x.length - 1) 0 ∧
        y.getD 0 0 ≤ e.val.y - h ∧ e.val.y + h ≤ y.getD (y.length - 1) 0) →
    EnergyKept rectClip query (fun p => rect (p.1 - w) (p.1 + w) (p.2 - h) (p.2 + h)) x y basedate loc order c n
      files points label par

/-- A file with one event. -/
def wideSample : GFile where
  flashes := [⟨5, 0, { area := 100, nGroups := 1, nEvents := 1 }⟩]
  groups := [⟨11, 5, { nEvents := 1 }⟩]
  events := [⟨100, 11, { x := 3, y := 5/2, energy := 1, flashOf := 5 }⟩]

theorem wideSample_opened : HasData wideSample ∧ Consistent wideSample ∧ Derived wideSample ∧
    UniqueIds wideSample.flashes ∧ UniqueIds wideSample.groups ∧ (∀ f ∈ wideSample.flashes, 0 < f.val.area) := by
  refine ⟨?_, by decide +kernel, ⟨by decide +kernel, by decide +kernel, by decide +kernel, by decide +kernel⟩,
    ?_, ?_, by decide +kernel⟩
  · unfold HasData; decide +kernel
  · unfold UniqueIds; decide +kernel
  · unfold UniqueIds; decide +kernel

/-- The sum over the grid for that file and a footprint of the given half width. -/
def wideRun (w : Rat) : Except Err (Option Rat) := do
  let fakes ← readFiles rectClip (fun _ _ _ => [])
    (fun pts => pts.map fun p => rect (p.1 - w) (p.1 + w) (p.2 - 1/2) (p.2 + 1/2))
    (gridMesh sampleX sampleY) 0 sampleLoc id {} 1 [(7, wideSample)]
  let outgrids ← lutPipelineSetup
  let grids ← gridFrame (fun g _ => g) (sampleX.length - 1) (sampleY.length - 1) outgrids
    (fun _ => fakes.map fun f => (f.children, []))
  pure ((gridNamed "" grids "total_energy").map (gridTotal sampleX sampleY))

/-- C94 is false: a footprint six cells wide loses the energy of the cells at its end, since the search looks only
at five columns. -/
theorem C94_full_false : ¬ C94_full := by
  intro h
  obtain ⟨a1, a2, -, -⟩ := sample_axes
  obtain ⟨a3, a4⟩ := sample_spaced
  obtain ⟨w1, w2, w3, w4, w5, w6⟩ := wideSample_opened
  obtain ⟨fakes, outgrids, grids, te, k1, k2, k3, k4, k5⟩ :=
    h (fun _ _ _ => []) sampleX sampleY 1 1 3 (1/2) 0 sampleLoc id {} 1 [(7, wideSample)] (fun g _ => g) ""
      (fun _ _ => []) a1 a2 (Or.inl (by decide)) (fun l => List.Perm.refl _) (by decide) sample_axes.2.2.1 sample_axes.2.2.2 (by norm_num)
      (by norm_num) (by
        intro d hd _
        obtain rfl := List.mem_singleton.mp hd
        exact ⟨w1, w2, w3, w4, w5, w6, by decide +kernel⟩)
  have hrun : wideRun 3 = .ok (some (gridTotal sampleX sampleY te)) := by
    unfold wideRun
    rw [k1, ok_bind', k2, ok_bind', k3, ok_bind', k4]
    rfl
  have hval : (wideRun 3).toOption = some (some (5/6)) := by decide +kernel
  rw [hrun, k5] at hval
  have h1 : askedEvents wideSample {} = wideSample.events := by
    unfold askedEvents
    rw [List.filter_eq_self]
    intro e he
    obtain rfl := List.mem_singleton.mp he
    refine decide_eq_true ⟨⟨5, 0, { area := 100, nGroups := 1, nEvents := 1 }⟩, ?_, by decide +kernel⟩
    have : askedFor wideSample {} = wideSample.flashes := if_pos (by unfold NoCriteria; decide)
    rw [this]
    exact List.mem_singleton.mpr rfl
  simp only [askedEnergy, List.map_cons, List.map_nil, h1, Except.toOption, Option.some.injEq] at hval
  revert hval
  decide +kernel

/-- A narrower footprint, by `C94_rectangles_partial` and by computation. -/
example : EnergyKept rectClip (fun _ _ _ => []) (fun p => rect (p.1 - 2) (p.1 + 2) (p.2 - 1/2) (p.2 + 1/2)) sampleX
      sampleY 0 sampleLoc id {} 1 [(7, wideSample)] (fun g _ => g) "" (fun _ _ => []) ∧
    (wideRun 2).toOption = some (some 1) := by
  refine ⟨?_, by decide +kernel⟩
  obtain ⟨a1, a2, -, -⟩ := sample_axes
  obtain ⟨a3, a4⟩ := sample_spaced
  obtain ⟨w1, w2, w3, w4, w5, w6⟩ := wideSample_opened
  exact C94_rectangles_partial _ sampleX sampleY 1 1 2 (1/2) 0 sampleLoc id {} 1 [(7, wideSample)] (fun g _ => g)
    "" (fun _ _ => []) a1 a2 (Or.inl (by decide)) (fun l => List.Perm.refl _) (by decide) a3 a4 (by norm_num)
    (by norm_num) (by norm_num) (by norm_num) (by
      intro d hd _
      obtain rfl := List.mem_singleton.mp hd
      exact ⟨w1, w2, w3, w4, w5, w6, by decide +kernel⟩)

end Verif.Props
