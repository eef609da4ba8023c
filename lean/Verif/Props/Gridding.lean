import Verif.Props.Accumulate

/-!
# From a chunk of a file to the cells of the written grids (C67, C68)
-/

namespace Verif.Props

open Verif.Py Verif.Model Verif.Spec Verif.Proofs

/-- The area of footprint `p` that the clipper finds in the grid cell between `x[i]` and `x[i+1]` and
between `y[j]` and `y[j+1]`. -/
def areaInCell (clip : Poly → Poly → List Poly) (x y : List Rat) (p : Poly) (i j : Nat) : Rat :=
  ((clip p (cellRect x y j i)).map fun s => |signedArea s|).sum

/-- The area of that cell. -/
def gridCellArea (x y : List Rat) (i j : Nat) : Rat :=
  (x.getD (i + 1) 0 - x.getD i 0) * (y.getD (j + 1) 0 - y.getD j 0)

/-- The search for footprint `p` looks at every cell in which the clipper would find a part of it. -/
def SearchComplete (clip : Poly → Poly → List Poly) (query : List Pt → Pt → Nat → List Nat)
    (x y : List Rat) (p : Poly) : Prop :=
  ∀ i j, i + 1 < x.length → j + 1 < y.length → clip p (cellRect x y j i) ≠ [] →
    ∃ c, candidatesFor query (gridMesh x y) .none p = .ok c ∧ (j, i) ∈ c.xi.zip c.yi

theorem sum_indicator {α : Type} (l : List α) (P : α → Prop) [DecidablePred P] (f : α → Rat) :
    (l.map fun a => f a * if P a then 1 else 0).sum = ((l.filter fun a => P a).map f).sum := by
  induction l with
  | nil => rfl
  | cons a l ih =>
    rw [List.map_cons, List.sum_cons, ih]
    by_cases h : P a
    · rw [List.filter_cons_of_pos (by simpa using h)]; simp [h]
    · rw [List.filter_cons_of_neg (by simpa using h)]; simp [h]

/-- A sum over distinct cells picks the wanted one. -/
theorem sum_pick {α : Type} [DecidableEq α] {l : List α} (h : l.Nodup) (t : α) (f : α → Rat) :
    (l.map fun a => f a * if a = t then 1 else 0).sum = if t ∈ l then f t else 0 := by
  induction l with
  | nil => rfl
  | cons a l ih =>
    rw [List.nodup_cons] at h
    rw [List.map_cons, List.sum_cons, ih h.2]
    by_cases ha : a = t
    · subst ha
      simp [h.1]
    · have : t ∈ a :: l ↔ t ∈ l := by simp [Ne.symm ha]
      simp [ha, this]

/-- The shares of the pieces of a footprint, each times a weight of its cell. -/
theorem pieces_weighted (clip : Poly → Poly → List Poly) (x y : List Rat) (p : Poly) (c : Candidates)
    (hw : WellFormed x y c) (w : Nat → Nat → Rat) :
    ((piecesIn clip p (c.quads.zip (c.xi.zip c.yi))).map fun row => row.2.1 * w row.2.2.1 row.2.2.2).sum =
      ((c.xi.zip c.yi).map fun rk =>
        areaInCell clip x y p rk.2 rk.1 / |signedArea p| * w rk.1 rk.2).sum := by
  obtain ⟨-, -, -, w4⟩ := hw
  rw [w4, zip_map_self]
  generalize c.xi.zip c.yi = L
  unfold piecesIn
  induction L with
  | nil => rfl
  | cons rk L ih =>
    rw [List.map_cons, List.flatMap_cons, List.map_append, List.sum_append, ih, List.map_cons,
      List.sum_cons]
    congr 1
    unfold areaInCell
    rw [List.map_map]
    generalize clip p (cellRect x y rk.1 rk.2) = ss
    induction ss with
    | nil => simp
    | cons s ss ih =>
      rw [List.map_cons, List.sum_cons, ih, List.map_cons, List.sum_cons]
      simp only [Function.comp]
      ring

/-- The share of a footprint in one cell. -/
theorem share_in_cell (clip : Poly → Poly → List Poly) (query : List Pt → Pt → Nat → List Nat)
    (x y : List Rat) (p : Poly) (c : Candidates) (hw : WellFormed x y c)
    (hcand : candidatesFor query (gridMesh x y) .none p = .ok c)
    (hs : SearchComplete clip query x y p) (i j : Nat) (hi : i + 1 < x.length)
    (hj : j + 1 < y.length) :
    ((piecesIn clip p (c.quads.zip (c.xi.zip c.yi))).map fun row =>
      row.2.1 * if (row.2.2.1, row.2.2.2) = (j, i) then 1 else 0).sum =
      areaInCell clip x y p i j / |signedArea p| := by
  rw [pieces_weighted clip x y p c hw (fun r k => if (r, k) = (j, i) then 1 else 0)]
  rw [show (fun rk : Nat × Nat => areaInCell clip x y p rk.2 rk.1 / |signedArea p| *
      if (rk.1, rk.2) = (j, i) then 1 else 0) = fun rk => (fun rk : Nat × Nat =>
        areaInCell clip x y p rk.2 rk.1 / |signedArea p|) rk * if rk = (j, i) then 1 else 0 from rfl,
    sum_pick hw.2.1]
  split
  · rfl
  · rename_i hn
    have : clip p (cellRect x y j i) = [] := by
      by_contra h
      obtain ⟨c', hc', hm⟩ := hs i j hi hj h
      rw [hcand] at hc'
      cases hc'
      exact hn hm
    unfold areaInCell
    rw [this]
    simp

/-- C67, one chunk: the rows that the reader sends hold, for every cell of the grid, the energy of
each row of the table times the share of its footprint in the cell, and its counts and areas times
the share of the cell that its footprint covers. -/
theorem C67_chunk (clip : Poly → Poly → List Poly) (query : List Pt → Pt → Nat → List Nat)
    (quads : List Pt → List Poly) (x y : List Rat) (t basedate : Int) (loc : Rat → Rat → Int)
    (d : GFile) (rows : List LutRow) (polys : List Poly) (hx : AxisOk x) (hy : AxisOk y)
    (hsz : 2 < x.length ∨ 2 < y.length) (hclip : ∀ p q s, s ∈ clip p q → s ≠ [])
    (hrows : getLutevents t loc d = .ok rows)
    (hpolys : quads (rows.map fun r => (r.x, r.y)) = polys) (hl : polys.length = rows.length)
    (hne : ∀ p ∈ polys, p ≠ [] ∧ signedArea p ≠ 0)
    (hsome : ∃ p ∈ polys, coveredArea clip query (gridMesh x y) p ≠ 0)
    (hs : ∀ p ∈ polys, SearchComplete clip query x y p) :
    ∃ fake, fastFixedGridReadChunk clip query quads (gridMesh x y) t basedate loc d =
        .ok (some fake) ∧
      ChildrenOk (x.length - 1) (y.length - 1) [(fake.children, [])] ∧
      ∀ i j, i + 1 < x.length → j + 1 < y.length →
        ((onCell i j [(fake.children, [])]).map LmaEvent.power).sum = ((polys.zip rows).map fun a =>
          a.2.energy * (areaInCell clip x y a.1 i j / |signedArea a.1|)).sum ∧
        ((onCell i j [(fake.children, [])]).map LmaEvent.flashCount).sum =
          ((polys.zip rows).map fun a =>
            a.2.flashCount * (areaInCell clip x y a.1 i j / gridCellArea x y i j)).sum ∧
        ((onCell i j [(fake.children, [])]).map LmaEvent.groupCount).sum =
          ((polys.zip rows).map fun a =>
            a.2.groupCount * (areaInCell clip x y a.1 i j / gridCellArea x y i j)).sum ∧
        ((onCell i j [(fake.children, [])]).map LmaEvent.totalFlashArea).sum =
          ((polys.zip rows).map fun a =>
            a.2.totalFlashArea * (areaInCell clip x y a.1 i j / gridCellArea x y i j)).sum ∧
        ((onCell i j [(fake.children, [])]).map LmaEvent.totalGroupArea).sum =
          ((polys.zip rows).map fun a =>
            a.2.totalGroupArea * (areaInCell clip x y a.1 i j / gridCellArea x y i j)).sum := by
  obtain ⟨fake, out, subs, h1, h2, -, -, h3, h4, h5, h6⟩ := chunk_ok clip query quads x y t basedate
    loc d rows polys hx hy hsz hclip hrows hpolys hl (fun p hp => (hne p hp).1) hsome
  have hout : out ≠ [] := by rintro rfl; cases h2
  refine ⟨fake, h1, ?_, ?_⟩
  · intro f hf
    rw [List.mem_singleton] at hf
    subst hf
    obtain ⟨evs, c1, c2, c3, c4⟩ := C31_cells out basedate hout
    rw [h2] at c1
    cases c1
    constructor
    · intro e he
      obtain ⟨o, ho⟩ := List.exists_mem_of_ne_nil _ (c3 e he).occupied
      obtain ⟨hoo, hoe⟩ := List.mem_filter.mp ho
      simp only [decide_eq_true_eq] at hoe
      rw [h3] at hoo
      obtain ⟨a, ha, hoa⟩ := List.mem_flatMap.mp hoo
      obtain ⟨row, hrow, rfl⟩ := List.mem_map.mp hoa
      obtain ⟨p, -, c, hw, -, hr⟩ := mem_of_forall₂_right h6 (List.of_mem_zip ha).1
      rw [hr] at hrow
      obtain ⟨c', hc', -, -, hci⟩ := piecesIn_mem hrow
      have := hw.2.2.1 _ _ (List.of_mem_zip hc').2
      rw [← hoe.1, ← hoe.2]
      simp only [weigh, pieceRow, hci]
      exact ⟨Nat.lt_sub_of_add_lt this.2, Nat.lt_sub_of_add_lt this.1⟩
    · rw [List.Nodup, List.pairwise_map]
      refine c4.imp ?_
      intro e e' hlt
      simp only [ne_eq, Prod.mk.injEq, not_and]
      omega
  · intro i j hi hj
    obtain ⟨W, hW⟩ : ∃ W : Nat → Nat → Rat, W = fun a b => if (a, b) = (j, i) then 1 else 0 :=
      ⟨_, rfl⟩
    have hon : ∀ f : LmaEvent → Rat, ((onCell i j [(fake.children, [])]).map f).sum =
        (fake.children.map fun e => f e * W e.meshXi e.meshYi).sum := by
      intro f
      rw [hW]
      simp only
      rw [sum_indicator]
      unfold onCell
      simp only [List.flatMap_cons, List.flatMap_nil, List.append_nil, Prod.mk.injEq]
      congr 2
      apply List.filter_congr
      intro e _
      simp only [decide_eq_decide]
      tauto
    obtain ⟨w1, w2, -, w3, w4, w5⟩ := weighted_totals out basedate _ h2
      W
    rw [hon, hon, hon, hon, hon, w1, w2, w3, w4, w5, h3]
    have hcell : gridCellArea x y i j = cellArea x y j i := rfl
    have hcell0 : gridCellArea x y i j ≠ 0 := by
      rw [hcell]
      obtain ⟨ar, -, hc⟩ := grid_areas hx hy
      exact (hc j i hj hi).2
    clear w1 w2 w3 w4 w5 hon h1 h2 h3 hsome hpolys hrows h5 hout
    unfold allPieces
    induction h6 generalizing rows with
    | nil => simp
    | @cons p s ps ss h _ ih =>
      cases rows with
      | nil => simp at hl
      | cons r rows =>
        obtain ⟨i1, i2, i3, i4, i5⟩ := ih rows (by simpa using hl)
          (fun p hp => hne p (List.mem_cons_of_mem _ hp))
          (fun p hp => hs p (List.mem_cons_of_mem _ hp))
          (fun s hs => h4 s (List.mem_cons_of_mem _ hs))
        obtain ⟨c, hw, hcand, hr⟩ := h
        have hp := (hne p List.mem_cons_self).2
        have key := share_in_cell clip query x y p c hw hcand (hs p List.mem_cons_self) i j hi hj
        have e1 : ((SubPolys.rows s).map fun row => r.energy * row.2.1 *
            W row.2.2.1 row.2.2.2).sum =
            r.energy * (areaInCell clip x y p i j / |signedArea p|) := by
          rw [← key, hr, ← sum_map_mul_left]
          congr 1
          apply List.map_congr_left
          intro row _
          rw [hW]
          ring
        have e2 : ∀ n : Rat, ((SubPolys.rows s).map fun row =>
            n * (row.2.1 * |signedArea p| / cellArea x y row.2.2.1 row.2.2.2) *
            W row.2.2.1 row.2.2.2).sum =
            n * (areaInCell clip x y p i j / gridCellArea x y i j) := by
          intro n
          have : areaInCell clip x y p i j / gridCellArea x y i j = |signedArea p| /
              gridCellArea x y i j * (areaInCell clip x y p i j / |signedArea p|) := by
            have : |signedArea p| ≠ 0 := by simpa using hp
            field_simp
          rw [this, ← key, hr, ← sum_map_mul_left, ← sum_map_mul_left]
          congr 1
          apply List.map_congr_left
          intro row _
          rw [hW]
          by_cases hrc : (row.2.2.1, row.2.2.2) = (j, i)
          · simp only [Prod.mk.injEq] at hrc
            rw [hrc.1, hrc.2, ← hcell]
            ring
          · simp only [if_neg hrc]
            ring
        simp only [List.map_cons, List.zip_cons_cons, List.flatMap_cons, List.map_append,
          List.sum_append, List.sum_cons, List.map_map, Function.comp_def] at i1 i2 i3 i4 i5 ⊢
        rw [i1, i2, i3, i4, i5]
        simp only [weigh, pieceRow]
        rw [e1, e2, e2, e2, e2]
        exact ⟨rfl, rfl, rfl, rfl, rfl⟩

theorem zip3_mem {α β : Type} {P : Poly → α → Prop} {polys : List Poly} {subs : List α}
    {rows : List β} (h : List.Forall₂ P polys subs) (f : Poly → Rat) {a : α × Rat × β}
    (ha : a ∈ subs.zip ((polys.map f).zip rows)) :
    ∃ p, (p, a.2.2) ∈ polys.zip rows ∧ P p a.1 := by
  induction h generalizing rows with
  | nil => simp at ha
  | @cons p s ps ss hp _ ih =>
    cases rows with
    | nil => simp at ha
    | cons r rows =>
      rw [List.map_cons, List.zip_cons_cons, List.zip_cons_cons] at ha
      rcases List.mem_cons.mp ha with rfl | ha
      · exact ⟨p, List.mem_cons_self, hp⟩
      · obtain ⟨q, hq, hP⟩ := ih ha
        exact ⟨q, List.mem_cons_of_mem _ hq, hP⟩

theorem zip3_mem' {α β : Type} {P : Poly → α → Prop} {polys : List Poly} {subs : List α}
    {rows : List β} (h : List.Forall₂ P polys subs) (f : Poly → Rat) {p : Poly} {r : β}
    (ha : (p, r) ∈ polys.zip rows) :
    ∃ s, (s, f p, r) ∈ subs.zip ((polys.map f).zip rows) ∧ P p s := by
  induction h generalizing rows with
  | nil => simp at ha
  | @cons q s ps ss hp _ ih =>
    cases rows with
    | nil => simp at ha
    | cons r' rows =>
      rw [List.zip_cons_cons] at ha
      rw [List.map_cons, List.zip_cons_cons, List.zip_cons_cons]
      rcases List.mem_cons.mp ha with h | ha
      · cases h
        exact ⟨s, List.mem_cons_self, hp⟩
      · obtain ⟨s', hs', hP⟩ := ih ha
        exact ⟨s', List.mem_cons_of_mem _ hs', hP⟩

/-- C67, least flash areas of a chunk: a row sent for a cell carries the least flash area of a row
of the table whose footprint has a part in the cell, and every such row is accounted for. -/
theorem C67_chunk_min (clip : Poly → Poly → List Poly) (query : List Pt → Pt → Nat → List Nat)
    (quads : List Pt → List Poly) (x y : List Rat) (t basedate : Int) (loc : Rat → Rat → Int)
    (d : GFile) (rows : List LutRow) (polys : List Poly) (fake : FakeLma) (hx : AxisOk x)
    (hy : AxisOk y) (hsz : 2 < x.length ∨ 2 < y.length) (hclip : ∀ p q s, s ∈ clip p q → s ≠ [])
    (hrows : getLutevents t loc d = .ok rows)
    (hpolys : quads (rows.map fun r => (r.x, r.y)) = polys) (hl : polys.length = rows.length)
    (hne : ∀ p ∈ polys, p ≠ [])
    (hsome : ∃ p ∈ polys, coveredArea clip query (gridMesh x y) p ≠ 0)
    (hs : ∀ p ∈ polys, SearchComplete clip query x y p)
    (hf : fastFixedGridReadChunk clip query quads (gridMesh x y) t basedate loc d = .ok (some fake))
    (i j : Nat) (hi : i + 1 < x.length) (hj : j + 1 < y.length) :
    (∀ e ∈ onCell i j [(fake.children, [])], ∃ a ∈ polys.zip rows,
      clip a.1 (cellRect x y j i) ≠ [] ∧ e.minFlashArea = a.2.minFlashArea) ∧
    (∀ a ∈ polys.zip rows, clip a.1 (cellRect x y j i) ≠ [] →
      ∃ e ∈ onCell i j [(fake.children, [])], e.minFlashArea ≤ a.2.minFlashArea) := by
  obtain ⟨fake', out, subs, h1, h2, -, -, h3, h4, h5, h6⟩ := chunk_ok clip query quads x y t basedate
    loc d rows polys hx hy hsz hclip hrows hpolys hl hne hsome
  rw [hf] at h1
  cases h1
  have hout : out ≠ [] := by rintro rfl; cases h2
  obtain ⟨evs, c1, c2, c3, c4⟩ := C31_cells out basedate hout
  rw [h2] at c1
  cases c1
  have hon : ∀ e, e ∈ onCell i j [(fake.children, [])] ↔
      e ∈ fake.children ∧ e.meshXi = j ∧ e.meshYi = i := by
    intro e
    unfold onCell
    simp only [List.flatMap_cons, List.flatMap_nil, List.append_nil, List.mem_filter,
      decide_eq_true_eq]
    tauto
  constructor
  · intro e he
    obtain ⟨hm, hX, hY⟩ := (hon e).mp he
    obtain ⟨o, ho, hoe⟩ := (c3 e hm).minFlashArea.1
    obtain ⟨hoo, hoc⟩ := List.mem_filter.mp ho
    simp only [decide_eq_true_eq] at hoc
    rw [h3] at hoo
    obtain ⟨a, ha, hoa⟩ := List.mem_flatMap.mp hoo
    obtain ⟨row, hrow, rfl⟩ := List.mem_map.mp hoa
    obtain ⟨p, hp, c, hw, -, hr⟩ := zip3_mem h6 _ ha
    refine ⟨(p, a.2.2), hp, ?_, hoe.symm⟩
    rw [hr] at hrow
    obtain ⟨c', hc', hpc, -, hci⟩ := piecesIn_mem hrow
    rw [hw.2.2.2, zip_map_self] at hc'
    obtain ⟨rk, -, rfl⟩ := List.mem_map.mp hc'
    simp only [weigh, pieceRow] at hoc
    simp only at hci hpc
    rw [hci] at hoc
    rw [hX, hY] at hoc
    rw [hoc.1, hoc.2] at hpc
    exact List.ne_nil_of_mem hpc
  · rintro ⟨p, r⟩ ha hne'
    obtain ⟨s, hz, c, hw, hcand, hr⟩ := zip3_mem' h6 (fun p => |signedArea p|) ha
    obtain ⟨c', hc', hmem⟩ := hs p (List.of_mem_zip ha).1 i j hi hj hne'
    rw [hcand] at hc'
    cases hc'
    obtain ⟨piece, hpiece⟩ := List.exists_mem_of_ne_nil _ hne'
    have hrow : (piece, |signedArea piece| / |signedArea p|, (j, i)) ∈ SubPolys.rows s := by
      rw [hr, hw.2.2.2, zip_map_self]
      unfold piecesIn
      exact List.mem_flatMap.mpr ⟨_, List.mem_map.mpr ⟨_, hmem, rfl⟩,
        List.mem_map.mpr ⟨piece, hpiece, rfl⟩⟩
    have ho : weigh (pieceRow (cellArea x y) |signedArea p| r.id
        (piece, |signedArea piece| / |signedArea p|, (j, i))) r ∈ out := by
      rw [h3]
      exact List.mem_flatMap.mpr ⟨_, hz, List.mem_map.mpr ⟨_, hrow, rfl⟩⟩
    obtain ⟨e, ⟨hm, hX, hY⟩, -⟩ := c2 _ ho
    refine ⟨e, (hon e).mpr ⟨hm, hX, hY⟩, ?_⟩
    refine (c3 e hm).minFlashArea.2 _ (List.mem_filter.mpr ⟨ho, ?_⟩)
    simpa using ⟨hX.symm, hY.symm⟩

/-! ### The grids of several chunks -/

/-- What is assumed about a chunk `d` with lookup table `rows`, where `foot` gives the footprint of
a position: footprints are polygons with an area, at least one of them has a part on the grid, and
the search finds all cells that a footprint reaches. -/
structure ChunkOk (clip : Poly → Poly → List Poly) (query : List Pt → Pt → Nat → List Nat)
    (foot : Pt → Poly) (x y : List Rat) (t : Int) (loc : Rat → Rat → Int) (d : GFile)
    (rows : List LutRow) : Prop where
  table : getLutevents t loc d = .ok rows
  polygons : ∀ r ∈ rows, foot (r.x, r.y) ≠ [] ∧ signedArea (foot (r.x, r.y)) ≠ 0
  some : ∃ r ∈ rows, coveredArea clip query (gridMesh x y) (foot (r.x, r.y)) ≠ 0
  search : ∀ r ∈ rows, SearchComplete clip query x y (foot (r.x, r.y))
  area : ∀ r ∈ rows, 0 < r.minFlashArea

theorem zip_foot (foot : Pt → Poly) (rows : List LutRow) :
    ((rows.map fun r => (r.x, r.y)).map foot).zip rows = rows.map fun r => (foot (r.x, r.y), r) := by
  induction rows with
  | nil => rfl
  | cons r rows ih => rw [List.map_cons, List.map_cons, List.zip_cons_cons, ih, List.map_cons]

theorem onCell_cons (i j : Nat) (f : List LmaEvent × List LmaParent)
    (fs : List (List LmaEvent × List LmaParent)) :
    onCell i j (f :: fs) = onCell i j [(f.1, [])] ++ onCell i j fs := by
  unfold onCell
  simp

/-- What C67 says about the rows sent for a chunk and one cell of the grid. -/
def ChunkCells (clip : Poly → Poly → List Poly) (foot : Pt → Poly) (x y : List Rat) (i j : Nat)
    (children : List LmaEvent) (rows : List LutRow) : Prop :=
  let inCell := fun r : LutRow => areaInCell clip x y (foot (r.x, r.y)) i j
  ((onCell i j [(children, [])]).map LmaEvent.power).sum = (rows.map fun r =>
    r.energy * (inCell r / |signedArea (foot (r.x, r.y))|)).sum ∧
  ((onCell i j [(children, [])]).map LmaEvent.flashCount).sum =
    (rows.map fun r => r.flashCount * (inCell r / gridCellArea x y i j)).sum ∧
  ((onCell i j [(children, [])]).map LmaEvent.groupCount).sum =
    (rows.map fun r => r.groupCount * (inCell r / gridCellArea x y i j)).sum ∧
  ((onCell i j [(children, [])]).map LmaEvent.totalFlashArea).sum =
    (rows.map fun r => r.totalFlashArea * (inCell r / gridCellArea x y i j)).sum ∧
  ((onCell i j [(children, [])]).map LmaEvent.totalGroupArea).sum =
    (rows.map fun r => r.totalGroupArea * (inCell r / gridCellArea x y i j)).sum ∧
  (∀ e ∈ onCell i j [(children, [])], ∃ r ∈ rows,
    clip (foot (r.x, r.y)) (cellRect x y j i) ≠ [] ∧ e.minFlashArea = r.minFlashArea) ∧
  (∀ r ∈ rows, clip (foot (r.x, r.y)) (cellRect x y j i) ≠ [] →
    ∃ e ∈ onCell i j [(children, [])], e.minFlashArea ≤ r.minFlashArea)

/-- C67: the grids that are written for any sequence of chunks hold, in the cell between `x[i]` and
`x[i+1]` and between `y[j]` and `y[j+1]`, what the rows of the tables of all chunks have there: the
energy in proportion to the part of the footprint in the cell; flash and group counts and areas in
proportion to the part of the cell under the footprint; and the least flash area among the
footprints that reach the cell. -/
theorem C67_grids (clip : Poly → Poly → List Poly) (query : List Pt → Pt → Nat → List Nat)
    (foot : Pt → Poly) (x y : List Rat) (basedate : Int) (loc : Rat → Rat → Int)
    (chunks : List ((Int × GFile) × List LutRow)) (points : Grid → List LmaParent → Grid) (label : String)
    (par : String → FakeLma → List LmaParent) (hx : AxisOk x) (hy : AxisOk y)
    (hsz : 2 < x.length ∨ 2 < y.length) (hclip : ∀ p q s, s ∈ clip p q → s ≠ [])
    (hc : ∀ c ∈ chunks, ChunkOk clip query foot x y c.1.1 loc c.1.2 c.2) :
    ∃ fakes : List FakeLma,
      List.Forall₂ (fun (c : (Int × GFile) × List LutRow) (fake : FakeLma) =>
        fastFixedGridReadChunk clip query (fun pts => pts.map foot) (gridMesh x y) c.1.1 basedate loc
          c.1.2 = .ok (some fake)) chunks fakes ∧
      ∃ outgrids grids fed fa te ged ga mfa, lutPipelineSetup = .ok outgrids ∧
        gridFrame points (x.length - 1) (y.length - 1) outgrids
          (fun k => fakes.map fun f => (f.children, par k f)) = .ok grids ∧
        gridNamed label grids "flash_extent_density" = some fed ∧
        gridNamed label grids "average_flash_area" = some fa ∧
        gridNamed label grids "total_energy" = some te ∧
        gridNamed label grids "group_extent_density" = some ged ∧
        gridNamed label grids "average_group_area" = some ga ∧
        gridNamed label grids "minimum_flash_area" = some mfa ∧
        (∀ g ∈ [fed, fa, te, ged, ga, mfa], g.n0 = x.length - 1 ∧ g.n1 = y.length - 1) ∧
        ∀ i j, i + 1 < x.length → j + 1 < y.length →
          let rows := chunks.flatMap Prod.snd
          let inCell := fun r : LutRow => areaInCell clip x y (foot (r.x, r.y)) i j
          te.val i j = (rows.map fun r => r.energy * (inCell r / |signedArea (foot (r.x, r.y))|)).sum ∧
          fed.val i j = (rows.map fun r => r.flashCount * (inCell r / gridCellArea x y i j)).sum ∧
          ged.val i j = (rows.map fun r => r.groupCount * (inCell r / gridCellArea x y i j)).sum ∧
          fa.val i j = (rows.map fun r => r.totalFlashArea * (inCell r / gridCellArea x y i j)).sum ∧
          ga.val i j = (rows.map fun r => r.totalGroupArea * (inCell r / gridCellArea x y i j)).sum ∧
          LeastOrZero ((rows.filter fun r => clip (foot (r.x, r.y)) (cellRect x y j i) ≠ []).map
            LutRow.minFlashArea) (mfa.val i j) := by
  -- one chunk
  have one : ∀ c ∈ chunks, ∃ fake, fastFixedGridReadChunk clip query (fun pts => pts.map foot)
      (gridMesh x y) c.1.1 basedate loc c.1.2 = .ok (some fake) ∧
      ChildrenOk (x.length - 1) (y.length - 1) [(fake.children, [])] ∧
      (∀ i j, i + 1 < x.length → j + 1 < y.length →
        ChunkCells clip foot x y i j fake.children c.2) ∧
      ∀ e ∈ fake.children, 0 < e.minFlashArea := by
    rintro ⟨⟨t, d⟩, rows⟩ hmem
    obtain ⟨k1, k2, k3, k4, k5⟩ := hc _ hmem
    have hpol : ∀ p ∈ (rows.map fun r => (r.x, r.y)).map foot, ∃ r ∈ rows, p = foot (r.x, r.y) := by
      intro p hp
      rw [List.map_map] at hp
      obtain ⟨r, hr, rfl⟩ := List.mem_map.mp hp
      exact ⟨r, hr, rfl⟩
    have q1 : ∀ p ∈ (rows.map fun r => (r.x, r.y)).map foot, p ≠ [] ∧ signedArea p ≠ 0 := by
      intro p hp
      obtain ⟨r, hr, rfl⟩ := hpol p hp
      exact k2 r hr
    have q2 : ∃ p ∈ (rows.map fun r => (r.x, r.y)).map foot,
        coveredArea clip query (gridMesh x y) p ≠ 0 := by
      obtain ⟨r, hr, h⟩ := k3
      exact ⟨_, List.mem_map.mpr ⟨_, List.mem_map.mpr ⟨r, hr, rfl⟩, rfl⟩, h⟩
    have q3 : ∀ p ∈ (rows.map fun r => (r.x, r.y)).map foot, SearchComplete clip query x y p := by
      intro p hp
      obtain ⟨r, hr, rfl⟩ := hpol p hp
      exact k4 r hr
    obtain ⟨fake, f1, f2, f3⟩ := C67_chunk clip query (fun pts => pts.map foot) x y t basedate loc d
      rows _ hx hy hsz hclip k1 rfl (by simp) q1 q2 q3
    have hmin := C67_chunk_min clip query (fun pts => pts.map foot) x y t basedate loc d rows _ fake
      hx hy hsz hclip k1 rfl (by simp) (fun p hp => (q1 p hp).1) q2 q3 f1
    refine ⟨fake, f1, f2, ?_, ?_⟩
    · intro i j hi hj
      have h := f3 i j hi hj
      have hm := hmin i j hi hj
      rw [zip_foot] at h hm
      simp only [List.map_map, Function.comp_def] at h
      refine ⟨h.1, h.2.1, h.2.2.1, h.2.2.2.1, h.2.2.2.2, ?_, ?_⟩
      · intro e he
        obtain ⟨a, ha, hcl, hma⟩ := hm.1 e he
        obtain ⟨r, hr, rfl⟩ := List.mem_map.mp ha
        exact ⟨r, hr, hcl, hma⟩
      · intro r hr hcl
        exact hm.2 _ (List.mem_map.mpr ⟨r, hr, rfl⟩) hcl
    · intro e he
      have hr := (f2 _ (List.mem_singleton.mpr rfl)).1 e he
      have hon : e ∈ onCell e.meshYi e.meshXi [(fake.children, [])] := by
        unfold onCell
        simp [he]
      obtain ⟨a, ha, -, hma⟩ := (hmin e.meshYi e.meshXi (by omega) (by omega)).1 e hon
      rw [hma]
      exact k5 _ (List.of_mem_zip ha).2
  have hfakes : ∃ fakes : List FakeLma, List.Forall₂ (fun (c : (Int × GFile) × List LutRow)
      (fake : FakeLma) => fastFixedGridReadChunk clip query (fun pts => pts.map foot) (gridMesh x y) c.1.1
        basedate loc c.1.2 = .ok (some fake)) chunks fakes := by
    clear hc
    induction chunks with
    | nil => exact ⟨[], List.Forall₂.nil⟩
    | cons c cs ih =>
      obtain ⟨fs, hfs⟩ := ih fun c hc => one c (List.mem_cons_of_mem _ hc)
      obtain ⟨f, hf, -⟩ := one c List.mem_cons_self
      exact ⟨f :: fs, List.Forall₂.cons hf hfs⟩
  obtain ⟨fakes, hF⟩ := hfakes
  refine ⟨fakes, hF, ?_⟩
  have hfk : ∀ f ∈ fakes, ∃ c ∈ chunks, fastFixedGridReadChunk clip query (fun pts => pts.map foot)
      (gridMesh x y) c.1.1 basedate loc c.1.2 = .ok (some f) := by
    intro f hf
    clear one hc
    induction hF with
    | nil => simp at hf
    | @cons c f' cs fs h _ ih =>
      rcases List.mem_cons.mp hf with rfl | hf
      · exact ⟨c, List.mem_cons_self, h⟩
      · obtain ⟨c', hc', h'⟩ := ih hf
        exact ⟨c', List.mem_cons_of_mem _ hc', h'⟩
  have hch : ∀ k : String, ChildrenOk (x.length - 1) (y.length - 1)
      (fakes.map fun f => (f.children, par k f)) := by
    intro k fr hfr
    obtain ⟨f, hf, rfl⟩ := List.mem_map.mp hfr
    obtain ⟨c, hcm, hcf⟩ := hfk f hf
    obtain ⟨f', h1, h2, -⟩ := one c hcm
    rw [hcf] at h1
    cases h1
    exact h2 (f.children, []) (List.mem_singleton.mpr rfl)
  have hpos : ∀ fr ∈ fakes.map fun f => (f.children, par "flash" f), ∀ e ∈ fr.1,
      0 < e.minFlashArea := by
    intro fr hfr e he
    obtain ⟨f, hf, rfl⟩ := List.mem_map.mp hfr
    obtain ⟨c, hcm, hcf⟩ := hfk f hf
    obtain ⟨f', h1, -, -, h2⟩ := one c hcm
    rw [hcf] at h1
    cases h1
    exact h2 e he
  obtain ⟨outgrids, grids, fed, fcd, fa, te, ged, gcd, ga, mfa, o1, o2, -, o3, ⟨n1, v1⟩, -, ⟨n3, v3⟩,
    ⟨n4, v4⟩, ⟨n5, v5⟩, -, ⟨n7, v7⟩, ⟨n8, v8⟩⟩ := C35_contents points label (x.length - 1)
    (y.length - 1) (fun k => fakes.map fun f => (f.children, par k f)) hch hpos
  refine ⟨outgrids, grids, fed, fa, te, ged, ga, mfa, o1, o2, n1, n3, n4, n5, n7, n8, o3, ?_⟩
  intro i j hi hj
  simp only
  have hsum : ∀ (k : String) (q : LmaEvent → Rat) (g : LutRow → Rat),
      (∀ c ∈ chunks, ∀ f, fastFixedGridReadChunk clip query (fun pts => pts.map foot)
        (gridMesh x y) c.1.1 basedate loc c.1.2 = .ok (some f) →
        ((onCell i j [(f.children, [])]).map q).sum = (c.2.map g).sum) →
      ((onCell i j (fakes.map fun f => (f.children, par k f))).map q).sum =
        ((chunks.flatMap Prod.snd).map g).sum := by
    intro k q g
    clear o1 o2 o3 v1 v3 v4 v5 v7 v8 hpos hch hfk one hc
    induction hF with
    | nil => intro _; rfl
    | @cons c f cs fs h _ ih =>
      intro hq
      rw [List.map_cons, onCell_cons, List.map_append, List.sum_append, List.flatMap_cons,
        List.map_append, List.sum_append, ih fun c hc => hq c (List.mem_cons_of_mem _ hc)]
      congr 1
      exact hq c List.mem_cons_self f h
  have oneAt : ∀ c ∈ chunks, ∀ f, fastFixedGridReadChunk clip query (fun pts => pts.map foot)
      (gridMesh x y) c.1.1 basedate loc c.1.2 = .ok (some f) →
      ChunkCells clip foot x y i j f.children c.2 := by
    intro c hcm f hf
    obtain ⟨f', h1, -, h2, -⟩ := one c hcm
    rw [hf] at h1
    cases h1
    exact h2 i j hi hj
  refine ⟨(v4 i j).trans (hsum _ _ _ fun c hcm f hf => (oneAt c hcm f hf).1),
    (v1 i j).trans (hsum _ _ _ fun c hcm f hf => (oneAt c hcm f hf).2.1),
    (v5 i j).trans (hsum _ _ _ fun c hcm f hf => (oneAt c hcm f hf).2.2.1),
    (v3 i j).trans (hsum _ _ _ fun c hcm f hf => (oneAt c hcm f hf).2.2.2.1),
    (v7 i j).trans (hsum _ _ _ fun c hcm f hf => (oneAt c hcm f hf).2.2.2.2.1), ?_⟩
  -- the least flash area
  have mem1 : ∀ e ∈ onCell i j (fakes.map fun f => (f.children, par "flash" f)), ∃ r ∈
      chunks.flatMap Prod.snd, clip (foot (r.x, r.y)) (cellRect x y j i) ≠ [] ∧
        e.minFlashArea = r.minFlashArea := by
    clear o1 o2 o3 v1 v3 v4 v5 v7 v8 hpos hch hfk one hc hsum
    induction hF with
    | nil => intro e he; simp [onCell] at he
    | @cons c f cs fs h _ ih =>
      intro e he
      rw [List.map_cons, onCell_cons] at he
      rcases List.mem_append.mp he with he | he
      · obtain ⟨r, hr, hh⟩ := (oneAt c List.mem_cons_self f h).2.2.2.2.2.1 e he
        exact ⟨r, List.mem_flatMap.mpr ⟨c, List.mem_cons_self, hr⟩, hh⟩
      · obtain ⟨r, hr, hh⟩ := ih (fun c hc => oneAt c (List.mem_cons_of_mem _ hc)) e he
        exact ⟨r, by rw [List.flatMap_cons]; exact List.mem_append_right _ hr, hh⟩
  have mem2 : ∀ r ∈ chunks.flatMap Prod.snd, clip (foot (r.x, r.y)) (cellRect x y j i) ≠ [] →
      ∃ e ∈ onCell i j (fakes.map fun f => (f.children, par "flash" f)),
        e.minFlashArea ≤ r.minFlashArea := by
    clear o1 o2 o3 v1 v3 v4 v5 v7 v8 hpos hch hfk one hc hsum mem1
    induction hF with
    | nil => intro e he; simp at he
    | @cons c f cs fs h _ ih =>
      intro r hr hcl
      rw [List.flatMap_cons] at hr
      rcases List.mem_append.mp hr with hr | hr
      · obtain ⟨e, he, hh⟩ := (oneAt c List.mem_cons_self f h).2.2.2.2.2.2 r hr hcl
        exact ⟨e, by rw [List.map_cons, onCell_cons]; exact List.mem_append_left _ he, hh⟩
      · obtain ⟨e, he, hh⟩ := ih (fun c hc => oneAt c (List.mem_cons_of_mem _ hc)) r hr hcl
        exact ⟨e, by rw [List.map_cons, onCell_cons]; exact List.mem_append_right _ he, hh⟩
  have hv := v8 i j
  constructor
  · intro hnil
    apply hv.1
    rw [List.map_eq_nil_iff] at hnil ⊢
    rw [List.eq_nil_iff_forall_not_mem] at hnil ⊢
    intro e he
    obtain ⟨r, hr, hcl, -⟩ := mem1 e he
    exact hnil r (List.mem_filter.mpr ⟨hr, by simpa using hcl⟩)
  · intro hn
    have hne : (onCell i j (fakes.map fun f => (f.children, par "flash" f))).map
        LmaEvent.minFlashArea ≠ [] := by
      obtain ⟨m, hm⟩ := List.exists_mem_of_ne_nil _ hn
      obtain ⟨r, hr, -⟩ := List.mem_map.mp hm
      obtain ⟨hr1, hr2⟩ := List.mem_filter.mp hr
      obtain ⟨e, he, -⟩ := mem2 r hr1 (by simpa using hr2)
      exact List.ne_nil_of_mem (List.mem_map_of_mem he)
    obtain ⟨hm, hle⟩ := hv.2 hne
    constructor
    · obtain ⟨e, he, hev⟩ := List.mem_map.mp hm
      obtain ⟨r, hr, hcl, hre⟩ := mem1 e he
      rw [← hev, hre]
      exact List.mem_map_of_mem (List.mem_filter.mpr ⟨hr, by simpa using hcl⟩)
    · intro u hu
      obtain ⟨r, hr, rfl⟩ := List.mem_map.mp hu
      obtain ⟨hr1, hr2⟩ := List.mem_filter.mp hr
      obtain ⟨e, he, hle'⟩ := mem2 r hr1 (by simpa using hr2)
      exact le_trans (hle _ (List.mem_map_of_mem he)) hle'

/-! ### Rectangular footprints -/

theorem rectClip_pos {x y : List Rat} {a b c d : Rat} {i j : Nat}
    (h : rectClip (rect a b c d) (cellRect x y j i) ≠ []) :
    overlap a b (x.getD i 0) (x.getD (i + 1) 0) ≠ 0 ∧
      overlap c d (y.getD j 0) (y.getD (j + 1) 0) ≠ 0 := by
  unfold rectClip rect cellRect at h
  simp only at h
  split at h
  · rename_i hh
    unfold overlap
    rw [max_eq_right (sub_nonneg.mpr (le_of_lt hh.1)), max_eq_right (sub_nonneg.mpr (le_of_lt hh.2))]
    exact ⟨ne_of_gt (sub_pos.mpr hh.1), ne_of_gt (sub_pos.mpr hh.2)⟩
  · exact absurd rfl h

/-- The search finds every cell that a rectangle of at most four times the width and height of the
smallest cells reaches, if the middle of the rectangle is on the grid. -/
theorem rect_search (query : List Pt → Pt → Nat → List Nat) (x y : List Rat) (dx dy a b c d : Rat)
    (hx : AxisOk x) (hy : AxisOk y) (hsz : 2 < x.length ∨ 2 < y.length)
    (ux : Spaced x dx) (uy : Spaced y dy)
    (hx0 : x.getD 0 0 < (a + b) / 2) (hx1 : (a + b) / 2 ≤ x.getD (x.length - 1) 0)
    (hy0 : y.getD 0 0 < (c + d) / 2) (hy1 : (c + d) / 2 ≤ y.getD (y.length - 1) 0)
    (hw : b - a ≤ 4 * dx) (hh : d - c ≤ 4 * dy) :
    SearchComplete rectClip query x y (rect a b c d) := by
  intro i j hi hj hne
  obtain ⟨C, col, row, h1, -, hcol, hrow, h4⟩ :=
    C25_neighbourhood query x y (meanPoint (rect a b c d)) hx hy
      (by rw [rect_mean]; exact hx0) (by rw [rect_mean]; exact hx1)
      (by rw [rect_mean]; exact hy0) (by rw [rect_mean]; exact hy1)
  obtain ⟨C', hC', -, -, -⟩ := grid_candidates query hx hy (bbox := .none) (Or.inl ⟨rfl, hsz⟩)
    (rect a b c d) (by simp [rect])
  have hCC : C' = C := by
    have hC := hC'
    unfold candidatesFor at hC
    simp only [h1, bind, Except.bind] at hC
    split at hC
    · cases hC
    · cases hC; rfl
  subst hCC
  rw [rect_mean] at hcol hrow
  obtain ⟨p1, p2⟩ := rectClip_pos hne
  have n1 := overlap_near hx ux hw hcol hi p1
  have n2 := overlap_near hy uy hh hrow hj p2
  exact ⟨C', hC', (h4 j i).mpr ⟨hj, hi, n2.1, n2.2, n1.1, n1.2⟩⟩

/-- C67 with nothing left to assume about the clipper: rectangular footprints of half width `w` and
half height `h` inside of an evenly spaced grid.  Every cell of the grid of energies holds the
energies in proportion to the overlap of the rectangles with the cell, and every cell of the grid of
flash extent density the number of flashes in proportion to the part of the cell that is covered. -/
theorem C67_rectangles (query : List Pt → Pt → Nat → List Nat) (x y : List Rat) (dx dy w h : Rat)
    (basedate : Int) (loc : Rat → Rat → Int) (chunks : List ((Int × GFile) × List LutRow))
    (points : Grid → List LmaParent → Grid) (label : String) (par : String → FakeLma → List LmaParent)
    (hx : AxisOk x) (hy : AxisOk y) (hsz : 2 < x.length ∨ 2 < y.length)
    (ux : Uniform x dx) (uy : Uniform y dy) (hw0 : 0 < w) (hh0 : 0 < h) (hw : w ≤ 2 * dx)
    (hh : h ≤ 2 * dy)
    (hc : ∀ c ∈ chunks, getLutevents c.1.1 loc c.1.2 = .ok c.2 ∧ c.2 ≠ [] ∧ ∀ r ∈ c.2,
      0 < r.minFlashArea ∧ x.getD 0 0 ≤ r.x - w ∧ r.x + w ≤ x.getD (x.length - 1) 0 ∧
      y.getD 0 0 ≤ r.y - h ∧ r.y + h ≤ y.getD (y.length - 1) 0) :
    ∃ fakes : List FakeLma,
      List.Forall₂ (fun (c : (Int × GFile) × List LutRow) (fake : FakeLma) =>
        fastFixedGridReadChunk rectClip query
          (fun pts => pts.map fun p => rect (p.1 - w) (p.1 + w) (p.2 - h) (p.2 + h)) (gridMesh x y) c.1.1
          basedate loc c.1.2 = .ok (some fake)) chunks fakes ∧
      ∃ outgrids grids te fed, lutPipelineSetup = .ok outgrids ∧
        gridFrame points (x.length - 1) (y.length - 1) outgrids
          (fun k => fakes.map fun f => (f.children, par k f)) = .ok grids ∧
        gridNamed label grids "total_energy" = some te ∧
        gridNamed label grids "flash_extent_density" = some fed ∧
        ∀ i j, i + 1 < x.length → j + 1 < y.length →
          let part := fun r : LutRow =>
            overlap (r.x - w) (r.x + w) (x.getD i 0) (x.getD (i + 1) 0) *
              overlap (r.y - h) (r.y + h) (y.getD j 0) (y.getD (j + 1) 0)
          te.val i j =
            ((chunks.flatMap Prod.snd).map fun r => r.energy * (part r / (2 * w * (2 * h)))).sum ∧
          fed.val i j =
            ((chunks.flatMap Prod.snd).map fun r => r.flashCount * (part r / (dx * dy))).sum := by
  have har : ∀ r : LutRow, signedArea (rect (r.x - w) (r.x + w) (r.y - h) (r.y + h)) =
      (2 * w) * (2 * h) := by
    intro r; rw [rect_area]; ring
  have hpos : 0 < (2 * w) * (2 * h) := by positivity
  obtain ⟨fakes, hF, outgrids, grids, fed, fa, te, ged, ga, mfa, o1, o2, n1, -, n3, -, -, -, -, hv⟩ :=
    C67_grids rectClip query (fun p => rect (p.1 - w) (p.1 + w) (p.2 - h) (p.2 + h)) x y basedate
      loc chunks points label par hx hy hsz rectClip_ne_nil (by
        intro c hcm
        obtain ⟨k1, k2, k3⟩ := hc c hcm
        refine ⟨k1, ?_, ?_, ?_, fun r hr => (k3 r hr).1⟩
        · intro r hr
          exact ⟨by simp [rect], by rw [har]; exact ne_of_gt hpos⟩
        · obtain ⟨r, hr⟩ := List.exists_mem_of_ne_nil _ k2
          obtain ⟨-, i1, i2, i3, i4⟩ := k3 r hr
          refine ⟨r, hr, ?_⟩
          rw [rect_covered query x y dx dy _ _ _ _ hx hy hsz (ux.spaced hx) (uy.spaced hy) (by linarith) (by linarith) i1 i2
            i3 i4 (by linarith) (by linarith)]
          have : (r.x + w - (r.x - w)) * (r.y + h - (r.y - h)) = (2 * w) * (2 * h) := by ring
          rw [this]
          exact ne_of_gt hpos
        · intro r hr
          obtain ⟨-, i1, i2, i3, i4⟩ := k3 r hr
          exact rect_search query x y dx dy _ _ _ _ hx hy hsz (ux.spaced hx) (uy.spaced hy) (by linarith) (by linarith)
            (by linarith) (by linarith) (by linarith) (by linarith))
  refine ⟨fakes, hF, outgrids, grids, te, fed, o1, o2, n3, n1, ?_⟩
  intro i j hi hj
  obtain ⟨v1, v2, -⟩ := hv i j hi hj
  simp only at v1 v2 ⊢
  rw [v1, v2]
  have hin : ∀ r : LutRow, areaInCell rectClip x y (rect (r.x - w) (r.x + w) (r.y - h) (r.y + h)) i j =
      overlap (r.x - w) (r.x + w) (x.getD i 0) (x.getD (i + 1) 0) *
        overlap (r.y - h) (r.y + h) (y.getD j 0) (y.getD (j + 1) 0) := by
    intro r
    have := rectClip_area x y (r.x - w) (r.x + w) (r.y - h) (r.y + h) (j, i)
    rw [mul_comm]
    exact this
  have hg : gridCellArea x y i j = dx * dy := by
    unfold gridCellArea
    rw [ux (i + 1) hi, ux i (by omega), uy (j + 1) hj, uy j (by omega)]
    push_cast
    ring
  simp only [hin, har, hg, abs_of_pos hpos]
  exact ⟨trivial, trivial⟩

/-- Two chunks meet the hypotheses of `C67_rectangles`. -/
example : ∀ c ∈ [((7, splitSample), sampleRows), ((7, splitSample), sampleRows)],
    getLutevents c.1.1 sampleLoc c.1.2 = .ok c.2 ∧ c.2 ≠ [] ∧ ∀ r ∈ c.2,
      0 < r.minFlashArea ∧ sampleX.getD 0 0 ≤ r.x - 3/4 ∧
      r.x + 3/4 ≤ sampleX.getD (sampleX.length - 1) 0 ∧
      sampleY.getD 0 0 ≤ r.y - 3/4 ∧ r.y + 3/4 ≤ sampleY.getD (sampleY.length - 1) 0 := by
  intro c hc
  have : c = ((7, splitSample), sampleRows) := by
    rcases List.mem_cons.mp hc with h | h
    · exact h
    · exact List.mem_singleton.mp h
  subst this
  exact ⟨sampleRows_eq, by decide +kernel, by decide +kernel⟩

/-! ## C68 -/

/-- C68: a chunk without lightning on the grid is read without an exception and sends nothing. -/
def C68_full : Prop := ∀ (clip : Poly → Poly → List Poly) (query : List Pt → Pt → Nat → List Nat)
  (foot : Pt → Poly) (x y : List Rat) (t basedate : Int) (loc : Rat → Rat → Int) (d : GFile)
  (rows : List LutRow), AxisOk x → AxisOk y → 2 < x.length ∨ 2 < y.length →
  (∀ p q s, s ∈ clip p q → s ≠ []) → getLutevents t loc d = .ok rows →
  (∀ r ∈ rows, foot (r.x, r.y) ≠ []) →
  (∀ r ∈ rows, ∀ i j, i + 1 < x.length → j + 1 < y.length →
    clip (foot (r.x, r.y)) (cellRect x y j i) = []) →
  fastFixedGridReadChunk clip query (fun pts => pts.map foot) (gridMesh x y) t basedate loc d =
    .ok none

/-- What happens instead, always: a ValueError. -/
theorem C68_exact (clip : Poly → Poly → List Poly) (query : List Pt → Pt → Nat → List Nat)
    (foot : Pt → Poly) (x y : List Rat) (t basedate : Int) (loc : Rat → Rat → Int) (d : GFile)
    (rows : List LutRow) (hx : AxisOk x) (hy : AxisOk y) (hsz : 2 < x.length ∨ 2 < y.length)
    (hclip : ∀ p q s, s ∈ clip p q → s ≠ []) (hrows : getLutevents t loc d = .ok rows)
    (hne : ∀ r ∈ rows, foot (r.x, r.y) ≠ [])
    (hoff : ∀ r ∈ rows, ∀ i j, i + 1 < x.length → j + 1 < y.length →
      clip (foot (r.x, r.y)) (cellRect x y j i) = []) :
    fastFixedGridReadChunk clip query (fun pts => pts.map foot) (gridMesh x y) t basedate loc d =
      .error .valueError := by
  obtain ⟨polys, hpolys⟩ : ∃ polys, polys = (rows.map fun r => (r.x, r.y)).map foot := ⟨_, rfl⟩
  have hpol : ∀ p ∈ polys, ∃ r ∈ rows, p = foot (r.x, r.y) := by
    intro p hp
    rw [hpolys, List.map_map] at hp
    obtain ⟨r, hr, rfl⟩ := List.mem_map.mp hp
    exact ⟨r, hr, rfl⟩
  have hne' : ∀ p ∈ polys, p ≠ [] := by
    intro p hp
    obtain ⟨r, hr, rfl⟩ := hpol p hp
    exact hne r hr
  obtain ⟨subs, hs1, hs2⟩ := slice_ok polys hne' hclip
    fun p hp => grid_candidates query hx hy (bbox := .none) (Or.inl ⟨rfl, hsz⟩) p (hne' p hp)
  obtain ⟨areas, ha, hcell⟩ := grid_areas hx hy
  have hlen : subs.length = polys.length := hs2.length_eq.symm
  have hl : polys.length = rows.length := by rw [hpolys]; simp
  have hempty : ∀ s ∈ subs, SubPolys.Aligned s ∧ SubPolys.rows s = [] := by
    intro s hs
    obtain ⟨p, hp, hal, c, ⟨⟨w1, w2, w3, w4⟩, -⟩, hr⟩ := mem_of_forall₂_right hs2 hs
    refine ⟨hal, ?_⟩
    rw [hr, w4, zip_map_self]
    unfold piecesIn
    rw [List.flatMap_eq_nil_iff]
    intro q hq
    obtain ⟨rk, hrk, rfl⟩ := List.mem_map.mp hq
    obtain ⟨r, hrow, rfl⟩ := hpol p hp
    have := w3 rk.1 rk.2 hrk
    rw [List.map_eq_nil_iff]
    exact hoff r hrow rk.2 rk.1 this.2 this.1
  have hn : (rows.map LutRow.id).Nodup := by
    rw [lut_ids hrows]; exact npUnique_nodup _
  have hno : ∀ s ∈ subs, s.xi.zip s.yi = [] := by
    intro s hs
    rw [← rows_cells (hempty s hs).1, (hempty s hs).2]
    rfl
  obtain ⟨props, hp1, hp2⟩ := C30_rows areas (cellArea x y) subs (polys.map fun p => |signedArea p|)
    (rows.map LutRow.id) (by simp [hlen]) (by simp [hl]) (fun s hs => (hempty s hs).1)
    (fun s hs ij hij => by rw [hno s hs] at hij; simp at hij)
  have ho1 := replicate_pieces (cellArea x y) subs (polys.map fun p => |signedArea p|) rows hn
  have hout : allPieces (cellArea x y) subs (polys.map fun p => |signedArea p|) rows = [] := by
    unfold allPieces
    rw [List.flatMap_eq_nil_iff]
    intro a ha
    rw [(hempty _ (List.of_mem_zip ha).1).2]
    rfl
  rw [hout] at ho1
  unfold fastFixedGridReadChunk
  simp only [hrows, bind, Except.bind, pure, Except.pure]
  rw [← hpolys]
  simp only [hs1, ha, hp1, hp2, ho1, mimicLmaDatasetLut, bind, Except.bind, C31_no_pieces]

/-- C68 is violated. -/
theorem C68_full_false : ¬ C68_full := by
  intro h
  have hax : AxisOk [10, 11, 12] ∧ AxisOk [10, 11, 12] := by
    unfold AxisOk Increasing
    exact ⟨⟨by decide +kernel, by decide⟩, ⟨by decide +kernel, by decide⟩⟩
  have hoff : ∀ r ∈ sampleRows, ∀ i < 3, ∀ j < 3,
      rectClip (rect (r.x - 1) (r.x + 1) (r.y - 1) (r.y + 1)) (cellRect [10, 11, 12] [10, 11, 12] j i) =
        [] := by decide +kernel
  have h1 := h rectClip (fun _ _ _ => []) (fun p => rect (p.1 - 1) (p.1 + 1) (p.2 - 1) (p.2 + 1))
    [10, 11, 12] [10, 11, 12] 7 0 sampleLoc splitSample sampleRows hax.1 hax.2 (Or.inl (by decide))
    rectClip_ne_nil sampleRows_eq (fun r _ => by simp [rect])
    (fun r hr i j hi hj => hoff r hr i (by simp at hi; omega) j (by simp at hj; omega))
  rw [C68_exact rectClip (fun _ _ _ => []) (fun p => rect (p.1 - 1) (p.1 + 1) (p.2 - 1) (p.2 + 1))
    [10, 11, 12] [10, 11, 12] 7 0 sampleLoc splitSample sampleRows hax.1 hax.2 (Or.inl (by decide))
    rectClip_ne_nil sampleRows_eq (fun r _ => by simp [rect])
    (fun r hr i j hi hj => hoff r hr i (by simp at hi; omega) j (by simp at hj; omega))] at h1
  cases h1

/-- C68, the part that holds: a chunk of which a footprint has a part on the grid is read without an
exception. -/
theorem C68_partial (clip : Poly → Poly → List Poly) (query : List Pt → Pt → Nat → List Nat)
    (quads : List Pt → List Poly) (x y : List Rat) (t basedate : Int) (loc : Rat → Rat → Int)
    (d : GFile) (rows : List LutRow) (polys : List Poly) (hx : AxisOk x) (hy : AxisOk y)
    (hsz : 2 < x.length ∨ 2 < y.length) (hclip : ∀ p q s, s ∈ clip p q → s ≠ [])
    (hrows : getLutevents t loc d = .ok rows)
    (hpolys : quads (rows.map fun r => (r.x, r.y)) = polys) (hl : polys.length = rows.length)
    (hne : ∀ p ∈ polys, p ≠ []) (hsome : ∃ p ∈ polys, coveredArea clip query (gridMesh x y) p ≠ 0) :
    ∃ fake, fastFixedGridReadChunk clip query quads (gridMesh x y) t basedate loc d =
      .ok (some fake) ∧ fake.children ≠ [] := by
  obtain ⟨fake, out, subs, h1, h2, -⟩ := chunk_ok clip query quads x y t basedate
    loc d rows polys hx hy hsz hclip hrows hpolys hl hne hsome
  refine ⟨fake, h1, ?_⟩
  have hout : out ≠ [] := by rintro rfl; cases h2
  obtain ⟨evs, c1, c2, -⟩ := C31_cells out basedate hout
  rw [h2] at c1
  cases c1
  obtain ⟨o, ho⟩ := List.exists_mem_of_ne_nil _ hout
  obtain ⟨e, ⟨hm, -⟩, -⟩ := c2 o ho
  exact List.ne_nil_of_mem hm

end Verif.Props
