import Verif.Props.Clipping

/-! # The cell lookup for every arrangement of a regular mesh

`QuadMeshSubset` takes the two dimensional edge arrays in either order of the dimensions
(clipping.py:187-210), and `np.digitize` accepts edges that run up or down.  C24 and C25 are stated
in Props/Clipping for the arrangement that the gridding code makes; here they are proved for all
four. -/

namespace Verif.Props

open Verif.Py Verif.Model Verif.Spec Verif.Proofs

/-- Edges of an axis with at least one cell, running up or down. -/
def AxisDir (edge : List Rat) : Prop := (Increasing edge ∨ Increasing edge.reverse) ∧ 2 ≤ edge.length

/-- `v` is in cell `a`: above the lower edge and not above the upper one. -/
def holds (edge : List Rat) (a : Nat) (v : Rat) : Prop :=
  a + 1 < edge.length ∧ min (edge.getD a 0) (edge.getD (a + 1) 0) < v ∧
    v ≤ max (edge.getD a 0) (edge.getD (a + 1) 0)

/-- `v` is above the lowest edge and not above the highest one. -/
def inside (edge : List Rat) (v : Rat) : Prop := ∃ lo ∈ edge, ∃ hi ∈ edge, lo < v ∧ v ≤ hi

/-- The regular mesh with x along the second dimension (`false`, as the gridding code makes it) or
along the first (`true`). -/
def arranged (t : Bool) (x y : List Rat) : Mesh :=
  if t then { xedge := (meshgrid y x).2, yedge := (meshgrid y x).1, regular := true, nNeighbors := 160 }
  else { xedge := (meshgrid x y).1, yedge := (meshgrid x y).2, regular := true, nNeighbors := 160 }

/-- The corners of the cell with array indices `i` and `j`, in the order in which the mesh lists
them. -/
def arrangedRect (t : Bool) (x y : List Rat) (i j : Nat) : Poly :=
  if t then [(x.getD i 0, y.getD j 0), (x.getD i 0, y.getD (j + 1) 0),
    (x.getD (i + 1) 0, y.getD (j + 1) 0), (x.getD (i + 1) 0, y.getD j 0)]
  else [(x.getD j 0, y.getD i 0), (x.getD (j + 1) 0, y.getD i 0),
    (x.getD (j + 1) 0, y.getD (i + 1) 0), (x.getD j 0, y.getD (i + 1) 0)]

/-- The column (position along x) of the cell with array indices `i` and `j`. -/
def col (t : Bool) (i j : Nat) : Nat := if t then i else j
/-- The row (position along y) of the cell with array indices `i` and `j`. -/
def row (t : Bool) (i j : Nat) : Nat := if t then j else i

/-- The arrangement can be told from the values: with x along the first dimension the x edges have
to span more than 2e-8. -/
def Told (t : Bool) (x : List Rat) : Prop :=
  t = true → 2 / 100000000 < |x.getD (x.length - 1) 0 - x.getD 0 0|

/-- The three arrays of an answer belong together: distinct cells, each with its own corners. -/
def Together (t : Bool) (x y : List Rat) (c : Candidates) : Prop :=
  c.xi.length = c.yi.length ∧ (c.xi.zip c.yi).Nodup ∧
  c.quads = (c.xi.zip c.yi).map fun ij => arrangedRect t x y ij.1 ij.2

theorem getD_reverse {edge : List Rat} {a : Nat} (ha : a < edge.length) :
    edge.reverse.getD a 0 = edge.getD (edge.length - 1 - a) 0 := by
  rw [List.getD_eq_getElem?_getD, List.getD_eq_getElem?_getD, List.getElem?_reverse ha]

theorem holds_up {edge : List Rat} (h : Increasing edge) {a : Nat} {v : Rat} :
    holds edge a v ↔ inCell edge a v := by
  unfold holds inCell
  refine and_congr_right fun ha => ?_
  have := getD_le_of_le h (show a ≤ a + 1 by omega) ha
  rw [min_eq_left this, max_eq_right this]

theorem holds_down {edge : List Rat} (h : Increasing edge.reverse) {a : Nat} {v : Rat}
    (ha : a + 1 < edge.length) :
    holds edge a v ↔ inCell edge.reverse (edge.length - 2 - a) v := by
  unfold holds inCell
  rw [List.length_reverse, getD_reverse (by omega), getD_reverse (by omega),
    show edge.length - 1 - (edge.length - 2 - a) = a + 1 by omega,
    show edge.length - 1 - (edge.length - 2 - a + 1) = a by omega]
  have := getD_le_of_le h (show edge.length - 2 - a ≤ edge.length - 2 - a + 1 by omega)
    (by rw [List.length_reverse]; omega)
  rw [getD_reverse (by omega), getD_reverse (by omega),
    show edge.length - 1 - (edge.length - 2 - a) = a + 1 by omega,
    show edge.length - 1 - (edge.length - 2 - a + 1) = a by omega] at this
  rw [min_eq_right this, max_eq_left this]
  constructor
  · rintro ⟨-, h2⟩; exact ⟨by omega, h2⟩
  · rintro ⟨-, h2⟩; exact ⟨ha, h2⟩

theorem digitize_down {edge : List Rat} (h : Increasing edge.reverse) (hl : 2 ≤ edge.length)
    (v : Rat) : digitizeRight edge v = .ok (edge.length - (edge.reverse.filter (· < v)).length) := by
  unfold digitizeRight
  have hd : edge.Pairwise (· ≥ ·) := by
    have := List.pairwise_reverse.mp h
    exact this.imp fun h => le_of_lt h
  rw [if_neg, if_pos hd]
  · congr 1
    rw [List.filter_reverse, List.length_reverse]
    have h1 := List.length_eq_length_filter_add (l := edge) (fun b => decide (b < v))
    have h2 : (edge.filter fun b => !decide (b < v)) = edge.filter fun b => decide (v ≤ b) := by
      apply List.filter_congr
      intro b _
      by_cases hb : b < v
      · simp [hb, not_le.mpr hb]
      · simp [hb, not_lt.mp hb]
    rw [h2] at h1
    omega
  · intro hu
    have h1 := (List.pairwise_iff_getElem.mp hu) 0 1 (by omega) (by omega) (by omega)
    have h2 := (List.pairwise_iff_getElem.mp (List.pairwise_reverse.mp h)) 0 1 (by omega) (by omega)
      (by omega)
    linarith

/-- What the lookup finds along one axis. -/
theorem limitCells_dir {edge : List Rat} (h : AxisDir edge) (lo hi : Rat) :
    ∃ l, limitCells edge lo hi = .ok l ∧
      ∀ k, k ∈ l ↔ ∃ v, ∃ a : Nat, (v = lo ∨ v = hi) ∧ holds edge a v ∧ k = a := by
  obtain ⟨h | h, hl⟩ := h
  · refine ⟨_, limitCells_ok h lo hi, ?_⟩
    intro k
    rw [List.mem_append, mem_limitCell h, mem_limitCell h]
    constructor
    · rintro (⟨a, rfl, ha⟩ | ⟨a, rfl, ha⟩)
      · exact ⟨lo, a, Or.inl rfl, (holds_up h).mpr ha, rfl⟩
      · exact ⟨hi, a, Or.inr rfl, (holds_up h).mpr ha, rfl⟩
    · rintro ⟨v, a, rfl | rfl, ha, rfl⟩
      · exact Or.inl ⟨a, rfl, (holds_up h).mp ha⟩
      · exact Or.inr ⟨a, rfl, (holds_up h).mp ha⟩
  · have key : ∀ v : Rat, ∀ k : Int,
        (k = ((edge.length - (edge.reverse.filter (· < v)).length : Nat) : Int) - 1 ∧
          0 ≤ k ∧ k < (edge.length : Int) - 1) ↔ ∃ a : Nat, holds edge a v ∧ k = a := by
      intro v k
      constructor
      · rintro ⟨rfl, h0, h1⟩
        rcases filter_lt_cases h v with ⟨hz, -⟩ | ⟨hz, -⟩ | ⟨a, ha, hz⟩
        · omega
        · rw [List.length_reverse] at hz; omega
        · have ha1 := ha.1
          rw [List.length_reverse] at ha1
          refine ⟨edge.length - 2 - a, (holds_down h (by omega)).mpr ?_, by omega⟩
          rwa [show edge.length - 2 - (edge.length - 2 - a) = a by omega]
      · rintro ⟨a, ha, rfl⟩
        have ha1 := ha.1
        have := filter_lt_inCell h ((holds_down h ha1).mp ha)
        omega
    unfold limitCells
    rw [digitize_down h hl, digitize_down h hl]
    refine ⟨_, rfl, ?_⟩
    intro k
    rw [List.mem_filter, decide_eq_true_eq]
    simp only [List.mem_cons, List.not_mem_nil, or_false]
    constructor
    · rintro ⟨rfl | rfl, hk⟩
      · obtain ⟨a, ha, he⟩ := (key lo _).mp ⟨rfl, hk⟩
        exact ⟨lo, a, Or.inl rfl, ha, he⟩
      · obtain ⟨a, ha, he⟩ := (key hi _).mp ⟨rfl, hk⟩
        exact ⟨hi, a, Or.inr rfl, ha, he⟩
    · rintro ⟨v, a, rfl | rfl, ha, he⟩
      · obtain ⟨h1, h2⟩ := (key v k).mpr ⟨a, ha, he⟩
        exact ⟨Or.inl h1, h2⟩
      · obtain ⟨h1, h2⟩ := (key v k).mpr ⟨a, ha, he⟩
        exact ⟨Or.inr h1, h2⟩

/-- The cells that the lookup returns along one axis. -/
def found (edge : List Rat) (lo hi : Rat) (k : Nat) : Prop :=
  k + 1 < edge.length ∧
    (∃ v a, (v = lo ∨ v = hi) ∧ holds edge a v ∧ a ≤ k + 2) ∧
    (∃ v a, (v = lo ∨ v = hi) ∧ holds edge a v ∧ k ≤ a + 2)

theorem mem_axisCells_dir {edge : List Rat} {lo hi : Rat} {l : List Int}
    (hl : ∀ k, k ∈ l ↔ ∃ v, ∃ a : Nat, (v = lo ∨ v = hi) ∧ holds edge a v ∧ k = a) (k : Nat) :
    k ∈ axisCells (edge.length - 1) 2 l ↔ found edge lo hi k := by
  rw [mem_axisCells]
  unfold found
  constructor
  · rintro ⟨h1, ⟨m, hm, hm'⟩, ⟨n, hn, hn'⟩⟩
    obtain ⟨v, c, hv, hc, rfl⟩ := (hl m).mp hm
    obtain ⟨w, d, hw, hd, rfl⟩ := (hl n).mp hn
    exact ⟨by omega, ⟨v, c, hv, hc, by omega⟩, ⟨w, d, hw, hd, by omega⟩⟩
  · rintro ⟨h1, ⟨v, c, hv, hc, hk'⟩, ⟨w, d, hw, hd, hl'⟩⟩
    exact ⟨by omega, ⟨c, (hl _).mpr ⟨v, c, hv, hc, rfl⟩, by omega⟩,
      ⟨d, (hl _).mpr ⟨w, d, hw, hd, rfl⟩, by omega⟩⟩

theorem fast_dir {x y : List Rat} (t : Bool) (hx : AxisDir x) (hy : AxisDir y) (b : Box) :
    ∃ is js, quadsInBboxFast ⟨x, y, t⟩ b 2 = .ok (is, js) ∧ is.length = js.length ∧
      (is.zip js).Nodup ∧
      ∀ i j, (i, j) ∈ is.zip js ↔
        found x b.xmin b.xmax (col t i j) ∧ found y b.ymin b.ymax (row t i j) := by
  obtain ⟨lx, ex, mx⟩ := limitCells_dir hx b.xmin b.xmax
  obtain ⟨ly, ey, my⟩ := limitCells_dir hy b.ymin b.ymax
  unfold quadsInBboxFast
  simp only [ex, ey, bind, Except.bind, pure, Except.pure]
  refine ⟨_, _, rfl, flatMap_lengths _ _, ?_⟩
  rw [zip_product]
  have hsx : ∀ k, k ∈ axisCells (Axes.nx ⟨x, y, t⟩) 2 lx ↔ found x b.xmin b.xmax k :=
    mem_axisCells_dir mx
  have hsy : ∀ k, k ∈ axisCells (Axes.ny ⟨x, y, t⟩) 2 ly ↔ found y b.ymin b.ymax k :=
    mem_axisCells_dir my
  split
  · cases t
    · simp only [Bool.false_eq_true, if_false, col, row]
      refine ⟨(axisCells_nodup _ _ _).product (axisCells_nodup _ _ _), ?_⟩
      intro i j
      rw [List.mem_product, and_comm, hsx, hsy]
    · simp only [if_true, col, row]
      refine ⟨(axisCells_nodup _ _ _).product (axisCells_nodup _ _ _), ?_⟩
      intro i j
      rw [List.mem_product, hsx, hsy]
  · rename_i hn
    refine ⟨List.nodup_nil, ?_⟩
    intro i j
    simp only [List.mem_product, List.not_mem_nil, false_and, false_iff, not_and]
    rintro ⟨-, ⟨v, a, hv, ha, -⟩, -⟩ ⟨-, ⟨w, c, hw, hc, -⟩, -⟩
    apply hn
    exact ⟨List.length_pos_of_mem ((mx _).mpr ⟨v, a, hv, ha, rfl⟩),
      List.length_pos_of_mem ((my _).mpr ⟨w, c, hw, hc, rfl⟩)⟩

theorem arranged_axes {t : Bool} {x y : List Rat} (hx : 2 ≤ x.length) (hy : 2 ≤ y.length)
    (ht : Told t x) : (arranged t x y).axes = ⟨x, y, t⟩ := by
  cases t with
  | false =>
    exact meshgrid_axes (by rintro rfl; exact absurd hy (by simp))
      (by rintro rfl; exact absurd hx (by simp))
  | true =>
    have hs := ht rfl
    obtain ⟨b, ys, rfl⟩ : ∃ b ys, y = b :: ys := by
      cases y with
      | nil => simp at hy
      | cons b ys => exact ⟨b, ys, rfl⟩
    simp only [arranged, if_true, Mesh.axes, mkAxes, meshgrid, column0]
    have hc : ((x.map (List.replicate (b :: ys).length)).map fun r => r.headD 0) = x := by
      rw [List.map_map]
      conv_rhs => rw [← List.map_id x]
      apply List.map_congr_left
      intro a _
      simp [List.replicate_succ]
    rw [hc, if_neg]
    · have : x.length ≠ 0 := by omega
      obtain ⟨n, hn⟩ := Nat.exists_eq_succ_of_ne_zero this
      rw [hn, List.replicate_succ, List.headD_cons]
    · intro hall
      have hm : ∀ k, k < x.length → x.getD k 0 ∈ x := by
        intro k hk
        rw [List.getD_eq_getElem?_getD, List.getElem?_eq_getElem hk]
        exact List.getElem_mem _
      have h1 := abs_le.mp (hall _ (hm 0 (by omega)))
      have h2 := abs_le.mp (hall _ (hm (x.length - 1) (by omega)))
      have h3 : |x.getD (x.length - 1) 0 - x.getD 0 0| ≤ 2 / 100000000 := by
        rw [abs_le]; constructor <;> linarith [h1.1, h1.2, h2.1, h2.2]
      linarith

theorem arranged_quad {t : Bool} {x y : List Rat} {i j : Nat}
    (hx : col t i j + 1 < x.length) (hy : row t i j + 1 < y.length) :
    at2 (arranged t x y).quads i j = .ok (arrangedRect t x y i j) := by
  cases t with
  | false =>
    simp only [col, row, Bool.false_eq_true, if_false] at hx hy
    have hs := meshgrid_shape x y
    rw [show y.length = (y.length - 1) + 1 by omega,
      show x.length = (x.length - 1) + 1 by omega] at hs
    have := quads_entry hs (i := i) (j := j) (by omega) (by omega)
    simp only [arranged, Mesh.quads, Bool.false_eq_true, if_false] at this ⊢
    rw [this]
    unfold quadAt arrangedRect
    rw [meshgrid_entry (by omega) (by omega), meshgrid_entry (by omega) (by omega),
      meshgrid_entry (by omega) (by omega), meshgrid_entry (by omega) (by omega)]
    simp
  | true =>
    simp only [col, row, if_true] at hx hy
    have hent : ∀ i j, i < x.length → j < y.length →
        entry (dstack (meshgrid y x).2 (meshgrid y x).1) i j = (x.getD i 0, y.getD j 0) := by
      intro i j hi hj
      unfold entry dstack meshgrid
      simp [hi, hj, List.getD_eq_getElem?_getD, List.zip]
    have hs : HasShape (dstack (meshgrid y x).2 (meshgrid y x).1) ((x.length - 1) + 1)
        ((y.length - 1) + 1) := by
      rw [Nat.sub_add_cancel (by omega), Nat.sub_add_cancel (by omega)]
      refine ⟨by simp [dstack, meshgrid], ?_⟩
      intro r hr
      obtain ⟨i, hi⟩ := List.mem_iff_getElem?.mp hr
      obtain ⟨u, v, hu, hv, rfl⟩ := List.getElem?_zipWith_eq_some.mp hi
      have hv' : v = y := List.eq_of_mem_replicate (List.mem_of_getElem? hv)
      obtain ⟨b, -, rfl⟩ := List.mem_map.mp (List.mem_of_getElem? hu)
      simp [hv']
    have := quads_entry hs (i := i) (j := j) (by omega) (by omega)
    simp only [arranged, Mesh.quads, if_true] at this ⊢
    rw [this]
    unfold quadAt arrangedRect
    rw [hent _ _ (by omega) (by omega), hent _ _ (by omega) (by omega),
      hent _ _ (by omega) (by omega), hent _ _ (by omega) (by omega)]
    simp

theorem arranged_lookup {x y : List Rat} (t : Bool) (hx : AxisDir x) (hy : AxisDir y)
    (ht : Told t x) (b : Box) :
    ∃ xi yi quads, quadsInBboxFast (arranged t x y).axes b 2 = .ok (xi, yi) ∧
      fancy2 (arranged t x y).quads xi yi = .ok quads ∧ Together t x y ⟨quads, xi, yi⟩ ∧
      ∀ i j, (i, j) ∈ xi.zip yi ↔
        found x b.xmin b.xmax (col t i j) ∧ found y b.ymin b.ymax (row t i j) := by
  obtain ⟨xi, yi, h1, h2, h3, h4⟩ := fast_dir t hx hy b
  refine ⟨xi, yi, _, by rw [arranged_axes hx.2 hy.2 ht]; exact h1,
    fancy2_ok (g := fun i j => arrangedRect t x y i j) ?_, ⟨h2, h3, rfl⟩, h4⟩
  rintro ⟨i, j⟩ hm
  obtain ⟨ha, hb⟩ := (h4 i j).mp hm
  exact arranged_quad ha.1 hb.1

/-- C24 for all four arrangements, exactly what is returned: the limits of the box that are outside
of the grid are ignored, and the cells within two of the range of the cells of the remaining limits
are returned. -/
theorem C24_arranged (t : Bool) (x y : List Rat) (b : Box) (hx : AxisDir x) (hy : AxisDir y)
    (ht : Told t x) :
    ∃ c, (arranged t x y).quadsInBbox b = .ok c ∧ Together t x y c ∧
      ∀ i j, (i, j) ∈ c.xi.zip c.yi ↔
        found x b.xmin b.xmax (col t i j) ∧ found y b.ymin b.ymax (row t i j) := by
  obtain ⟨xi, yi, quads, h1, h2, h3, h4⟩ := arranged_lookup t hx hy ht b
  refine ⟨⟨quads, xi, yi⟩, ?_, h3, h4⟩
  unfold Mesh.quadsInBbox
  rw [show (arranged t x y).regular = true by unfold arranged; cases t <;> rfl, if_pos rfl, h1]
  simp only [bind, Except.bind, pure, Except.pure, h2]

/-- Cell `k` of an axis has a point in common with the interval from `lo` to `hi`. -/
def touches (edge : List Rat) (k : Nat) (lo hi : Rat) : Prop :=
  k + 1 < edge.length ∧ ∃ v, min (edge.getD k 0) (edge.getD (k + 1) 0) ≤ v ∧
    v ≤ max (edge.getD k 0) (edge.getD (k + 1) 0) ∧ lo ≤ v ∧ v ≤ hi

theorem inside_bounds {edge : List Rat} (h : Increasing edge) {v : Rat} (hv : inside edge v) :
    edge.getD 0 0 < v ∧ v ≤ edge.getD (edge.length - 1) 0 := by
  obtain ⟨lo, hlo, hi, hhi, h1, h2⟩ := hv
  obtain ⟨i, hi', rfl⟩ := List.getElem_of_mem hlo
  obtain ⟨j, hj', rfl⟩ := List.getElem_of_mem hhi
  have g : ∀ k (hk : k < edge.length), edge.getD k 0 = edge[k] := by
    intro k hk
    rw [List.getD_eq_getElem?_getD, List.getElem?_eq_getElem hk]; rfl
  refine ⟨lt_of_le_of_lt ?_ h1, le_trans h2 ?_⟩
  · rw [← g]; exact getD_le_of_le h (Nat.zero_le _) hi'
  · rw [← g]; exact getD_le_of_le h (by omega) (by omega)

theorem found_of_touches {edge : List Rat} (h : AxisDir edge) {lo hi : Rat} (h01 : lo ≤ hi)
    (hlo : inside edge lo) (hhi : inside edge hi) {k : Nat} (hk : touches edge k lo hi) :
    found edge lo hi k := by
  obtain ⟨h | h, hl⟩ := h
  · obtain ⟨hk1, v, hv1, hv2, hv3, hv4⟩ := hk
    have hm := getD_le_of_le h (show k ≤ k + 1 by omega) hk1
    rw [min_eq_left hm] at hv1
    rw [max_eq_right hm] at hv2
    obtain ⟨-, ⟨u, a, hu, ha, ha'⟩, ⟨w, c, hw, hc, hc'⟩⟩ := inCell_of_meets ⟨h, hl⟩
      (inside_bounds h hlo).1 h01 (inside_bounds h hhi).2 (k := k) ⟨v, ⟨hk1, hv1, hv2⟩, hv3, hv4⟩
    exact ⟨hk1, ⟨u, a, hu, (holds_up h).mpr ha, ha'⟩, ⟨w, c, hw, (holds_up h).mpr hc, hc'⟩⟩
  · obtain ⟨hk1, v, hv1, hv2, hv3, hv4⟩ := hk
    have hl' : 2 ≤ edge.reverse.length := by rwa [List.length_reverse]
    have rev : ∀ v, inside edge v → inside edge.reverse v := by
      rintro v ⟨lo, hlo, hi, hhi, hh⟩
      exact ⟨lo, List.mem_reverse.mpr hlo, hi, List.mem_reverse.mpr hhi, hh⟩
    have hm := getD_le_of_le h (show edge.length - 2 - k ≤ edge.length - 2 - k + 1 by omega)
      (by rw [List.length_reverse]; omega)
    have e1 : edge.reverse.getD (edge.length - 2 - k) 0 = edge.getD (k + 1) 0 := by
      rw [getD_reverse (by omega)]; congr 1; omega
    have e2 : edge.reverse.getD (edge.length - 2 - k + 1) 0 = edge.getD k 0 := by
      rw [getD_reverse (by omega)]; congr 1; omega
    rw [e1, e2] at hm
    rw [min_eq_right hm] at hv1
    rw [max_eq_left hm] at hv2
    obtain ⟨-, ⟨u, a, hu, ha, ha'⟩, ⟨w, c, hw, hc, hc'⟩⟩ := inCell_of_meets ⟨h, hl'⟩
      (inside_bounds h (rev _ hlo)).1 h01 (inside_bounds h (rev _ hhi)).2
      (k := edge.length - 2 - k)
      ⟨v, ⟨by rw [List.length_reverse]; omega, by rw [e1]; exact hv1, by rw [e2]; exact hv2⟩,
        hv3, hv4⟩
    have ha1 := ha.1
    have hc1 := hc.1
    rw [List.length_reverse] at ha1 hc1
    refine ⟨hk1, ⟨w, edge.length - 2 - c, hw, (holds_down h (by omega)).mpr ?_, by omega⟩,
      ⟨u, edge.length - 2 - a, hu, (holds_down h (by omega)).mpr ?_, by omega⟩⟩
    · rwa [show edge.length - 2 - (edge.length - 2 - c) = c by omega]
    · rwa [show edge.length - 2 - (edge.length - 2 - a) = a by omega]

/-- C24 for boxes inside the grid, for all four arrangements: every cell that meets the box is
returned.  Missing: boxes with a limit on or outside of the edge of the grid. -/
theorem C24_arranged_inside_partial (t : Bool) (x y : List Rat) (b : Box) (hx : AxisDir x)
    (hy : AxisDir y) (ht : Told t x) (hbx : b.xmin ≤ b.xmax) (hby : b.ymin ≤ b.ymax)
    (hx0 : inside x b.xmin) (hx1 : inside x b.xmax)
    (hy0 : inside y b.ymin) (hy1 : inside y b.ymax) :
    ∃ c, (arranged t x y).quadsInBbox b = .ok c ∧ Together t x y c ∧
      ∀ i j, touches x (col t i j) b.xmin b.xmax → touches y (row t i j) b.ymin b.ymax →
        (i, j) ∈ c.xi.zip c.yi := by
  obtain ⟨c, h1, h2, h3⟩ := C24_arranged t x y b hx hy ht
  refine ⟨c, h1, h2, ?_⟩
  intro i j h4 h5
  rw [h3]
  exact ⟨found_of_touches hx hbx hx0 hx1 h4, found_of_touches hy hby hy0 hy1 h5⟩

-- a box inside a grid with x along the first dimension and running down
example : ((arranged true [8, 7, 6, 5, 4, 3, 2, 1, 0] [0, 1, 2]).quadsInBbox
      ⟨1/2, 3/2, 1/2, 1/2⟩).toOption.map (fun c => c.xi.zip c.yi) =
      some [(4, 0), (4, 1), (5, 0), (5, 1), (6, 0), (6, 1), (7, 0), (7, 1)] := by decide +kernel

theorem holds_unique {edge : List Rat} (h : AxisDir edge) {v : Rat} {a c : Nat}
    (ha : holds edge a v) (hc : holds edge c v) : a = c := by
  obtain ⟨h | h, hl⟩ := h
  · exact inCell_unique h ((holds_up h).mp ha) ((holds_up h).mp hc)
  · have h1 := ha.1
    have h2 := hc.1
    have := inCell_unique h ((holds_down h h1).mp ha) ((holds_down h h2).mp hc)
    omega

theorem exists_holds {edge : List Rat} (h : AxisDir edge) {v : Rat} (hv : inside edge v) :
    ∃ a, holds edge a v := by
  have up : ∀ e : List Rat, Increasing e → 2 ≤ e.length → inside e v → ∃ a, inCell e a v := by
    rintro e he hl ⟨lo, hlo, hi, hhi, h1, h2⟩
    obtain ⟨i, hi', rfl⟩ := List.getElem_of_mem hlo
    obtain ⟨j, hj', rfl⟩ := List.getElem_of_mem hhi
    have g : ∀ k (hk : k < e.length), e.getD k 0 = e[k] := by
      intro k hk
      rw [List.getD_eq_getElem?_getD, List.getElem?_eq_getElem hk]; rfl
    refine exists_inCell he hl (lt_of_le_of_lt ?_ h1) (le_trans h2 ?_)
    · rw [← g]; exact getD_le_of_le he (Nat.zero_le _) hi'
    · rw [← g]; exact getD_le_of_le he (by omega) (by omega)
  obtain ⟨h | h, hl⟩ := h
  · obtain ⟨a, ha⟩ := up edge h hl hv
    exact ⟨a, (holds_up h).mpr ha⟩
  · obtain ⟨a, ha⟩ := up edge.reverse h (by rwa [List.length_reverse]) (by
      obtain ⟨lo, hlo, hi, hhi, hh⟩ := hv
      exact ⟨lo, List.mem_reverse.mpr hlo, hi, List.mem_reverse.mpr hhi, hh⟩)
    have ha1 := ha.1
    rw [List.length_reverse] at ha1
    refine ⟨edge.length - 2 - a, (holds_down h (by omega)).mpr ?_⟩
    rwa [show edge.length - 2 - (edge.length - 2 - a) = a by omega]

/-- C25 for all four arrangements: for a point inside the grid, `quads_nearest` returns exactly the
existing cells within two rows and two columns of the cell that contains the point, each once, each
with its corners. -/
theorem C25_arranged (query : List Pt → Pt → Nat → List Nat) (t : Bool) (x y : List Rat) (p : Pt)
    (hx : AxisDir x) (hy : AxisDir y) (ht : Told t x) (hpx : inside x p.1) (hpy : inside y p.2) :
    ∃ c k r, (arranged t x y).quadsNearest query p = .ok c ∧ Together t x y c ∧
      holds x k p.1 ∧ holds y r p.2 ∧
      ∀ i j, (i, j) ∈ c.xi.zip c.yi ↔
        col t i j + 1 < x.length ∧ row t i j + 1 < y.length ∧
        col t i j ≤ k + 2 ∧ k ≤ col t i j + 2 ∧ row t i j ≤ r + 2 ∧ r ≤ row t i j + 2 := by
  obtain ⟨k, hk⟩ := exists_holds hx hpx
  obtain ⟨r, hr⟩ := exists_holds hy hpy
  obtain ⟨xi, yi, quads, h1, h2, h3, h4⟩ := arranged_lookup t hx hy ht ⟨p.1, p.1, p.2, p.2⟩
  refine ⟨⟨quads, xi, yi⟩, k, r, ?_, h3, hk, hr, ?_⟩
  · unfold Mesh.quadsNearest
    rw [show (arranged t x y).regular = true by unfold arranged; cases t <;> rfl, if_pos rfl, h1]
    simp only [bind, Except.bind, pure, Except.pure, h2]
  · intro i j
    rw [h4]
    unfold found
    simp only [or_self]
    constructor
    · rintro ⟨⟨a1, ⟨v, a, rfl, ha, ha'⟩, ⟨v', b, rfl, hb, hb'⟩⟩,
        ⟨a2, ⟨w, c, rfl, hc, hc'⟩, ⟨w', d, rfl, hd, hd'⟩⟩⟩
      have e1 := holds_unique hx ha hk
      have e2 := holds_unique hx hb hk
      have e3 := holds_unique hy hc hr
      have e4 := holds_unique hy hd hr
      omega
    · rintro ⟨b1, b2, b3, b4, b5, b6⟩
      exact ⟨⟨b1, ⟨_, k, rfl, hk, b4⟩, ⟨_, k, rfl, hk, b3⟩⟩,
        ⟨b2, ⟨_, r, rfl, hr, b6⟩, ⟨_, r, rfl, hr, b5⟩⟩⟩

-- x along the first dimension, y running down
example : AxisDir [0, 1, 2, 3, 4, 5, 6] ∧ AxisDir [4, 3, 2, 1, 0] ∧ Told true [0, 1, 2, 3, 4, 5, 6] ∧
    inside [0, 1, 2, 3, 4, 5, 6] (9/2) ∧ inside [4, 3, 2, 1, 0] 4 ∧
    ((arranged true [0, 1, 2, 3, 4, 5, 6] [4, 3, 2, 1, 0]).quadsNearest (fun _ _ _ => [])
      (9/2, 4)).toOption.map (fun c => c.xi.zip c.yi) =
      some [(2, 0), (2, 1), (2, 2), (3, 0), (3, 1), (3, 2), (4, 0), (4, 1), (4, 2),
        (5, 0), (5, 1), (5, 2)] := by
  refine ⟨⟨Or.inl (by unfold Increasing; decide +kernel), by decide⟩,
    ⟨Or.inr (by unfold Increasing; decide +kernel), by decide⟩, fun _ => by norm_num [abs_of_pos],
    ⟨0, by decide +kernel, 6, by decide +kernel, by norm_num, by norm_num⟩,
    ⟨0, by decide +kernel, 4, by decide +kernel, by norm_num, by norm_num⟩, by decide +kernel⟩

/-- C25, the condition on the span is needed: with x along the first dimension and x edges that
span less than 2e-8, the arrangement is mistaken, and a point in the middle of the grid gets no
cells. -/
theorem C25_narrow_missed : ∃ (x y : List Rat) (p : Pt), AxisOk x ∧ AxisOk y ∧
    inside x p.1 ∧ inside y p.2 ∧
    (arranged true x y).quadsNearest (fun _ _ _ => []) p = .ok ⟨[], [], []⟩ := by
  refine ⟨[0, 1/1000000000, 2/1000000000], [0, 1, 2], (1/2000000000, 3/2),
    ⟨by unfold Increasing; decide +kernel, by decide⟩,
    ⟨by unfold Increasing; decide +kernel, by decide⟩,
    ⟨0, by decide +kernel, 1/1000000000, by decide +kernel, by norm_num, by norm_num⟩,
    ⟨0, by decide +kernel, 2, by decide +kernel, by norm_num, by norm_num⟩, ?_⟩
  have h : ((arranged true [0, 1/1000000000, 2/1000000000] [0, 1, 2]).quadsNearest
      (fun _ _ _ => []) (1/2000000000, 3/2)).toOption = some ⟨[], [], []⟩ := by decide +kernel
  revert h
  cases (arranged true [0, 1/1000000000, 2/1000000000] [0, 1, 2]).quadsNearest
    (fun _ _ _ => []) (1/2000000000, 3/2) with
  | error e => intro h; cases h
  | ok c => intro h; exact congrArg _ (Option.some.inj h)

end Verif.Props
