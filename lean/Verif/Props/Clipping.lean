import Verif.Proofs.Pixel
import Mathlib.Tactic.FieldSimp

/-!
# C22 - C27, C29, C63: polygons, meshes, cell lookup, splitting
-/

namespace Verif.Props

open Verif.Py Verif.Model Verif.Spec Verif.Proofs

/-! ## C22 -/

/-- C22: `poly_area` is half the sum of the cross products over all edges. -/
theorem C22_value (p : Poly) (h : p ≠ []) : areaOf p = .ok (signedArea p) := areaOf_eq h

/-- C22: a polygon without vertices is refused. -/
theorem C22_empty : areaOf [] = .error .indexError := rfl

/-- C22: affine maps multiply the area by their determinant. -/
theorem C22_affine (p : Poly) (area a b c d s t : Rat) (h : areaOf p = .ok area) :
    areaOf (p.map fun v => (a * v.1 + b * v.2 + s, c * v.1 + d * v.2 + t)) =
      .ok ((a * d - b * c) * area) := by
  have hne : p ≠ [] := by rintro rfl; cases h
  rw [areaOf_eq hne] at h
  cases h
  rw [areaOf_eq (by simpa using hne), signedArea_affine]

/-- C22: moving a polygon does not change its area. -/
theorem C22_translation (p : Poly) (s t : Rat) :
    areaOf (p.map fun v => (v.1 + s, v.2 + t)) = areaOf p := by
  cases h : areaOf p with
  | error e =>
    have : p = [] := by
      by_contra hne; rw [areaOf_eq hne] at h; cases h
    subst this; exact h
  | ok a =>
    have := C22_affine p a 1 0 0 1 s t h
    simpa using this

/-- C22: reversing the vertex order changes the sign. -/
theorem C22_reversal (p : Poly) (area : Rat) (h : areaOf p = .ok area) :
    areaOf p.reverse = .ok (- area) := by
  have hne : p ≠ [] := by rintro rfl; cases h
  rw [areaOf_eq hne] at h
  cases h
  rw [areaOf_eq (by simpa using hne), signedArea_reverse]

/-- C22: the starting vertex does not matter. -/
theorem C22_start (p : Poly) (k : Nat) : areaOf (p.rotate k) = areaOf p := by
  by_cases hne : p = []
  · subst hne; simp
  · rw [areaOf_eq hne, areaOf_eq (by simpa using hne), signedArea_rotate]

/-- C22: a dilation by `k` multiplies the area by `k^2`. -/
theorem C22_dilation (p : Poly) (area k : Rat) (h : areaOf p = .ok area) :
    areaOf (p.map fun v => (k * v.1, k * v.2)) = .ok (k ^ 2 * area) := by
  have := C22_affine p area k 0 0 k 0 0 h
  simp only [zero_mul, add_zero, zero_add, mul_zero, sub_zero] at this
  rw [this, pow_two]

/-- C22: the area of an axis-aligned rectangle, listed counterclockwise. -/
theorem C22_rectangle (x y w h : Rat) :
    areaOf [(x, y), (x + w, y), (x + w, y + h), (x, y + h)] = .ok (w * h) := by
  rw [areaOf_eq (by simp), signedArea_quad]
  congr 1
  simp only [cross]; ring

/-- C22: cutting a polygon along a chord splits its area. -/
theorem C22_chord (a b : Pt) (l r : List Pt) (s t : Rat) (hs : areaOf (a :: l ++ [b]) = .ok s)
    (ht : areaOf (a :: b :: r) = .ok t) : areaOf (a :: l ++ b :: r) = .ok (s + t) := by
  rw [areaOf_eq (by simp)] at hs ht
  cases hs; cases ht
  rw [areaOf_eq (by simp), signedArea_chord]

/-- C22: on a stack of polygons the vectorised version agrees with `poly_area` on each polygon,
errors included. -/
theorem C22_vectorized (ps : List Poly) :
    vectorizedPolyArea (ps.map (List.map Prod.fst)) (ps.map (List.map Prod.snd)) =
      ps.mapM areaOf := vectorized_eq ps

-- a triangle, a unit square, and a stack of both kinds of quads
example : areaOf [(0, 0), (4, 0), (0, 3)] = .ok 6 := by
  rw [areaOf_eq (by simp)]; decide +kernel
example : (vectorizedPolyArea [[0, 2, 2, 0], [0, 0, 3, 3]] [[0, 0, 5, 5], [0, 1, 1, 0]]).toOption =
    some [10, -3] := by decide +kernel

/-! ## C23 -/

/-- C23: an (m+1) x (n+1) mesh of vertices has m rows of n quads, and quad (i, j) has the four
vertices around it. -/
theorem C23_quads (v : List (List Pt)) (m n : Nat) (h : HasShape v (m + 1) (n + 1)) :
    HasShape (polysFromQuadmesh v) m n ∧
    ∀ i j, i < m → j < n → at2 (polysFromQuadmesh v) i j =
      .ok [entry v i j, entry v i (j + 1), entry v (i + 1) (j + 1), entry v (i + 1) j] :=
  ⟨quads_shape h, fun _ _ hi hj => quads_entry h hi hj⟩

theorem chunksOf_lengths {rows : List (List Poly)} (f : Poly → Rat) :
    Mesh.quadAreas.chunksOf (rows.map List.length) (rows.flatten.map f) = rows.map (List.map f) := by
  induction rows with
  | nil => rfl
  | cons r rows ih =>
    simp only [List.map_cons, List.flatten_cons, List.map_append, Mesh.quadAreas.chunksOf]
    rw [List.take_left' (by simp), List.drop_left' (by simp), ih]

theorem quad_ne_nil {v : List (List Pt)} {m n : Nat} (h : HasShape v (m + 1) (n + 1)) {q : Poly}
    (hq : q ∈ (polysFromQuadmesh v).flatten) : q ≠ [] := by
  rw [quads_eq h] at hq
  obtain ⟨r, hr, hq⟩ := List.mem_flatten.mp hq
  obtain ⟨i, _, rfl⟩ := List.mem_map.mp hr
  obtain ⟨j, _, rfl⟩ := List.mem_map.mp hq
  simp [quadAt]

theorem quadAreas_ok (m : Mesh) (a b : Nat)
    (h : HasShape (dstack m.xedge m.yedge) (a + 1) (b + 1)) :
    m.quadAreas = .ok (m.quads.map (List.map signedArea)) := by
  unfold Mesh.quadAreas
  simp only
  have hm : m.quads.flatten.mapM areaOf = .ok (m.quads.flatten.map signedArea) :=
    mapM_ok_map fun q hq => areaOf_eq (quad_ne_nil h hq)
  rw [vectorized_eq, hm]
  simp only [bind, Except.bind, pure, Except.pure]
  rw [chunksOf_lengths]

/-- C23: the areas that a mesh stores for its cells are the signed areas of the quads, and add up
to the signed area of the outline of the mesh. -/
theorem C23_tiling (m : Mesh) (a b : Nat) (h : HasShape (dstack m.xedge m.yedge) (a + 1) (b + 1))
    (h0 : 0 < a ∨ 0 < b) :
    ∃ areas, m.quadAreas = .ok areas ∧ HasShape areas a b ∧
      (∀ i j, i < a → j < b → at2 areas i j = .ok (signedArea
        [entry (dstack m.xedge m.yedge) i j, entry (dstack m.xedge m.yedge) i (j + 1),
         entry (dstack m.xedge m.yedge) (i + 1) (j + 1), entry (dstack m.xedge m.yedge) (i + 1) j])) ∧
      (areas.map List.sum).sum = signedArea (outline (dstack m.xedge m.yedge) a b) := by
  refine ⟨_, quadAreas_ok m a b h, ?_, ?_, ?_⟩
  · have hs := quads_shape h
    refine ⟨by rw [List.length_map]; exact hs.1, ?_⟩
    intro r hr
    obtain ⟨r', hr', rfl⟩ := List.mem_map.mp hr
    rw [List.length_map]; exact hs.2 r' hr'
  · intro i j hi hj
    have := quads_entry h hi hj
    unfold at2 at this ⊢
    rw [List.getElem?_map]
    revert this
    cases hq : (polysFromQuadmesh (dstack m.xedge m.yedge))[i]? with
    | none => intro h'; cases h'
    | some r =>
      have hq' : m.quads[i]? = some r := hq
      rw [hq']
      simp only [Option.map_some, List.getElem?_map]
      cases hr : r[j]? with
      | none => intro h'; cases h'
      | some q =>
        intro h'
        simp only [Option.map_some]
        cases h'
        rfl
  · rw [← quads_area_sum h h0, List.map_map]
    rfl

/-- A 2 x 3 mesh that is not regular. -/
def skewMesh : Mesh where
  xedge := [[0, 2, 4, 7], [1, 3, 5, 8], [0, 2, 5, 7]]
  yedge := [[0, 0, 1, 1], [2, 3, 2, 3], [4, 5, 6, 5]]
  regular := false
  nNeighbors := 4

theorem skewMesh_shape : HasShape (dstack skewMesh.xedge skewMesh.yedge) 3 4 := by
  constructor
  · decide
  · decide +kernel

example : signedArea (outline (dstack skewMesh.xedge skewMesh.yedge) 2 3) = 65 / 2 := by
  decide +kernel

/-! ## C24 - C26: cell lookup -/

/-- Edges of an axis with at least one cell. -/
def AxisOk (edge : List Rat) : Prop := Increasing edge ∧ 2 ≤ edge.length

/-- The regular mesh that the gridding code makes from the two edge arrays,
make_grids.py:880-881. -/
def gridMesh (x y : List Rat) : Mesh :=
  { xedge := (meshgrid x y).1, yedge := (meshgrid x y).2, regular := true, nNeighbors := 160 }

/-- Cell `k` of an axis has a point in common with the interval from `lo` to `hi`. -/
def meets (edge : List Rat) (k : Nat) (lo hi : Rat) : Prop := ∃ v, cellHas edge k v ∧ lo ≤ v ∧ v ≤ hi

/-- The rectangle of the cell in row `r` and column `k`. -/
def cellRect (x y : List Rat) (r k : Nat) : Poly :=
  [(x.getD k 0, y.getD r 0), (x.getD (k + 1) 0, y.getD r 0), (x.getD (k + 1) 0, y.getD (r + 1) 0),
   (x.getD k 0, y.getD (r + 1) 0)]

/-- Candidates whose three arrays belong together: distinct cells of the mesh, each with its own
rectangle. -/
def WellFormed (x y : List Rat) (c : Candidates) : Prop :=
  c.xi.length = c.yi.length ∧ (c.xi.zip c.yi).Nodup ∧
  (∀ r k, (r, k) ∈ c.xi.zip c.yi → r + 1 < y.length ∧ k + 1 < x.length) ∧
  c.quads = (c.xi.zip c.yi).map fun rk => cellRect x y rk.1 rk.2

theorem gridMesh_lookup {x y : List Rat} (hx : AxisOk x) (hy : AxisOk y) (b : Box) :
    ∃ xi yi, quadsInBboxFast (gridMesh x y).axes b 2 = .ok (xi, yi) ∧
      (∃ quads, fancy2 (gridMesh x y).quads xi yi = .ok quads ∧ WellFormed x y ⟨quads, xi, yi⟩) ∧
      ∀ r k, (r, k) ∈ xi.zip yi ↔
        k ∈ axisResult x b.xmin b.xmax 2 ∧ r ∈ axisResult y b.ymin b.ymax 2 := by
  have hax : (gridMesh x y).axes = ⟨x, y, false⟩ :=
    meshgrid_axes (by rintro rfl; exact absurd hy.2 (by simp))
      (by rintro rfl; exact absurd hx.2 (by simp))
  obtain ⟨xi, yi, h1, h2, h3, h4⟩ := fast_ok (ax := ⟨x, y, false⟩) hx.1 hy.1 b 2
  simp only [Bool.false_eq_true, if_false] at h4
  have hr : ∀ r k, (r, k) ∈ xi.zip yi → r + 1 < y.length ∧ k + 1 < x.length := by
    intro r k hm
    obtain ⟨ha, hb⟩ := (h4 r k).mp hm
    exact ⟨((mem_axisResult hy.1 _ _ _ _).mp hb).1, ((mem_axisResult hx.1 _ _ _ _).mp ha).1⟩
  refine ⟨xi, yi, by rw [hax]; exact h1, ⟨_, fancy2_ok (g := fun r k => cellRect x y r k) ?_,
    h2, h3, hr, rfl⟩, h4⟩
  rintro ⟨r, k⟩ hm
  obtain ⟨hr1, hk1⟩ := hr r k hm
  have hs := meshgrid_shape x y
  rw [show y.length = (y.length - 1) + 1 by have := hy.2; omega,
    show x.length = (x.length - 1) + 1 by have := hx.2; omega] at hs
  have := quads_entry hs (i := r) (j := k) (by omega) (by omega)
  simp only [gridMesh, Mesh.quads] at this ⊢
  rw [this]
  unfold quadAt cellRect
  rw [meshgrid_entry (by omega) (by omega), meshgrid_entry (by omega) (by omega),
    meshgrid_entry (by omega) (by omega), meshgrid_entry (by omega) (by omega)]

/-- The property C24: every cell that meets the box is returned. -/
def C24_full : Prop := ∀ (x y : List Rat) (b : Box), AxisOk x → AxisOk y →
  b.xmin ≤ b.xmax → b.ymin ≤ b.ymax →
  ∃ c, (gridMesh x y).quadsInBbox b = .ok c ∧ WellFormed x y c ∧
    ∀ r k, meets x k b.xmin b.xmax → meets y r b.ymin b.ymax → (r, k) ∈ c.xi.zip c.yi

/-- C24 fails: a box that contains the whole grid gets no cells at all. -/
theorem C24_full_false : ¬ C24_full := by
  intro h
  obtain ⟨c, hc, -, hm⟩ := h [0, 1, 2] [0, 1, 2] ⟨-1, 3, -1, 3⟩
    ⟨by unfold Increasing; decide +kernel, by decide⟩
    ⟨by unfold Increasing; decide +kernel, by decide⟩ (by decide +kernel) (by decide +kernel)
  have hcc : ((gridMesh [0, 1, 2] [0, 1, 2]).quadsInBbox ⟨-1, 3, -1, 3⟩).toOption =
      some ⟨[], [], []⟩ := by decide +kernel
  rw [hc] at hcc
  have hc0 : c = ⟨[], [], []⟩ := Option.some.inj hcc
  have hmem := hm 0 0 ⟨0, by unfold cellHas; decide +kernel, by decide +kernel, by decide +kernel⟩
    ⟨0, by unfold cellHas; decide +kernel, by decide +kernel, by decide +kernel⟩
  rw [hc0] at hmem
  simp at hmem

/-- C24, exactly what is returned: the limits of the box that are outside of the grid are
ignored, and the cells within two of the range of the cells of the remaining limits are returned. -/
theorem C24_exact (x y : List Rat) (b : Box) (hx : AxisOk x) (hy : AxisOk y) :
    ∃ c, (gridMesh x y).quadsInBbox b = .ok c ∧ WellFormed x y c ∧
      ∀ r k, (r, k) ∈ c.xi.zip c.yi ↔
        (k + 1 < x.length ∧
          (∃ v a, (v = b.xmin ∨ v = b.xmax) ∧ inCell x a v ∧ a ≤ k + 2) ∧
          (∃ v a, (v = b.xmin ∨ v = b.xmax) ∧ inCell x a v ∧ k ≤ a + 2)) ∧
        (r + 1 < y.length ∧
          (∃ v a, (v = b.ymin ∨ v = b.ymax) ∧ inCell y a v ∧ a ≤ r + 2) ∧
          (∃ v a, (v = b.ymin ∨ v = b.ymax) ∧ inCell y a v ∧ r ≤ a + 2)) := by
  obtain ⟨xi, yi, h1, ⟨quads, h2, h3⟩, h4⟩ := gridMesh_lookup hx hy b
  refine ⟨⟨quads, xi, yi⟩, ?_, h3, ?_⟩
  · unfold Mesh.quadsInBbox
    rw [show (gridMesh x y).regular = true from rfl, if_pos rfl, h1]
    simp only [bind, Except.bind, pure, Except.pure, h2]
  · intro r k
    rw [h4, mem_axisResult hx.1, mem_axisResult hy.1]

theorem inCell_of_meets {edge : List Rat} (h : AxisOk edge) {lo hi : Rat} (h0 : edge.getD 0 0 < lo)
    (h01 : lo ≤ hi) (h1 : hi ≤ edge.getD (edge.length - 1) 0) {k : Nat} (hk : meets edge k lo hi) :
    k + 1 < edge.length ∧
      (∃ v a, (v = lo ∨ v = hi) ∧ inCell edge a v ∧ a ≤ k + 2) ∧
      (∃ v a, (v = lo ∨ v = hi) ∧ inCell edge a v ∧ k ≤ a + 2) := by
  obtain ⟨v, ⟨hk1, hk2, hk3⟩, hv1, hv2⟩ := hk
  obtain ⟨a, ha⟩ := exists_inCell h.1 h.2 h0 (le_trans h01 h1)
  obtain ⟨c, hc⟩ := exists_inCell h.1 h.2 (lt_of_lt_of_le h0 h01) h1
  refine ⟨hk1, ⟨lo, a, Or.inl rfl, ha, ?_⟩, ⟨hi, c, Or.inr rfl, hc, ?_⟩⟩
  · by_contra hn
    have := getD_le_of_le h.1 (show k + 1 ≤ a by omega) (by have := ha.1; omega)
    have := ha.2.1
    linarith
  · by_contra hn
    have := getD_lt_of_lt h.1 (show c + 1 < k by omega) (by omega)
    have := hc.2.2
    linarith

/-- C24 for boxes inside the grid: every cell that meets the box is returned.  Missing: boxes with
a limit on or outside of the edge of the grid. -/
theorem C24_inside_partial (x y : List Rat) (b : Box) (hx : AxisOk x) (hy : AxisOk y)
    (hbx : b.xmin ≤ b.xmax) (hby : b.ymin ≤ b.ymax)
    (hx0 : x.getD 0 0 < b.xmin) (hx1 : b.xmax ≤ x.getD (x.length - 1) 0)
    (hy0 : y.getD 0 0 < b.ymin) (hy1 : b.ymax ≤ y.getD (y.length - 1) 0) :
    ∃ c, (gridMesh x y).quadsInBbox b = .ok c ∧ WellFormed x y c ∧
      ∀ r k, meets x k b.xmin b.xmax → meets y r b.ymin b.ymax → (r, k) ∈ c.xi.zip c.yi := by
  obtain ⟨c, h1, h2, h3⟩ := C24_exact x y b hx hy
  refine ⟨c, h1, h2, ?_⟩
  intro r k hk hr
  rw [h3]
  exact ⟨inCell_of_meets hx hx0 hbx hx1 hk, inCell_of_meets hy hy0 hby hy1 hr⟩

/-- C24: a box of which neither x limit (or neither y limit) is inside the grid gets nothing, even
if it covers the grid. -/
theorem C24_outside_empty (x y : List Rat) (b : Box) (hx : AxisOk x) (hy : AxisOk y)
    (hout : (b.xmin ≤ x.getD 0 0 ∧ x.getD (x.length - 1) 0 < b.xmax) ∨
      (b.ymin ≤ y.getD 0 0 ∧ y.getD (y.length - 1) 0 < b.ymax)) :
    (gridMesh x y).quadsInBbox b = .ok ⟨[], [], []⟩ := by
  have hno : ∀ edge : List Rat, AxisOk edge → ∀ lo hi : Rat, lo ≤ edge.getD 0 0 →
      edge.getD (edge.length - 1) 0 < hi → ∀ v a, (v = lo ∨ v = hi) → ¬ inCell edge a v := by
    rintro edge he lo hi h0 h1 v a (rfl | rfl) ⟨ha, hb, hc⟩
    · have := getD_le_of_le he.1 (Nat.zero_le a) (by omega)
      linarith
    · have := getD_le_of_le he.1 (show a + 1 ≤ edge.length - 1 by omega) (by omega)
      linarith
  obtain ⟨c, h1, ⟨w1, -, -, w4⟩, h3⟩ := C24_exact x y b hx hy
  have hz : c.xi.zip c.yi = [] := by
    rw [List.eq_nil_iff_forall_not_mem]
    rintro ⟨r, k⟩ hm
    obtain ⟨⟨-, ⟨v, a, hv, ha, -⟩, -⟩, ⟨-, ⟨v', a', hv', ha', -⟩, -⟩⟩ := (h3 r k).mp hm
    rcases hout with ⟨ho1, ho2⟩ | ⟨ho1, ho2⟩
    · exact hno x hx _ _ ho1 ho2 v a hv ha
    · exact hno y hy _ _ ho1 ho2 v' a' hv' ha'
  rw [h1]
  rw [hz] at w4
  obtain ⟨q, xi, yi⟩ := c
  simp only at w1 w4 hz
  rw [List.zip_eq_nil_iff] at hz
  have : xi = [] ∧ yi = [] := by
    rcases hz with rfl | rfl
    · exact ⟨rfl, List.length_eq_zero_iff.mp w1.symm⟩
    · exact ⟨List.length_eq_zero_iff.mp w1, rfl⟩
  rw [this.1, this.2, w4]
  rfl

-- a box inside a 4 x 3 grid, and one that sticks out on one side
example : AxisOk [0, 1, 2, 3, 4] ∧ AxisOk [0, 1, 2, 3] ∧
    ((gridMesh [0, 1, 2, 3, 4] [0, 1, 2, 3]).quadsInBbox ⟨1/2, 3/2, 1/2, 1/2⟩).toOption.map
      (fun c => c.xi.zip c.yi) =
      some [(0, 0), (0, 1), (0, 2), (0, 3), (1, 0), (1, 1), (1, 2), (1, 3),
        (2, 0), (2, 1), (2, 2), (2, 3)] := by
  refine ⟨⟨by unfold Increasing; decide +kernel, by decide⟩,
    ⟨by unfold Increasing; decide +kernel, by decide⟩, by decide +kernel⟩

/-- C25: for a point inside the grid, `quads_nearest` returns exactly the existing cells within
two rows and two columns of the cell that contains the point, each once, each with its
rectangle. -/
theorem C25_neighbourhood (query : List Pt → Pt → Nat → List Nat) (x y : List Rat) (p : Pt)
    (hx : AxisOk x) (hy : AxisOk y)
    (hx0 : x.getD 0 0 < p.1) (hx1 : p.1 ≤ x.getD (x.length - 1) 0)
    (hy0 : y.getD 0 0 < p.2) (hy1 : p.2 ≤ y.getD (y.length - 1) 0) :
    ∃ c col row, (gridMesh x y).quadsNearest query p = .ok c ∧ WellFormed x y c ∧
      cellHas x col p.1 ∧ cellHas y row p.2 ∧
      ∀ r k, (r, k) ∈ c.xi.zip c.yi ↔
        r + 1 < y.length ∧ k + 1 < x.length ∧
        r ≤ row + 2 ∧ row ≤ r + 2 ∧ k ≤ col + 2 ∧ col ≤ k + 2 := by
  obtain ⟨col, hcol⟩ := exists_inCell hx.1 hx.2 hx0 hx1
  obtain ⟨row, hrow⟩ := exists_inCell hy.1 hy.2 hy0 hy1
  obtain ⟨xi, yi, h1, ⟨quads, h2, h3⟩, h4⟩ := gridMesh_lookup hx hy ⟨p.1, p.1, p.2, p.2⟩
  refine ⟨⟨quads, xi, yi⟩, col, row, ?_, h3, ⟨hcol.1, le_of_lt hcol.2.1, hcol.2.2⟩,
    ⟨hrow.1, le_of_lt hrow.2.1, hrow.2.2⟩, ?_⟩
  · unfold Mesh.quadsNearest
    rw [show (gridMesh x y).regular = true from rfl, if_pos rfl, h1]
    simp only [bind, Except.bind, pure, Except.pure, h2]
  · intro r k
    rw [h4, mem_axisResult hx.1, mem_axisResult hy.1]
    simp only [or_self]
    constructor
    · rintro ⟨⟨a1, ⟨v, a, rfl, ha, ha'⟩, ⟨v', b, rfl, hb, hb'⟩⟩,
        ⟨a2, ⟨w, c, rfl, hc, hc'⟩, ⟨w', d, rfl, hd, hd'⟩⟩⟩
      have e1 := inCell_unique hx.1 ha hcol
      have e2 := inCell_unique hx.1 hb hcol
      have e3 := inCell_unique hy.1 hc hrow
      have e4 := inCell_unique hy.1 hd hrow
      omega
    · rintro ⟨b1, b2, b3, b4, b5, b6⟩
      exact ⟨⟨b2, ⟨_, col, rfl, hcol, b6⟩, ⟨_, col, rfl, hcol, b5⟩⟩,
        ⟨b1, ⟨_, row, rfl, hrow, b4⟩, ⟨_, row, rfl, hrow, b3⟩⟩⟩

/-- Edges with a constant spacing `d`. -/
def Uniform (edge : List Rat) (d : Rat) : Prop :=
  ∀ k, k < edge.length → edge.getD k 0 = edge.getD 0 0 + k * d

/-- Edges that are at least `d` apart.  Those that a program computes in floating point are not `Uniform`. -/
def Spaced (edge : List Rat) (d : Rat) : Prop :=
  0 < d ∧ ∀ k, k + 1 < edge.length → d ≤ edge.getD (k + 1) 0 - edge.getD k 0

theorem uniform_near {edge : List Rat} {d : Rat} (h : AxisOk edge) (hu : Uniform edge d)
    {v w : Rat} {a : Nat} (ha : cellHas edge a v)
    (hw0 : edge.getD 0 0 ≤ w) (hw1 : w ≤ edge.getD (edge.length - 1) 0)
    (hd : |w - v| ≤ 2 * d) : ∃ k, cellHas edge k w ∧ k ≤ a + 2 ∧ a ≤ k + 2 := by
  have hd0 : 0 < d := by
    have h1 := getD_lt_of_lt h.1 (show 0 < 1 by omega) (by have := h.2; omega)
    have h2 := hu 1 (by have := h.2; omega)
    push_cast at h2
    linarith
  obtain ⟨ha1, ha2, ha3⟩ := ha
  have e1 := hu a (by omega)
  have e2 := hu (a + 1) ha1
  rw [abs_le] at hd
  push_cast at e2
  -- the first candidate cell whose upper edge is not below w
  have hex : ∃ k, k + 1 < edge.length ∧ w ≤ edge.getD (k + 1) 0 :=
    ⟨edge.length - 2, by have := h.2; omega, by
      rw [show edge.length - 2 + 1 = edge.length - 1 by have := h.2; omega]; exact hw1⟩
  classical
  have hmin : ∀ m, m < Nat.find hex → ¬ (m + 1 < edge.length ∧ w ≤ edge.getD (m + 1) 0) :=
    fun m hm => Nat.find_min hex hm
  obtain ⟨hk1, hk2⟩ := Nat.find_spec hex
  generalize Nat.find hex = k at hmin hk1 hk2
  have hlow : edge.getD k 0 ≤ w := by
    cases k with
    | zero => exact hw0
    | succ k =>
      have := hmin k (by omega)
      by_contra hn
      push Not at hn
      exact this ⟨by omega, le_of_lt hn⟩
  have ek := hu k (by omega)
  have ek1 := hu (k + 1) hk1
  push_cast at ek1
  by_cases hka : k ≤ a + 2
  · by_cases hak : a ≤ k + 2
    · exact ⟨k, ⟨hk1, hlow, hk2⟩, hka, hak⟩
    · -- then w is the lower edge of cell a - 2
      have hak' : (k : Rat) + 3 ≤ a := by exact_mod_cast (show k + 3 ≤ a by omega)
      have hm : ((k : Rat) + 3) * d ≤ a * d := mul_le_mul_of_nonneg_right hak' (le_of_lt hd0)
      have : (k : Rat) + 1 = a - 2 := by
        by_contra hne
        have hlt : k + 4 ≤ a := by
          rcases Nat.lt_or_ge a (k + 4) with h' | h'
          · exfalso
            have : a = k + 3 := by omega
            subst this; push_cast at hne; apply hne; ring
          · exact h'
        have hlt' : (k : Rat) + 4 ≤ a := by exact_mod_cast hlt
        have hm' : ((k : Rat) + 4) * d ≤ a * d := mul_le_mul_of_nonneg_right hlt' (le_of_lt hd0)
        linarith
      have hka3 : a = k + 3 := by
        have : (a : Rat) = k + 3 := by linarith
        exact_mod_cast this
      refine ⟨k + 1, ⟨by omega, ?_, ?_⟩, by omega, by omega⟩
      · subst hka3; push_cast at e1; linarith
      · have := getD_le_of_le h.1 (show k + 1 ≤ k + 1 + 1 by omega) (by omega)
        linarith
  · exfalso
    have hlt : (a : Rat) + 3 ≤ k := by exact_mod_cast (show a + 3 ≤ k by omega)
    have hm : ((a : Rat) + 3) * d ≤ k * d := mul_le_mul_of_nonneg_right hlt (le_of_lt hd0)
    cases k with
    | zero => omega
    | succ k =>
      have hn := hmin k (by omega)
      push Not at hn
      have := hn (by omega)
      push_cast at ek hm
      linarith

/-- C25: on an evenly spaced grid every point of the grid within two cell widths of the given
point lies in a returned cell. -/
theorem C25_coverage (query : List Pt → Pt → Nat → List Nat) (x y : List Rat) (dx dy : Rat)
    (p q : Pt) (hx : AxisOk x) (hy : AxisOk y) (ux : Uniform x dx) (uy : Uniform y dy)
    (hx0 : x.getD 0 0 < p.1) (hx1 : p.1 ≤ x.getD (x.length - 1) 0)
    (hy0 : y.getD 0 0 < p.2) (hy1 : p.2 ≤ y.getD (y.length - 1) 0)
    (qx0 : x.getD 0 0 ≤ q.1) (qx1 : q.1 ≤ x.getD (x.length - 1) 0)
    (qy0 : y.getD 0 0 ≤ q.2) (qy1 : q.2 ≤ y.getD (y.length - 1) 0)
    (hdx : |q.1 - p.1| ≤ 2 * dx) (hdy : |q.2 - p.2| ≤ 2 * dy) :
    ∃ c, (gridMesh x y).quadsNearest query p = .ok c ∧
      ∃ r k, (r, k) ∈ c.xi.zip c.yi ∧ cellHas x k q.1 ∧ cellHas y r q.2 := by
  obtain ⟨c, col, row, h1, -, hc, hr, hm⟩ := C25_neighbourhood query x y p hx hy hx0 hx1 hy0 hy1
  obtain ⟨k, hk, hk1, hk2⟩ := uniform_near hx ux hc qx0 qx1 hdx
  obtain ⟨r, hr', hr1, hr2⟩ := uniform_near hy uy hr qy0 qy1 hdy
  refine ⟨c, h1, r, k, (hm r k).mpr ⟨hr'.1, hk.1, hr1, hr2, hk1, hk2⟩, hk, hr'⟩

/-- C25: a point on the lower edge or outside of the grid gets no cells, so a polygon whose mean
point is there is dropped even if it reaches into the grid. -/
theorem C25_outside_empty (query : List Pt → Pt → Nat → List Nat) (x y : List Rat) (p : Pt)
    (hx : AxisOk x) (hy : AxisOk y)
    (hout : p.1 ≤ x.getD 0 0 ∨ x.getD (x.length - 1) 0 < p.1 ∨
      p.2 ≤ y.getD 0 0 ∨ y.getD (y.length - 1) 0 < p.2) :
    (gridMesh x y).quadsNearest query p = .ok ⟨[], [], []⟩ := by
  have hno : ∀ edge : List Rat, AxisOk edge → ∀ v : Rat, v ≤ edge.getD 0 0 ∨
      edge.getD (edge.length - 1) 0 < v → ∀ a, ¬ inCell edge a v := by
    rintro edge he v h0 a ⟨ha, hb, hc⟩
    have g1 := getD_le_of_le he.1 (Nat.zero_le a) (by omega)
    have g2 := getD_le_of_le he.1 (show a + 1 ≤ edge.length - 1 by omega) (by omega)
    rcases h0 with h0 | h0 <;> linarith
  obtain ⟨xi, yi, h1, ⟨quads, h2, w1, -, -, w4⟩, h4⟩ := gridMesh_lookup hx hy ⟨p.1, p.1, p.2, p.2⟩
  have hz : xi.zip yi = [] := by
    rw [List.eq_nil_iff_forall_not_mem]
    rintro ⟨r, k⟩ hm
    obtain ⟨m1, m2⟩ := (h4 r k).mp hm
    rw [mem_axisResult hx.1] at m1
    rw [mem_axisResult hy.1] at m2
    obtain ⟨-, ⟨v, a, hv, ha, -⟩, -⟩ := m1
    obtain ⟨-, ⟨v', a', hv', ha', -⟩, -⟩ := m2
    simp only [or_self] at hv hv'
    subst hv hv'
    rcases hout with h | h | h | h
    · exact hno x hx _ (Or.inl h) a ha
    · exact hno x hx _ (Or.inr h) a ha
    · exact hno y hy _ (Or.inl h) a' ha'
    · exact hno y hy _ (Or.inr h) a' ha'
  unfold Mesh.quadsNearest
  rw [show (gridMesh x y).regular = true from rfl, if_pos rfl, h1]
  simp only [bind, Except.bind, pure, Except.pure, h2]
  simp only at w1 w4
  rw [hz] at w4
  rw [List.zip_eq_nil_iff] at hz
  have : xi = [] ∧ yi = [] := by
    rcases hz with rfl | rfl
    · exact ⟨rfl, List.length_eq_zero_iff.mp w1.symm⟩
    · exact ⟨List.length_eq_zero_iff.mp w1, rfl⟩
  rw [this.1, this.2, w4]
  rfl

-- a point near a corner of a 6 x 4 grid
example : ((gridMesh [0, 1, 2, 3, 4, 5, 6] [0, 1, 2, 3, 4]).quadsNearest (fun _ _ _ => [])
    (9/2, 1/2)).toOption.map (fun c => c.xi.zip c.yi) =
    some [(0, 2), (0, 3), (0, 4), (0, 5), (1, 2), (1, 3), (1, 4), (1, 5),
      (2, 2), (2, 3), (2, 4), (2, 5)] := by decide +kernel
example : Uniform [0, 1, 2, 3, 4, 5, 6] 1 := by unfold Uniform; decide +kernel

/-- A point of the plane is in the convex hull of a quad. -/
def inHull (q : Poly) (v : Pt) : Prop :=
  ∃ w : List Rat, w.length = q.length ∧ (∀ a ∈ w, 0 ≤ a) ∧ w.sum = 1 ∧
    (List.zipWith (fun a p => a * p.1) w q).sum = v.1 ∧
    (List.zipWith (fun a p => a * p.2) w q).sum = v.2

/-- A point in a box. -/
def inBox (b : Box) (v : Pt) : Prop :=
  b.xmin ≤ v.1 ∧ v.1 ≤ b.xmax ∧ b.ymin ≤ v.2 ∧ v.2 ≤ b.ymax

/-- The property C26: on a mesh that is not regular every quad that meets the box is returned. -/
def C26_full : Prop := ∀ (m : Mesh) (a n : Nat) (b : Box), m.regular = false →
  HasShape (dstack m.xedge m.yedge) (a + 1) (n + 1) →
  ∃ c, m.quadsInBbox b = .ok c ∧
    ∀ i j, i < a → j < n → (∃ v, inHull (quadAt (dstack m.xedge m.yedge) i j) v ∧ inBox b v) →
      (i, j) ∈ c.xi.zip c.yi

theorem C26_full_false : ¬ C26_full := by
  intro h
  obtain ⟨c, hc, hm⟩ := h ⟨[[0, 3], [0, 3]], [[0, 0], [3, 3]], false, 4⟩ 1 1 ⟨1, 2, 1, 2⟩ rfl
    ⟨by decide, by decide +kernel⟩
  have hcc : (Mesh.quadsInBbox ⟨[[0, 3], [0, 3]], [[0, 0], [3, 3]], false, 4⟩ ⟨1, 2, 1, 2⟩).toOption
      = some ⟨[], [], []⟩ := by decide +kernel
  rw [hc] at hcc
  have hc0 : c = ⟨[], [], []⟩ := Option.some.inj hcc
  have hmem := hm 0 0 (by decide) (by decide) ⟨(3/2, 3/2), ⟨[1/4, 1/4, 1/4, 1/4], by decide,
    by decide +kernel, by decide +kernel, by decide +kernel, by decide +kernel⟩,
    by unfold inBox; decide +kernel⟩
  rw [hc0] at hmem
  simp at hmem

theorem anyCorner_iff (k : Pt → Rat) (lo hi : Rat) (q : Poly) :
    anyCorner k lo hi q = true ↔ ∃ v ∈ q, lo ≤ k v ∧ k v ≤ hi := by
  unfold anyCorner
  have key : ∀ (q : Poly) (acc : Bool),
      q.foldl (fun acc v => acc || (decide (lo ≤ k v) && decide (k v ≤ hi))) acc = true ↔
      acc = true ∨ ∃ v ∈ q, lo ≤ k v ∧ k v ≤ hi := by
    intro q
    induction q with
    | nil => simp
    | cons a q ih =>
      intro acc
      rw [List.foldl_cons, ih]
      simp only [Bool.or_eq_true, Bool.and_eq_true, decide_eq_true_eq, List.mem_cons,
        exists_eq_or_imp, or_assoc]
  rw [key]
  simp

/-- C26, exactly what is returned: the quads with a corner between the x limits and a corner
(perhaps another one) between the y limits, each once, in row-major order of their indices. -/
theorem C26_exact (m : Mesh) (a n : Nat) (b : Box) (hreg : m.regular = false)
    (h : HasShape (dstack m.xedge m.yedge) (a + 1) (n + 1)) :
    ∃ c, m.quadsInBbox b = .ok c ∧ c.xi.length = c.yi.length ∧ (c.xi.zip c.yi).Nodup ∧
      c.quads = (c.xi.zip c.yi).map (fun ij => quadAt (dstack m.xedge m.yedge) ij.1 ij.2) ∧
      ∀ i j, (i, j) ∈ c.xi.zip c.yi ↔ i < a ∧ j < n ∧
        (∃ v ∈ quadAt (dstack m.xedge m.yedge) i j, b.xmin ≤ v.1 ∧ v.1 ≤ b.xmax) ∧
        (∃ v ∈ quadAt (dstack m.xedge m.yedge) i j, b.ymin ≤ v.2 ∧ v.2 ≤ b.ymax) := by
  have hmem : ∀ i j, (i, j) ∈ (where2 (m.quads.map (List.map fun q =>
      anyCorner Prod.fst b.xmin b.xmax q && anyCorner Prod.snd b.ymin b.ymax q))).1.zip
      (where2 (m.quads.map (List.map fun q =>
      anyCorner Prod.fst b.xmin b.xmax q && anyCorner Prod.snd b.ymin b.ymax q))).2 ↔
      i < a ∧ j < n ∧
        (∃ v ∈ quadAt (dstack m.xedge m.yedge) i j, b.xmin ≤ v.1 ∧ v.1 ≤ b.xmax) ∧
        (∃ v ∈ quadAt (dstack m.xedge m.yedge) i j, b.ymin ≤ v.2 ∧ v.2 ≤ b.ymax) := by
    intro i j
    rw [mem_where2]
    have hq := quads_eq h
    constructor
    · rintro ⟨r, hr, hj⟩
      unfold Mesh.quads at hr
      rw [hq, List.map_map, List.getElem?_map] at hr
      by_cases hi : i < a
      · rw [List.getElem?_range hi] at hr
        simp only [Option.map_some, Option.some.injEq, Function.comp_def] at hr
        subst hr
        rw [List.map_map, List.getElem?_map] at hj
        by_cases hjn : j < n
        · rw [List.getElem?_range hjn] at hj
          simp only [Option.map_some, Option.some.injEq, Function.comp_def, Bool.and_eq_true] at hj
          rw [anyCorner_iff, anyCorner_iff] at hj
          exact ⟨hi, hjn, hj⟩
        · rw [List.getElem?_eq_none (by simpa using hjn)] at hj
          cases hj
      · rw [List.getElem?_eq_none (by simpa using hi)] at hr
        cases hr
    · rintro ⟨hi, hj, hc⟩
      refine ⟨_, by
        unfold Mesh.quads
        rw [hq, List.map_map, List.getElem?_map, List.getElem?_range hi]; rfl, ?_⟩
      simp only [Function.comp_def]
      rw [List.map_map, List.getElem?_map, List.getElem?_range hj]
      simp only [Option.map_some, Option.some.injEq, Function.comp_def, Bool.and_eq_true]
      rw [anyCorner_iff, anyCorner_iff]
      exact hc
  unfold Mesh.quadsInBbox
  rw [hreg]
  simp only [Bool.false_eq_true, if_false]
  rw [fancy2_ok (g := fun i j => quadAt (dstack m.xedge m.yedge) i j)]
  · simp only [bind, Except.bind, pure, Except.pure]
    exact ⟨_, rfl, (where2_zip _).1, where2_nodup _, rfl, hmem⟩
  · rintro ⟨i, j⟩ hij
    obtain ⟨hi, hj, -⟩ := (hmem i j).mp hij
    exact quads_entry h hi hj

theorem sum_zip_le {k : Pt → Rat} {M : Rat} (w : List Rat) (q : Poly) (hl : w.length = q.length)
    (hw : ∀ a ∈ w, 0 ≤ a) (hq : ∀ v ∈ q, k v ≤ M) :
    (List.zipWith (fun a p => a * k p) w q).sum ≤ w.sum * M := by
  induction w generalizing q with
  | nil => simp
  | cons a w ih =>
    cases q with
    | nil => simp at hl
    | cons p q =>
      simp only [List.zipWith_cons_cons, List.sum_cons]
      have h1 := ih q (by simpa using hl) (fun b hb => hw b (List.mem_cons_of_mem _ hb))
        (fun v hv => hq v (List.mem_cons_of_mem _ hv))
      have h2 := mul_le_mul_of_nonneg_left (hq p List.mem_cons_self) (hw a List.mem_cons_self)
      linarith

theorem le_sum_zip {k : Pt → Rat} {M : Rat} (w : List Rat) (q : Poly) (hl : w.length = q.length)
    (hw : ∀ a ∈ w, 0 ≤ a) (hq : ∀ v ∈ q, M ≤ k v) :
    w.sum * M ≤ (List.zipWith (fun a p => a * k p) w q).sum := by
  induction w generalizing q with
  | nil => simp
  | cons a w ih =>
    cases q with
    | nil => simp at hl
    | cons p q =>
      simp only [List.zipWith_cons_cons, List.sum_cons]
      have h1 := ih q (by simpa using hl) (fun b hb => hw b (List.mem_cons_of_mem _ hb))
        (fun v hv => hq v (List.mem_cons_of_mem _ hv))
      have h2 := mul_le_mul_of_nonneg_left (hq p List.mem_cons_self) (hw a List.mem_cons_self)
      linarith

/-- If some weighted mean of the corner coordinates is in an interval at least as wide as the
spread of the corners, then some corner is in the interval. -/
theorem corner_in {k : Pt → Rat} {lo hi v : Rat} (w : List Rat) (q : Poly)
    (hl : w.length = q.length) (hw : ∀ a ∈ w, 0 ≤ a) (hs : w.sum = 1)
    (hv : (List.zipWith (fun a p => a * k p) w q).sum = v) (h1 : lo ≤ v) (h2 : v ≤ hi)
    (hsmall : ∀ p ∈ q, ∀ p' ∈ q, k p - k p' ≤ hi - lo) : ∃ p ∈ q, lo ≤ k p ∧ k p ≤ hi := by
  by_contra hn
  push Not at hn
  -- a corner at least v
  have hup : ∃ p ∈ q, v ≤ k p := by
    by_contra hc
    push Not at hc
    have hne : q ≠ [] := by
      rintro rfl
      have : w = [] := List.length_eq_zero_iff.mp (by simpa using hl)
      subst this; simp at hs
    -- the largest corner is still below v
    have hmx : ∃ M, M < v ∧ ∀ p ∈ q, k p ≤ M := by
      clear hl hv hsmall hn
      induction q with
      | nil => exact absurd rfl hne
      | cons a q ih =>
        by_cases hq : q = []
        · subst hq
          exact ⟨k a, hc a List.mem_cons_self, by simp⟩
        · obtain ⟨M, hM, hM'⟩ := ih (fun p hp => hc p (List.mem_cons_of_mem _ hp)) hq
          refine ⟨max M (k a), max_lt hM (hc a List.mem_cons_self), ?_⟩
          intro p hp
          rcases List.mem_cons.mp hp with rfl | hp
          · exact le_max_right _ _
          · exact le_trans (hM' p hp) (le_max_left _ _)
    obtain ⟨M, hM, hM'⟩ := hmx
    have := sum_zip_le w q hl hw hM'
    rw [hs, hv] at this
    linarith
  have hdown : ∃ p ∈ q, k p ≤ v := by
    by_contra hc
    push Not at hc
    have hne : q ≠ [] := by
      rintro rfl
      have : w = [] := List.length_eq_zero_iff.mp (by simpa using hl)
      subst this; simp at hs
    have hmx : ∃ M, v < M ∧ ∀ p ∈ q, M ≤ k p := by
      clear hl hv hsmall hn hup
      induction q with
      | nil => exact absurd rfl hne
      | cons a q ih =>
        by_cases hq : q = []
        · subst hq
          exact ⟨k a, hc a List.mem_cons_self, by simp⟩
        · obtain ⟨M, hM, hM'⟩ := ih (fun p hp => hc p (List.mem_cons_of_mem _ hp)) hq
          refine ⟨min M (k a), lt_min hM (hc a List.mem_cons_self), ?_⟩
          intro p hp
          rcases List.mem_cons.mp hp with rfl | hp
          · exact min_le_right _ _
          · exact le_trans (min_le_left _ _) (hM' p hp)
    obtain ⟨M, hM, hM'⟩ := hmx
    have := le_sum_zip w q hl hw hM'
    rw [hs, hv] at this
    linarith
  obtain ⟨p, hp, hpv⟩ := hup
  obtain ⟨p', hp', hpv'⟩ := hdown
  have g1 := hn p hp (le_trans h1 hpv)
  have g2 : k p' < lo := by
    by_contra hc
    push Not at hc
    have := hn p' hp' hc
    linarith
  have := hsmall p hp p' hp'
  linarith

/-- C26 for quads that are no wider and no taller than the box: each one that meets the box is
returned.  Missing: quads larger than the box. -/
theorem C26_small_quads_partial (m : Mesh) (a n : Nat) (b : Box) (hreg : m.regular = false)
    (h : HasShape (dstack m.xedge m.yedge) (a + 1) (n + 1)) :
    ∃ c, m.quadsInBbox b = .ok c ∧
      ∀ i j, i < a → j < n →
        (∀ p ∈ quadAt (dstack m.xedge m.yedge) i j, ∀ p' ∈ quadAt (dstack m.xedge m.yedge) i j,
          p.1 - p'.1 ≤ b.xmax - b.xmin ∧ p.2 - p'.2 ≤ b.ymax - b.ymin) →
        (∃ v, inHull (quadAt (dstack m.xedge m.yedge) i j) v ∧ inBox b v) →
        (i, j) ∈ c.xi.zip c.yi := by
  obtain ⟨c, h1, -, -, -, h5⟩ := C26_exact m a n b hreg h
  refine ⟨c, h1, ?_⟩
  rintro i j hi hj hsmall ⟨v, ⟨w, w1, w2, w3, w4, w5⟩, b1, b2, b3, b4⟩
  rw [h5]
  refine ⟨hi, hj, corner_in w _ w1 w2 w3 w4 b1 b2 fun p hp p' hp' => (hsmall p hp p' hp').1,
    corner_in w _ w1 w2 w3 w5 b3 b4 fun p hp p' hp' => (hsmall p hp p' hp').2⟩

example : (skewMesh.quadsInBbox ⟨0, 3, 0, 3⟩).toOption.map (fun c => c.xi.zip c.yi) =
    some [(0, 0), (0, 1), (1, 0), (1, 1)] := by decide +kernel

/-! ## C27 -/

/-- One piece of a polygon: its outline, its share of the polygon's area, and the row and column
(first and second index) of the cell it is in. -/
abbrev PieceRow := Poly × Rat × Nat × Nat

/-- The rows of the parallel arrays of a result. -/
def SubPolys.rows (s : SubPolys) : List PieceRow := s.polys.zip (s.fracs.zip (s.xi.zip s.yi))

/-- Parallel arrays of equal lengths. -/
def SubPolys.Aligned (s : SubPolys) : Prop :=
  s.polys.length = s.fracs.length ∧ s.fracs.length = s.xi.length ∧ s.xi.length = s.yi.length

/-- All pieces of polygon `p` in the given cells, cell by cell: each with its share of the area of
`p` and the index pair of its own cell. -/
def piecesIn (clip : Poly → Poly → List Poly) (p : Poly) (cells : List (Poly × Nat × Nat)) :
    List PieceRow :=
  cells.flatMap fun c => (clip p c.1).map fun s => (s, |signedArea s| / |signedArea p|, c.2)

theorem makeSubPolys_rows {clip : Poly → Poly → List Poly} {p : Poly} {c : Candidates}
    (hl : c.quads.length = c.xi.length) (hl' : c.xi.length = c.yi.length)
    (hclip : ∀ q ∈ c.quads, ∀ s ∈ clip p q, s ≠ []) :
    ∃ s, makeSubPolys clip p |signedArea p| c = .ok s ∧ SubPolys.Aligned s ∧
      SubPolys.rows s = piecesIn clip p (c.quads.zip (c.xi.zip c.yi)) := by
  unfold makeSubPolys clipPolysByOnePoly
  simp only
  have hfr : ((c.quads.map (clip p)).flatten.mapM fun s => do
      pure (abs ((← areaOf s) / abs (signedArea p))) : Except Err (List Rat)) =
      .ok ((c.quads.map (clip p)).flatten.map fun s => |signedArea s| / |signedArea p|) := by
    apply mapM_ok_map
    intro s hs
    obtain ⟨l, hl, hs⟩ := List.mem_flatten.mp hs
    obtain ⟨q, hq, rfl⟩ := List.mem_map.mp hl
    rw [areaOf_eq (hclip q hq s hs)]
    simp only [bind, Except.bind, pure, Except.pure, abs_div, abs_abs]
  rw [hfr]
  simp only [bind, Except.bind, pure, Except.pure]
  have hall : (c.quads.map (clip p)).length = c.xi.length := by rw [List.length_map, hl]
  refine ⟨_, rfl, ⟨(List.length_map _).symm, ?_, ?_⟩, ?_⟩
  · simp only
    rw [List.length_map, npRepeat_length _ _ hall]
  · simp only
    rw [npRepeat_length _ _ hall, npRepeat_length _ _ (hall.trans hl')]
  · unfold SubPolys.rows piecesIn
    simp only
    obtain ⟨quads, xi, yi⟩ := c
    simp only at hl hl' hall ⊢
    clear hfr hclip hall
    induction quads generalizing xi yi with
    | nil => simp
    | cons q quads ih =>
      cases xi with
      | nil => simp at hl
      | cons a xi =>
        cases yi with
        | nil => simp at hl'
        | cons b yi =>
          have := ih xi yi (by simpa using hl) (by simpa using hl')
          simp only [npRepeat, List.map_cons, List.flatten_cons, List.map_append,
            List.zipWith_cons_cons, List.zip_cons_cons, List.flatMap_cons] at this ⊢
          rw [List.zip_append (by simp), List.zip_append (by simp), List.zip_append (by simp), this]
          congr 1
          clear this ih hl hl'
          generalize clip p q = l
          induction l with
          | nil => rfl
          | cons s l ih => simpa [List.replicate_succ] using ih

theorem slice_ok {clip : Poly → Poly → List Poly} {query : List Pt → Pt → Nat → List Nat} {m : Mesh}
    {bbox : BBoxArg} {P : Poly → Candidates → Prop} (polys : List Poly)
    (hne : ∀ p ∈ polys, p ≠ []) (hclip : ∀ p q s, s ∈ clip p q → s ≠ [])
    (hc : ∀ p ∈ polys, ∃ c, candidatesFor query m bbox p = .ok c ∧ P p c ∧
      c.quads.length = c.xi.length ∧ c.xi.length = c.yi.length) :
    ∃ subs, slicePolys clip query m polys bbox = .ok (subs, polys.map fun p => |signedArea p|) ∧
      List.Forall₂ (fun p s => SubPolys.Aligned s ∧ ∃ c, P p c ∧
        SubPolys.rows s = piecesIn clip p (c.quads.zip (c.xi.zip c.yi))) polys subs := by
  unfold slicePolys
  have ha : (polys.mapM fun p => do pure |← areaOf p| : Except Err (List Rat)) =
      .ok (polys.map fun p => |signedArea p|) := by
    apply mapM_ok_map
    intro p hp
    rw [areaOf_eq (hne p hp)]
    rfl
  rw [ha]
  obtain ⟨cands, hcands, hF⟩ := mapM_ok_of_forall hc
  simp only [bind, Except.bind, hcands]
  have hsub : ∃ subs, ((polys.zip ((polys.map fun p => |signedArea p|).zip cands)).mapM fun a =>
      makeSubPolys clip a.1 a.2.1 a.2.2) = .ok subs ∧
      List.Forall₂ (fun p s => SubPolys.Aligned s ∧ ∃ c, P p c ∧
        SubPolys.rows s = piecesIn clip p (c.quads.zip (c.xi.zip c.yi))) polys subs := by
    clear hcands ha hc hne
    induction hF with
    | nil => exact ⟨[], rfl, List.Forall₂.nil⟩
    | @cons p c ps cs hpc hrest ih =>
      obtain ⟨subs, h1, h2⟩ := ih
      obtain ⟨hP, hl, hl'⟩ := hpc
      obtain ⟨s, hs, hal, hrows⟩ := makeSubPolys_rows (p := p) hl hl' fun q _ s hs => hclip p q s hs
      refine ⟨s :: subs, ?_, List.Forall₂.cons ⟨hal, c, hP, hrows⟩ h2⟩
      simp only [List.map_cons, List.zip_cons_cons, List.mapM_cons, hs, h1]
      rfl
  obtain ⟨subs, h1, h2⟩ := hsub
  rw [h1]
  exact ⟨subs, rfl, h2⟩

/-- The property C27, on regular grids: slicing succeeds, with one entry per polygon, in order,
and each entry lists all pieces of all candidate cells, each piece with its own fraction and the
index of its own cell. -/
def C27_full : Prop := ∀ (clip : Poly → Poly → List Poly) (query : List Pt → Pt → Nat → List Nat)
  (x y : List Rat) (polys : List Poly) (bbox : BBoxArg), AxisOk x → AxisOk y →
  (∀ p ∈ polys, p ≠ []) → (∀ p q s, s ∈ clip p q → s ≠ []) →
  ∃ subs, slicePolys clip query (gridMesh x y) polys bbox =
      .ok (subs, polys.map fun p => |signedArea p|) ∧
    List.Forall₂ (fun p s => SubPolys.Aligned s ∧ ∃ cells : List (Nat × Nat), cells.Nodup ∧
      (∀ rk ∈ cells, rk.1 + 1 < y.length ∧ rk.2 + 1 < x.length) ∧
      SubPolys.rows s =
        piecesIn clip p (cells.map fun rk => (cellRect x y rk.1 rk.2, rk))) polys subs

/-- C27: an explicit box, which is documented, never works. -/
theorem C27_explicit_box (clip : Poly → Poly → List Poly) (query : List Pt → Pt → Nat → List Nat)
    (m : Mesh) (b : Box) (p : Poly) (polys : List Poly) (hne : ∀ q ∈ p :: polys, q ≠ []) :
    slicePolys clip query m (p :: polys) (.box b) = .error .unboundLocalError := by
  unfold slicePolys
  have ha : ((p :: polys).mapM fun p => do pure |← areaOf p| : Except Err (List Rat)) =
      .ok ((p :: polys).map fun p => |signedArea p|) := by
    apply mapM_ok_map
    intro p hp
    rw [areaOf_eq (hne p hp)]
    rfl
  rw [ha]
  rfl

theorem C27_full_false : ¬ C27_full := by
  intro h
  obtain ⟨subs, h1, -⟩ := h (fun _ _ => []) (fun _ _ _ => []) [0, 1, 2] [0, 1, 2]
    [[(0, 0), (1, 0), (0, 1)]] (.box ⟨0, 1, 0, 1⟩)
    ⟨by unfold Increasing; decide +kernel, by decide⟩
    ⟨by unfold Increasing; decide +kernel, by decide⟩ (by simp) (by simp)
  rw [C27_explicit_box _ _ _ _ _ _ (by simp)] at h1
  cases h1

/-- C27: on a mesh of one cell the default lookup never works for a polygon whose mean point is in
the cell. -/
theorem C27_single_cell (clip : Poly → Poly → List Poly) (query : List Pt → Pt → Nat → List Nat)
    (x0 x1 y0 y1 : Rat) (hx : x0 < x1) (hy : y0 < y1) (p : Poly) (polys : List Poly)
    (hne : ∀ q ∈ p :: polys, q ≠ [])
    (hpx : x0 < (meanPoint p).1 ∧ (meanPoint p).1 ≤ x1)
    (hpy : y0 < (meanPoint p).2 ∧ (meanPoint p).2 ≤ y1) :
    slicePolys clip query (gridMesh [x0, x1] [y0, y1]) (p :: polys) .none =
      .error .valueError := by
  unfold slicePolys
  have ha : ((p :: polys).mapM fun p => do pure |← areaOf p| : Except Err (List Rat)) =
      .ok ((p :: polys).map fun p => |signedArea p|) := by
    apply mapM_ok_map
    intro p hp
    rw [areaOf_eq (hne p hp)]
    rfl
  rw [ha]
  obtain ⟨c, col, row, h1, ⟨w1, w2, w3, w4⟩, hcol, hrow, h4⟩ :=
    C25_neighbourhood query [x0, x1] [y0, y1] (meanPoint p) ⟨by simpa [Increasing] using hx, by simp⟩
      ⟨by simpa [Increasing] using hy, by simp⟩ hpx.1 hpx.2 hpy.1 hpy.2
  have hz : c.xi.zip c.yi = [(0, 0)] := by
    have hmem : ∀ r k, (r, k) ∈ c.xi.zip c.yi ↔ r = 0 ∧ k = 0 := by
      intro r k
      rw [h4]
      have := hcol.1
      have := hrow.1
      simp only [List.length_cons, List.length_nil] at *
      omega
    have hp : (c.xi.zip c.yi).Perm [(0, 0)] := by
      rw [List.perm_ext_iff_of_nodup w2 (by simp)]
      rintro ⟨r, k⟩
      rw [hmem]; simp
    exact List.perm_singleton.mp hp
  have hcand : candidatesFor query (gridMesh [x0, x1] [y0, y1]) .none p = .error .valueError := by
    unfold candidatesFor
    simp only [h1, bind, Except.bind]
    rw [if_pos (by rw [w4, hz]; rfl)]
  simp only [List.mapM_cons, hcand]
  rfl

theorem zip_map_self {α β : Type} (l : List α) (f : α → β) :
    (l.map f).zip l = l.map fun a => (f a, a) := by
  induction l with
  | nil => rfl
  | cons a l ih => simp [ih]

theorem grid_candidates (query : List Pt → Pt → Nat → List Nat) {x y : List Rat} {bbox : BBoxArg}
    (hx : AxisOk x) (hy : AxisOk y)
    (hb : (bbox = .none ∧ (2 < x.length ∨ 2 < y.length)) ∨ bbox = .true) (p : Poly) (hne : p ≠ []) :
    ∃ c, candidatesFor query (gridMesh x y) bbox p = .ok c ∧
      (WellFormed x y c ∧ candidatesFor query (gridMesh x y) bbox p = .ok c) ∧
      c.quads.length = c.xi.length ∧ c.xi.length = c.yi.length := by
  have hfin : ∀ c, candidatesFor query (gridMesh x y) bbox p = .ok c → WellFormed x y c →
      ∃ c, candidatesFor query (gridMesh x y) bbox p = .ok c ∧
      (WellFormed x y c ∧ candidatesFor query (gridMesh x y) bbox p = .ok c) ∧
      c.quads.length = c.xi.length ∧ c.xi.length = c.yi.length := by
    intro c h1 h2
    refine ⟨c, h1, ⟨h2, h1⟩, ?_, h2.1⟩
    rw [h2.2.2.2, List.length_map, List.length_zip, h2.1, Nat.min_self]
  rcases hb with ⟨rfl, hsz⟩ | rfl
  · by_cases hin : (x.getD 0 0 < (meanPoint p).1 ∧ (meanPoint p).1 ≤ x.getD (x.length - 1) 0) ∧
        (y.getD 0 0 < (meanPoint p).2 ∧ (meanPoint p).2 ≤ y.getD (y.length - 1) 0)
    · obtain ⟨c, col, row, h1, h2, hcol, hrow, h4⟩ :=
        C25_neighbourhood query x y (meanPoint p) hx hy hin.1.1 hin.1.2 hin.2.1 hin.2.2
      refine hfin c ?_ h2
      unfold candidatesFor
      simp only [h1, bind, Except.bind]
      refine if_neg ?_
      intro hone
      rw [h2.2.2.2, List.length_map] at hone
      obtain ⟨rk, hrk⟩ := List.length_eq_one_iff.mp hone
      have m1 : (row, col) ∈ c.xi.zip c.yi :=
        (h4 row col).mpr ⟨hrow.1, hcol.1, by omega, by omega, by omega, by omega⟩
      have hcol1 := hcol.1
      have hrow1 := hrow.1
      have m2 : ∃ r k, (r, k) ∈ c.xi.zip c.yi ∧ (r ≠ row ∨ k ≠ col) := by
        rcases hsz with h | h
        · by_cases h0 : col = 0
          · exact ⟨row, col + 1, (h4 _ _).mpr ⟨hrow1, by omega, by omega, by omega, by omega,
              by omega⟩, by omega⟩
          · exact ⟨row, col - 1, (h4 _ _).mpr ⟨hrow1, by omega, by omega, by omega, by omega,
              by omega⟩, by omega⟩
        · by_cases h0 : row = 0
          · exact ⟨row + 1, col, (h4 _ _).mpr ⟨by omega, hcol1, by omega, by omega, by omega,
              by omega⟩, by omega⟩
          · exact ⟨row - 1, col, (h4 _ _).mpr ⟨by omega, hcol1, by omega, by omega, by omega,
              by omega⟩, by omega⟩
      obtain ⟨r, k, hm, hne'⟩ := m2
      rw [hrk, List.mem_singleton] at m1 hm
      rw [← m1, Prod.mk.injEq] at hm
      rcases hne' with h | h
      · exact h hm.1
      · exact h hm.2
    · have h1 := C25_outside_empty query x y (meanPoint p) hx hy (by
        by_contra hn
        push Not at hn
        exact hin ⟨⟨hn.1, hn.2.1⟩, hn.2.2.1, hn.2.2.2⟩)
      refine hfin ⟨[], [], []⟩ ?_ ⟨rfl, by simp, by simp, rfl⟩
      unfold candidatesFor
      simp only [h1, bind, Except.bind]
      rfl
  · obtain ⟨b, hb⟩ : ∃ b, polyBox p = .ok b := by
      cases p with
      | nil => exact absurd rfl hne
      | cons v l => exact ⟨_, rfl⟩
    obtain ⟨c, h1, h2, -⟩ := C24_exact x y b hx hy
    refine hfin c ?_ h2
    unfold candidatesFor
    simp only [hb, bind, Except.bind]
    exact h1

/-- C27 on regular grids with more than one cell (any grid if the boxes are computed from the
polygons): one entry per polygon, in order; each entry lists all pieces of all candidate cells, each
piece with its own fraction and the index of its own cell.  The candidates are those of the lookup.
Missing: grids of one cell, and explicit boxes. -/
theorem C27_grid_partial (clip : Poly → Poly → List Poly) (query : List Pt → Pt → Nat → List Nat)
    (x y : List Rat) (polys : List Poly) (bbox : BBoxArg) (hx : AxisOk x) (hy : AxisOk y)
    (hne : ∀ p ∈ polys, p ≠ []) (hclip : ∀ p q s, s ∈ clip p q → s ≠ [])
    (hb : (bbox = .none ∧ (2 < x.length ∨ 2 < y.length)) ∨ bbox = .true) :
    ∃ subs, slicePolys clip query (gridMesh x y) polys bbox =
        .ok (subs, polys.map fun p => |signedArea p|) ∧
      List.Forall₂ (fun p s => SubPolys.Aligned s ∧ ∃ cells : List (Nat × Nat), cells.Nodup ∧
        (∀ rk ∈ cells, rk.1 + 1 < y.length ∧ rk.2 + 1 < x.length) ∧
        (∃ c, candidatesFor query (gridMesh x y) bbox p = .ok c ∧ c.xi.zip c.yi = cells) ∧
        SubPolys.rows s =
          piecesIn clip p (cells.map fun rk => (cellRect x y rk.1 rk.2, rk))) polys subs := by
  have hc := fun p hp => grid_candidates query hx hy hb p (hne p hp)
  obtain ⟨subs, h1, h2⟩ := slice_ok polys hne hclip hc
  refine ⟨subs, h1, h2.imp ?_⟩
  rintro p s ⟨hal, c, ⟨⟨w1, w2, w3, w4⟩, hcand⟩, hrows⟩
  refine ⟨hal, c.xi.zip c.yi, w2, fun rk hrk => w3 rk.1 rk.2 hrk, ⟨c, hcand, rfl⟩, ?_⟩
  rw [hrows, w4, zip_map_self]

/-- A clipper for axis-aligned rectangles listed from the lower left corner counterclockwise. -/
def rectClip (p q : Poly) : List Poly :=
  match p, q with
  | [(px, py), _, (pX, pY), _], [(qx, qy), _, (qX, qY), _] =>
    let x := max px qx
    let y := max py qy
    let X := min pX qX
    let Y := min pY qY
    if x < X ∧ y < Y then [[(x, y), (X, y), (X, Y), (x, Y)]] else []
  | _, _ => []

/-- Two rectangular event footprints on a grid of 3 x 2 cells: four and two pieces. -/
def twoRects : List Poly :=
  [[(1/2, 1/2), (3/2, 1/2), (3/2, 3/2), (1/2, 3/2)], [(2, 1/2), (3, 1/2), (3, 3/2), (2, 3/2)]]

example : ((slicePolys rectClip (fun _ _ _ => []) (gridMesh [0, 1, 2, 3] [0, 1, 2]) twoRects
    .none).toOption.map fun r => r.1.map fun s => s.fracs) =
    some [[1/4, 1/4, 1/4, 1/4], [1/2, 1/2]] := by decide +kernel
example : ((slicePolys rectClip (fun _ _ _ => []) (gridMesh [0, 1, 2, 3] [0, 1, 2]) twoRects
    .none).toOption.map fun r => r.1.map fun s => s.xi.zip s.yi) =
    some [[(0, 0), (0, 1), (1, 0), (1, 1)], [(0, 2), (1, 2)]] := by decide +kernel

theorem rectClip_ne_nil (p q s : Poly) (h : s ∈ rectClip p q) : s ≠ [] := by
  unfold rectClip at h
  split at h
  · simp only at h
    split at h
    · rw [List.mem_singleton] at h; rw [h]; simp
    · simp at h
  · simp at h

/-- The nearest neighbour search: `k` different positions in the list of points. -/
def QueryOk (query : List Pt → Pt → Nat → List Nat) : Prop :=
  ∀ pts p k, k ≤ pts.length → (query pts p k).length = k ∧ (query pts p k).Nodup ∧
    ∀ i ∈ query pts p k, i < pts.length

theorem take_map {α β : Type} (f : α → β) (l : List α) (idx : List Nat) :
    take (l.map f) idx = (take l idx).map f := by
  unfold take
  induction idx with
  | nil => rfl
  | cons i idx ih =>
    rw [List.filterMap_cons, List.filterMap_cons, List.getElem?_map, ih]
    cases l[i]? <;> simp

theorem take_nodup {α : Type} (l : List α) (idx : List Nat) (hl : l.Nodup) (hi : idx.Nodup) :
    (take l idx).Nodup := by
  unfold take
  refine List.Nodup.filterMap ?_ hi
  intro i j b hb hb'
  obtain ⟨hi, hb1⟩ := List.getElem?_eq_some_iff.mp (Option.mem_def.mp hb)
  obtain ⟨hj, hb2⟩ := List.getElem?_eq_some_iff.mp (Option.mem_def.mp hb')
  exact (hl.getElem_inj_iff).mp (hb1.trans hb2.symm)

theorem take_length {α : Type} (l : List α) (idx : List Nat) (h : ∀ i ∈ idx, i < l.length) :
    (take l idx).length = idx.length := by
  unfold take
  induction idx with
  | nil => rfl
  | cons i idx ih =>
    have hi := h i List.mem_cons_self
    rw [List.filterMap_cons, List.getElem?_eq_getElem hi]
    simp [ih fun j hj => h j (List.mem_cons_of_mem _ hj)]

theorem mem_of_mem_take {α : Type} {l : List α} {idx : List Nat} {a : α} (h : a ∈ take l idx) :
    a ∈ l := by
  obtain ⟨i, -, hi⟩ := List.mem_filterMap.mp h
  exact List.mem_of_getElem? hi

/-- C27 on meshes of arbitrary quads, with the nearest neighbour lookup (at least two neighbours, no
more than there are cells) or with boxes computed from the polygons.  Missing: explicit boxes, a
single neighbour. -/
theorem C27_irregular_partial (clip : Poly → Poly → List Poly)
    (query : List Pt → Pt → Nat → List Nat) (hq : QueryOk query) (m : Mesh) (a n : Nat)
    (hreg : m.regular = false) (hxs : HasShape m.xedge (a + 1) (n + 1))
    (hys : HasShape m.yedge (a + 1) (n + 1)) (polys : List Poly) (bbox : BBoxArg)
    (hne : ∀ p ∈ polys, p ≠ []) (hclip : ∀ p q s, s ∈ clip p q → s ≠ [])
    (hb : (bbox = .none ∧ m.nNeighbors ≠ 1 ∧ m.nNeighbors ≤ a * n) ∨ bbox = .true) :
    ∃ subs, slicePolys clip query m polys bbox = .ok (subs, polys.map fun p => |signedArea p|) ∧
      List.Forall₂ (fun p s => SubPolys.Aligned s ∧ ∃ cells : List (Nat × Nat), cells.Nodup ∧
        (∀ ij ∈ cells, ij.1 < a ∧ ij.2 < n) ∧ (bbox = .none → cells.length = m.nNeighbors) ∧
        (∃ c, candidatesFor query m bbox p = .ok c ∧ c.xi.zip c.yi = cells) ∧
        SubPolys.rows s = piecesIn clip p
          (cells.map fun ij => (quadAt (dstack m.xedge m.yedge) ij.1 ij.2, ij))) polys subs := by
  have h : HasShape (dstack m.xedge m.yedge) (a + 1) (n + 1) := by
    refine ⟨by simp [dstack, hxs.1, hys.1], ?_⟩
    intro r hr
    obtain ⟨i, hi⟩ := List.mem_iff_getElem?.mp hr
    obtain ⟨x, y, hx, hy, rfl⟩ := List.getElem?_zipWith_eq_some.mp hi
    rw [List.length_zip, hxs.2 x (List.mem_of_getElem? hx), hys.2 y (List.mem_of_getElem? hy),
      Nat.min_self]
  have hc : ∀ p ∈ polys, ∃ c, candidatesFor query m bbox p = .ok c ∧
      (candidatesFor query m bbox p = .ok c ∧ (c.xi.zip c.yi).Nodup ∧
        (∀ ij ∈ c.xi.zip c.yi, ij.1 < a ∧ ij.2 < n) ∧
        (bbox = .none → (c.xi.zip c.yi).length = m.nNeighbors) ∧
        c.quads = (c.xi.zip c.yi).map fun ij => quadAt (dstack m.xedge m.yedge) ij.1 ij.2) ∧
      c.quads.length = c.xi.length ∧ c.xi.length = c.yi.length := by
    intro p hp
    rcases hb with ⟨rfl, h1, hk⟩ | rfl
    · set L := List.range a ×ˢ List.range n with hL
      have hlen : L.length = a * n := by rw [hL, List.length_product]; simp
      have hlook := lookup_plain (centres_shape hxs) (centres_shape hys)
      set pts := L.map fun ij =>
        (get2 (centres m.xedge) ij.1 ij.2, get2 (centres m.yedge) ij.1 ij.2) with hpts
      have hpl : pts.length = a * n := by rw [hpts, List.length_map, hlen]
      obtain ⟨q1, q2, q3⟩ := hq pts (meanPoint p) m.nNeighbors (by rw [hpl]; exact hk)
      set idx := query pts (meanPoint p) m.nNeighbors with hidx
      set cells := take L idx with hcells
      have hcl : cells.length = m.nNeighbors := by
        rw [hcells, take_length _ _ (by rw [hlen, ← hpl]; exact q3), q1]
      have hcm : ∀ ij ∈ cells, ij.1 < a ∧ ij.2 < n := by
        intro ij hij
        have := mem_of_mem_take hij
        rwa [hL, List.mem_product, List.mem_range, List.mem_range] at this
      have hz : (cells.map Prod.fst).zip (cells.map Prod.snd) = cells := by
        rw [List.zip_map']; exact List.map_id _
      have hf : fancy2 m.quads (cells.map Prod.fst) (cells.map Prod.snd) =
          .ok (cells.map fun ij => quadAt (dstack m.xedge m.yedge) ij.1 ij.2) := by
        rw [fancy2_ok (g := fun i j => quadAt (dstack m.xedge m.yedge) i j), hz]
        rw [hz]
        exact fun ij hij => quads_entry h (hcm ij hij).1 (hcm ij hij).2
      have hnear : m.quadsNearest query (meanPoint p) = .ok
          ⟨cells.map fun ij => quadAt (dstack m.xedge m.yedge) ij.1 ij.2, cells.map Prod.fst,
            cells.map Prod.snd⟩ := by
        unfold Mesh.quadsNearest
        rw [hreg]
        simp only [Bool.false_eq_true, if_false, hlook, bind, Except.bind]
        rw [if_neg (by rw [hpl]; omega)]
        simp only [pure, Except.pure, take_map, ← hidx, ← hL, ← hcells, hf]
      have hcand : candidatesFor query m .none p = .ok
          ⟨cells.map fun ij => quadAt (dstack m.xedge m.yedge) ij.1 ij.2, cells.map Prod.fst,
            cells.map Prod.snd⟩ := by
        unfold candidatesFor
        simp only [hnear, bind, Except.bind]
        exact if_neg (by rw [List.length_map, hcl]; exact h1)
      refine ⟨_, hcand, ⟨hcand, ?_, ?_, ?_, ?_⟩, ?_, ?_⟩
      · simp only [hz]
        rw [hcells]
        exact take_nodup _ _ (List.Nodup.product (List.nodup_range) (List.nodup_range)) q2
      · simp only [hz]; exact hcm
      · intro _; simp only [hz]; exact hcl
      · simp only [hz]
      · simp
      · simp
    · obtain ⟨b, hb⟩ : ∃ b, polyBox p = .ok b := by
        cases p with
        | nil => exact absurd rfl (hne _ hp)
        | cons v l => exact ⟨_, rfl⟩
      obtain ⟨c, h1, h2, h3, h4, h5⟩ := C26_exact m a n b hreg h
      have hcand : candidatesFor query m .true p = .ok c := by
        unfold candidatesFor
        simp only [hb, bind, Except.bind]
        exact h1
      refine ⟨c, hcand, ⟨hcand, h3, ?_, by simp, h4⟩, ?_, h2⟩
      · intro ij hij
        have := (h5 ij.1 ij.2).mp hij
        exact ⟨this.1, this.2.1⟩
      · rw [h4, List.length_map, List.length_zip, h2, Nat.min_self]
  obtain ⟨subs, h1, h2⟩ := slice_ok polys hne hclip hc
  refine ⟨subs, h1, h2.imp ?_⟩
  rintro p s ⟨hal, c, ⟨hcand, hnd, hr, hl, hqs⟩, hrows⟩
  refine ⟨hal, c.xi.zip c.yi, hnd, hr, hl, ⟨c, hcand, rfl⟩, ?_⟩
  rw [hrows, hqs, zip_map_self]

/-- C27, nearest neighbours: the points that are searched are the mean points of the quads, row by
row, so that position `k` of the list belongs to quad `(k / n, k % n)`. -/
theorem C27_searched_points (m : Mesh) (a n : Nat) (hxs : HasShape m.xedge (a + 1) (n + 1))
    (hys : HasShape m.yedge (a + 1) (n + 1)) :
    ∃ l, createPixelLookup ⟨centres m.xedge, none⟩ ⟨centres m.yedge, none⟩ = .ok l ∧
      l.points = (List.range a ×ˢ List.range n).map
        (fun ij => meanPoint (quadAt (dstack m.xedge m.yedge) ij.1 ij.2)) ∧
      l.xIdx.zip l.yIdx = List.range a ×ˢ List.range n := by
  refine ⟨_, lookup_plain (centres_shape hxs) (centres_shape hys), ?_, ?_⟩
  · apply List.map_congr_left
    rintro ⟨i, j⟩ hij
    rw [List.mem_product, List.mem_range, List.mem_range] at hij
    simp only at hij ⊢
    rw [centres_get hxs hij.1 hij.2, centres_get hys hij.1 hij.2]
    unfold meanPoint quadAt
    rw [entry_dstack hxs hys (by omega) (by omega), entry_dstack hxs hys (by omega) (by omega),
      entry_dstack hxs hys (by omega) (by omega), entry_dstack hxs hys (by omega) (by omega)]
    simp only [List.map_cons, List.map_nil, List.sum_cons, List.sum_nil, List.length_cons,
      List.length_nil]
    ext <;> simp <;> ring
  · rw [List.zip_map']; exact List.map_id _

/-- A search that takes the first points of the list meets the assumption. -/
example : QueryOk fun _ _ k => List.range k := by
  intro pts p k hk
  refine ⟨by simp, List.nodup_range, ?_⟩
  intro i hi
  have := List.mem_range.mp hi
  omega

example : ((slicePolys rectClip (fun _ _ k => List.range k)
    ⟨(meshgrid [0, 1, 2, 3] [0, 1, 2]).1, (meshgrid [0, 1, 2, 3] [0, 1, 2]).2, false, 5⟩ twoRects
    .none).toOption.map fun r => r.1.map fun s => s.xi.zip s.yi) =
    some [[(0, 0), (0, 1), (1, 0), (1, 1)], [(0, 2)]] := by decide +kernel

/-! ## C29 -/

/-- C29: the fraction of a cell, times the area of the cell, is the fraction of the polygon times the
area of the polygon. -/
theorem C29_fractions (m : Mesh) (a b : Nat) (h : HasShape (dstack m.xedge m.yedge) (a + 1) (b + 1))
    (fracs : List Rat) (total : Rat) (xi yi : List Nat) (hl : fracs.length = xi.length)
    (hl' : xi.length = yi.length) (hin : ∀ ij ∈ xi.zip yi, ij.1 < a ∧ ij.2 < b)
    (hnz : ∀ ij ∈ xi.zip yi, signedArea (quadAt (dstack m.xedge m.yedge) ij.1 ij.2) ≠ 0) :
    ∃ areas qf, m.quadAreas = .ok areas ∧ quadFrac areas fracs total xi yi = .ok qf ∧
      qf.length = fracs.length ∧
      ∀ k < fracs.length,
        qf.getD k 0 * signedArea (quadAt (dstack m.xedge m.yedge) (xi.getD k 0) (yi.getD k 0)) =
          fracs.getD k 0 * total := by
  obtain ⟨areas, ha, -, hent, -⟩ : ∃ areas, m.quadAreas = .ok areas ∧ True ∧
      (∀ i j, i < a → j < b → at2 areas i j =
        .ok (signedArea (quadAt (dstack m.xedge m.yedge) i j))) ∧ True := by
    by_cases h0 : 0 < a ∨ 0 < b
    · obtain ⟨areas, h1, -, h3, -⟩ := C23_tiling m a b h h0
      exact ⟨areas, h1, trivial, h3, trivial⟩
    · exact ⟨_, quadAreas_ok m a b h, trivial, fun i j hi hj => by omega, trivial⟩
  have hf := fancy2_ok (g := fun i j => signedArea (quadAt (dstack m.xedge m.yedge) i j))
    fun ij hij => hent _ _ (hin ij hij).1 (hin ij hij).2
  refine ⟨areas, List.zipWith (· / ·) (fracs.map (· * total)) ((xi.zip yi).map fun ij =>
    signedArea (quadAt (dstack m.xedge m.yedge) ij.1 ij.2)), ha, ?_, by simp [hl, hl'], ?_⟩
  · unfold quadFrac
    simp only [hf, bind, Except.bind, pure, Except.pure]
  intro k hk
  have hk1 : k < xi.length := by omega
  have hk2 : k < yi.length := by omega
  have hz : (xi.zip yi)[k]? = some (xi.getD k 0, yi.getD k 0) := by
    rw [List.getElem?_zip_eq_some]
    simp [List.getD_eq_getElem?_getD, List.getElem?_eq_getElem hk1, List.getElem?_eq_getElem hk2]
  have hq := hnz _ (List.mem_of_getElem? hz)
  simp only at hq
  rw [List.getD_eq_getElem?_getD (l := List.zipWith _ _ _), List.getElem?_zipWith,
    List.getElem?_map, List.getElem?_map, hz, List.getElem?_eq_getElem hk]
  simp only [Option.map_some, Option.getD_some]
  rw [List.getD_eq_getElem?_getD (l := fracs), List.getElem?_eq_getElem hk, Option.getD_some]
  field_simp

/-- The signed area of a cell of a regular grid with x along the rows is positive. -/
theorem cellRect_area (x y : List Rat) (r k : Nat) :
    signedArea (cellRect x y r k) =
      (x.getD (k + 1) 0 - x.getD k 0) * (y.getD (r + 1) 0 - y.getD r 0) := by
  unfold cellRect
  rw [signedArea_quad]
  simp only [cross]; ring

theorem piecesIn_mem {clip : Poly → Poly → List Poly} {p : Poly} {cells : List (Poly × Nat × Nat)}
    {row : PieceRow} (h : row ∈ piecesIn clip p cells) :
    ∃ c ∈ cells, row.1 ∈ clip p c.1 ∧ row.2.1 = |signedArea row.1| / |signedArea p| ∧
      row.2.2 = c.2 := by
  obtain ⟨c, hc, hr⟩ := List.mem_flatMap.mp h
  obtain ⟨s, hs, rfl⟩ := List.mem_map.mp hr
  exact ⟨c, hc, hs, rfl, rfl⟩

/-- C29 for the pieces of a polygon on a regular grid: the fraction of the cell is the area of the
piece over the area (width times height) of its own cell. -/
theorem C29_grid (clip : Poly → Poly → List Poly) (x y : List Rat) (p : Poly) (s : SubPolys)
    (cells : List (Nat × Nat)) (hx : AxisOk x) (hy : AxisOk y) (hp : signedArea p ≠ 0)
    (hal : SubPolys.Aligned s) (hin : ∀ rk ∈ cells, rk.1 + 1 < y.length ∧ rk.2 + 1 < x.length)
    (hrows : SubPolys.rows s =
      piecesIn clip p (cells.map fun rk => (cellRect x y rk.1 rk.2, rk))) :
    ∃ areas, (gridMesh x y).quadAreas = .ok areas ∧
      quadFrac areas s.fracs |signedArea p| s.xi s.yi = .ok ((SubPolys.rows s).map fun row =>
        |signedArea row.1| / ((x.getD (row.2.2.2 + 1) 0 - x.getD row.2.2.2 0) *
          (y.getD (row.2.2.1 + 1) 0 - y.getD row.2.2.1 0))) := by
  have hs := meshgrid_shape x y
  have hx2 := hx.2
  have hy2 := hy.2
  rw [show y.length = (y.length - 1) + 1 by omega, show x.length = (x.length - 1) + 1 by omega] at hs
  obtain ⟨areas, ha, -, hent, -⟩ := C23_tiling (gridMesh x y) _ _ hs (by omega)
  obtain ⟨l1, l2, l3⟩ := hal
  have hfst : (SubPolys.rows s).map (fun row => row.2) = s.fracs.zip (s.xi.zip s.yi) := by
    unfold SubPolys.rows
    exact List.map_snd_zip (by simp; omega)
  have hidx : (SubPolys.rows s).map (fun row => row.2.2) = s.xi.zip s.yi := by
    have := congrArg (List.map Prod.snd) hfst
    rw [List.map_map, List.map_snd_zip (by simp; omega)] at this
    exact this
  have hfr : (SubPolys.rows s).map (fun row => row.2.1) = s.fracs := by
    have := congrArg (List.map Prod.fst) hfst
    rw [List.map_map, List.map_fst_zip (by simp; omega)] at this
    exact this
  refine ⟨areas, ha, ?_⟩
  unfold quadFrac
  rw [fancy2_ok (g := fun r k => (x.getD (k + 1) 0 - x.getD k 0) * (y.getD (r + 1) 0 - y.getD r 0))]
  · simp only [bind, Except.bind, pure, Except.pure]
    rw [← hfr, ← hidx, List.map_map, List.map_map, List.zipWith_map_left, List.zipWith_map_right,
      List.zipWith_self]
    congr 1
    apply List.map_congr_left
    intro row hrow
    rw [hrows] at hrow
    obtain ⟨c, -, -, hfrac, -⟩ := piecesIn_mem hrow
    simp only [Function.comp]
    rw [hfrac, div_mul_cancel₀ _ (by simpa using hp)]
  · intro rk hrk
    rw [← hidx] at hrk
    obtain ⟨row, hrow, hr2⟩ := List.mem_map.mp hrk
    rw [hrows] at hrow
    obtain ⟨c, hc, -, -, hci⟩ := piecesIn_mem hrow
    obtain ⟨rk', hrk', rfl⟩ := List.mem_map.mp hc
    have he : rk = rk' := by rw [← hr2, hci]
    subst he
    obtain ⟨hr, hk⟩ := hin rk hrk'
    rw [hent _ _ (by omega) (by omega)]
    rw [← cellRect_area]
    unfold cellRect
    simp only [gridMesh]
    rw [meshgrid_entry (by omega) (by omega), meshgrid_entry (by omega) (by omega),
      meshgrid_entry (by omega) (by omega), meshgrid_entry (by omega) (by omega)]

example : ((slicePolys rectClip (fun _ _ _ => []) (gridMesh [0, 1, 2, 4] [0, 1, 3]) twoRects
    .none).toOption.bind fun r => ((gridMesh [0, 1, 2, 4] [0, 1, 3]).quadAreas.toOption.bind
      fun areas => (r.1.mapM fun s => quadFrac areas s.fracs 1 s.xi s.yi).toOption)) =
    some [[1/4, 1/4, 1/8, 1/8], [1/4, 1/8]] := by decide +kernel

/-- C29, signs: the cells of a mesh with x along the first dimension are listed clockwise, their
areas are negative, and the fractions of such cells come out negative. -/
theorem C29_transposed_negative (x y : List Rat) (hx : AxisOk x) (hy : AxisOk y)
    (fracs : List Rat) (total : Rat) (xi yi : List Nat) (hl : fracs.length = xi.length)
    (hl' : xi.length = yi.length) (hin : ∀ ij ∈ xi.zip yi, ij.1 + 1 < x.length ∧ ij.2 + 1 < y.length)
    (hpos : ∀ f ∈ fracs, 0 < f) (ht : 0 < total) :
    ∃ areas qf, (⟨(meshgrid y x).2, (meshgrid y x).1, true, 160⟩ : Mesh).quadAreas = .ok areas ∧
      quadFrac areas fracs total xi yi = .ok qf ∧ qf.length = fracs.length ∧ ∀ f ∈ qf, f < 0 := by
  have hx2 := hx.2
  have hy2 := hy.2
  have hent : ∀ i j, i < x.length → j < y.length →
      entry (dstack (meshgrid y x).2 (meshgrid y x).1) i j = (x.getD i 0, y.getD j 0) := by
    intro i j hi hj
    unfold entry dstack meshgrid
    simp [List.getElem?_zipWith, List.getElem?_zip_eq_some, List.getElem?_replicate, hi, hj, List.getD_eq_getElem?_getD,
      List.zip]
  have hs : HasShape (dstack (meshgrid y x).2 (meshgrid y x).1) ((x.length - 1) + 1)
      ((y.length - 1) + 1) := by
    rw [Nat.sub_add_cancel (by omega), Nat.sub_add_cancel (by omega)]
    refine ⟨by simp [dstack, meshgrid], ?_⟩
    intro r hr
    obtain ⟨i, hi⟩ := List.mem_iff_getElem?.mp hr
    obtain ⟨u, v, hu, hv, rfl⟩ := List.getElem?_zipWith_eq_some.mp hi
    have hv' : v = y := List.eq_of_mem_replicate (List.mem_of_getElem? hv)
    obtain ⟨b, -, rfl⟩ := List.mem_map.mp (List.mem_of_getElem? hu)
    simp [hv']
  have harea : ∀ i j, i + 1 < x.length → j + 1 < y.length →
      signedArea (quadAt (dstack (meshgrid y x).2 (meshgrid y x).1) i j) < 0 := by
    intro i j hi hj
    unfold quadAt
    rw [hent _ _ (by omega) (by omega), hent _ _ (by omega) (by omega), hent _ _ (by omega) (by omega),
      hent _ _ (by omega) (by omega), signedArea_quad]
    have h1 : x.getD i 0 < x.getD (i + 1) 0 := by
      have := List.pairwise_iff_getElem.mp hx.1 i (i + 1) (by omega) (by omega) (by omega)
      simpa [List.getD_eq_getElem?_getD, List.getElem?_eq_getElem (show i < x.length by omega),
        List.getElem?_eq_getElem hi] using this
    have h2 : y.getD j 0 < y.getD (j + 1) 0 := by
      have := List.pairwise_iff_getElem.mp hy.1 j (j + 1) (by omega) (by omega) (by omega)
      simpa [List.getD_eq_getElem?_getD, List.getElem?_eq_getElem (show j < y.length by omega),
        List.getElem?_eq_getElem hj] using this
    simp only [cross]
    nlinarith [mul_pos (sub_pos.mpr h1) (sub_pos.mpr h2)]
  obtain ⟨areas, qf, ha, hq, hlen, hk⟩ := C29_fractions
    ⟨(meshgrid y x).2, (meshgrid y x).1, true, 160⟩ _ _ hs fracs total xi yi hl hl'
    (fun ij hij => by have := hin ij hij; omega)
    (fun ij hij => (harea _ _ (hin ij hij).1 (hin ij hij).2).ne)
  refine ⟨areas, qf, ha, hq, hlen, ?_⟩
  intro f hf
  obtain ⟨k, hk', rfl⟩ := List.mem_iff_getElem.mp hf
  have hkf : k < fracs.length := by omega
  have h1 := hk k hkf
  have hk1 : k < xi.length := by omega
  have hk2 : k < yi.length := by omega
  have hz : (xi.zip yi)[k]? = some (xi.getD k 0, yi.getD k 0) := by
    rw [List.getElem?_zip_eq_some]
    simp [List.getD_eq_getElem?_getD, List.getElem?_eq_getElem hk1, List.getElem?_eq_getElem hk2]
  have hneg := harea _ _ (hin _ (List.mem_of_getElem? hz)).1 (hin _ (List.mem_of_getElem? hz)).2
  simp only at hneg h1
  rw [List.getD_eq_getElem?_getD (l := qf), List.getElem?_eq_getElem hk', Option.getD_some,
    List.getD_eq_getElem?_getD (l := fracs), List.getElem?_eq_getElem hkf, Option.getD_some] at h1
  have hp := mul_pos (hpos _ (List.getElem_mem hkf)) ht
  by_contra hc
  push Not at hc
  have := mul_nonpos_of_nonneg_of_nonpos hc hneg.le
  linarith

/-! ## C63 -/

/-- C63: whatever the order in which the blocks of arguments are finished, the results are those of
sequential processing, in the order of the arguments. -/
theorem C63_pool {β γ : Type} (f : β → γ) (a : List β) (chunksize : Nat)
    (schedule : List Nat → List Nat) (hc : 0 < chunksize) (hs : ∀ l, (schedule l).Perm l) :
    runPoolMap f a chunksize schedule = a.map f := by
  unfold runPoolMap
  simp only
  set n := (a.length + chunksize - 1) / chunksize with hn
  have hle : a.length ≤ n * chunksize := by
    have h1 := Nat.div_add_mod (a.length + chunksize - 1) chunksize
    have h2 := Nat.mod_lt (a.length + chunksize - 1) hc
    rw [← hn, Nat.mul_comm] at h1
    omega
  rw [← blocks_flatMap f a chunksize n hle]
  apply List.flatMap_congr
  intro k hk
  rw [foldl_slots (fun k => (slice a (k * chunksize) ((k + 1) * chunksize)).map f),
    if_pos ((hs _).mem_iff.mpr hk)]

example : runPoolMap (· * 10) [1, 2, 3, 4, 5, 6, 7] 3 List.reverse = [10, 20, 30, 40, 50, 60, 70] := by
  decide

end Verif.Props
