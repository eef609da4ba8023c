import Verif.Props.Session
import Verif.Proofs.ConvexClip
import Mathlib.Tactic.IntervalCases

/-!
# Convex footprints (C28, C93, C94)

The theorems about footprints leave the clipper open, or take rectangles.  Here the clipper is the intersection of
convex polygons with grid cells (`convexClip`), and nothing is assumed about clipper or search: footprints of any
convex shape, as the quadrilaterals of the corner table are, that reach no more than two cells from the mean of
their corners.
-/

namespace Verif.Props

open Verif.Py Verif.Model Verif.Spec Verif.Proofs

theorem convexClip_cell (p : Poly) (x y : List Rat) (i j : Nat) :
    convexClip p (cellRect x y j i) =
      if signedArea (cutRect (counterclockwise p) (x.getD i 0) (y.getD j 0) (x.getD (i + 1) 0)
        (y.getD (j + 1) 0)) = 0 then []
      else [cutRect (counterclockwise p) (x.getD i 0) (y.getD j 0) (x.getD (i + 1) 0) (y.getD (j + 1) 0)] := rfl

theorem convexClip_ne_nil (p q s : Poly) (h : s ∈ convexClip p q) : s ≠ [] := by
  unfold convexClip at h
  split at h
  · split at h
    · exact absurd h (List.not_mem_nil)
    · rename_i hne
      rw [List.mem_singleton] at h
      rintro rfl
      rw [← h] at hne
      exact hne (by simp [signedArea])
  · exact absurd h (List.not_mem_nil)

theorem hull_perm {p q : List Pt} (h : ∀ v, v ∈ p → v ∈ q) {r : Pt} (hr : InHull p r) : InHull q r :=
  hull_sub (segClosed_hull q) (fun v hv => InHull.corner (h v hv)) hr

/-- The clipper is what it is taken for: the points of the piece are the points of the footprint in the cell; there
is no piece exactly if the common part has no area. -/
theorem convexClip_points {p : Poly} (hc : ConvexPoly p) (ha : signedArea p ≠ 0) (x y : List Rat) (i j : Nat) :
    (∀ q ∈ convexClip p (cellRect x y j i), signedArea q ≠ 0 ∧ ∀ r, InHull q r ↔
      InHull p r ∧ x.getD i 0 ≤ r.1 ∧ r.1 ≤ x.getD (i + 1) 0 ∧ y.getD j 0 ≤ r.2 ∧ r.2 ≤ y.getD (j + 1) 0) ∧
    (convexClip p (cellRect x y j i) = [] → ∃ q, signedArea q = 0 ∧ ∀ r, InHull q r ↔
      InHull p r ∧ x.getD i 0 ≤ r.1 ∧ r.1 ≤ x.getD (i + 1) 0 ∧ y.getD j 0 ≤ r.2 ∧ r.2 ≤ y.getD (j + 1) 0) := by
  obtain ⟨h1, -⟩ := counterclockwise_ok hc ha
  have hh : ∀ r, InHull (counterclockwise p) r ↔ InHull p r := fun r =>
    ⟨hull_perm fun _ h => mem_counterclockwise.mp h, hull_perm fun _ h => mem_counterclockwise.mpr h⟩
  have key := cutRect_hull (segClosed_inside _) (convex_around h1) (x.getD i 0) (y.getD j 0) (x.getD (i + 1) 0)
    (y.getD (j + 1) 0)
  simp only [hh] at key
  rw [convexClip_cell]
  constructor
  · intro q hq
    split at hq
    · exact absurd hq (List.not_mem_nil)
    · rename_i hne
      rw [List.mem_singleton] at hq
      subst hq
      exact ⟨hne, key⟩
  · intro hq
    split at hq
    · rename_i he
      exact ⟨_, he, key⟩
    · exact absurd hq (List.cons_ne_nil _ _)

/-- The area of a footprint in a cell. -/
theorem convex_areaInCell {p : Poly} (hc : ConvexPoly p) (ha : signedArea p ≠ 0) (x y : List Rat) (i j : Nat) :
    areaInCell convexClip x y p i j = signedArea (cutRect (counterclockwise p) (x.getD i 0) (y.getD j 0)
      (x.getD (i + 1) 0) (y.getD (j + 1) 0)) := by
  obtain ⟨h1, -⟩ := counterclockwise_ok hc ha
  obtain ⟨Q, hQ⟩ := cutRect_around (segClosed_inside _) (convex_around h1) (x.getD i 0) (y.getD j 0)
    (x.getD (i + 1) 0) (y.getD (j + 1) 0)
  have hpos := around_area hQ
  unfold areaInCell
  rw [convexClip_cell]
  split
  · rename_i he
    rw [he]
    rfl
  · simp only [List.map_cons, List.map_nil, List.sum_cons, List.sum_nil, add_zero]
    exact abs_of_nonneg hpos

/-- A footprint that is a convex polygon on the grid and reaches at most two cells from its mean. -/
structure ConvexFoot (x y : List Rat) (dx dy : Rat) (p : Poly) : Prop where
  convex : ConvexPoly p
  area : signedArea p ≠ 0
  onGrid : ∀ v ∈ p, x.getD 0 0 ≤ v.1 ∧ v.1 ≤ x.getD (x.length - 1) 0 ∧
    y.getD 0 0 ≤ v.2 ∧ v.2 ≤ y.getD (y.length - 1) 0
  narrow : ∀ v ∈ p, |v.1 - (p.map Prod.fst).sum / p.length| ≤ 2 * dx ∧
    |v.2 - (p.map Prod.snd).sum / p.length| ≤ 2 * dy

theorem ConvexFoot.ne_nil {x y : List Rat} {dx dy : Rat} {p : Poly} (h : ConvexFoot x y dx dy p) : p ≠ [] := by
  rintro rfl
  exact h.area (by simp [signedArea])

/-- The cells add up to the footprint. -/
theorem convex_tiled {x y : List Rat} {dx dy : Rat} (hx : AxisOk x) (hy : AxisOk y) {p : Poly}
    (h : ConvexFoot x y dx dy p) :
    ((List.range (x.length - 1)).map fun i => ((List.range (y.length - 1)).map fun j =>
      areaInCell convexClip x y p i j).sum).sum = |signedArea p| := by
  obtain ⟨-, h2⟩ := counterclockwise_ok h.convex h.area
  have := hx.2
  have := hy.2
  simp only [convex_areaInCell h.convex h.area]
  rw [← h2]
  exact cells_sum (fun k hk => getD_lt_of_lt hx.1 (by omega) hk) (fun k hk => getD_lt_of_lt hy.1 (by omega) hk)
    (by omega) (by omega) fun v hv => h.onGrid v (mem_counterclockwise.mp hv)

theorem mean_above {l : List Rat} {a : Rat} (hl : l ≠ []) (h : ∀ v ∈ l, a ≤ v) (h' : ∃ v ∈ l, a < v) :
    a < l.sum / l.length := by
  have hpos : (0 : Rat) < l.length := by
    have := List.length_pos_of_ne_nil hl
    exact_mod_cast this
  rw [lt_div_iff₀ hpos]
  clear hl hpos
  induction l with
  | nil => obtain ⟨v, hv, -⟩ := h'; exact absurd hv (List.not_mem_nil)
  | cons b l ih =>
    have hb := h b List.mem_cons_self
    have hall : a * l.length ≤ l.sum := by
      clear ih h'
      induction l with
      | nil => simp
      | cons c l ih2 =>
        have := ih2 fun v hv => h v (by
          rcases List.mem_cons.mp hv with hv | hv
          · rw [hv]; exact List.mem_cons_self
          · exact List.mem_cons_of_mem _ (List.mem_cons_of_mem _ hv))
        have hc := h c (List.mem_cons_of_mem _ List.mem_cons_self)
        simp only [List.length_cons, List.sum_cons]
        push_cast
        linarith
    simp only [List.length_cons, List.sum_cons]
    push_cast
    obtain ⟨v, hv, hav⟩ := h'
    rcases List.mem_cons.mp hv with rfl | hv
    · linarith
    · have := ih (fun v hv => h v (List.mem_cons_of_mem _ hv)) ⟨v, hv, hav⟩
      linarith

theorem mean_below {l : List Rat} {a : Rat} (hl : l ≠ []) (h : ∀ v ∈ l, v ≤ a) : l.sum / l.length ≤ a := by
  have hpos : (0 : Rat) < l.length := by
    have := List.length_pos_of_ne_nil hl
    exact_mod_cast this
  rw [div_le_iff₀ hpos]
  clear hl hpos
  induction l with
  | nil => simp
  | cons c l ih =>
    have := ih fun v hv => h v (List.mem_cons_of_mem _ hv)
    have hc := h c List.mem_cons_self
    simp only [List.length_cons, List.sum_cons]
    push_cast
    linarith

/-- The mean of the corners is on the grid, not on its first edges. -/
theorem convex_mean {x y : List Rat} {dx dy : Rat} {p : Poly} (h : ConvexFoot x y dx dy p) :
    x.getD 0 0 < (meanPoint p).1 ∧ (meanPoint p).1 ≤ x.getD (x.length - 1) 0 ∧
      y.getD 0 0 < (meanPoint p).2 ∧ (meanPoint p).2 ≤ y.getD (y.length - 1) 0 := by
  have hne := h.ne_nil
  have n1 : p.map Prod.fst ≠ [] := by simpa using hne
  have n2 : p.map Prod.snd ≠ [] := by simpa using hne
  have l1 : ((p.map Prod.fst).length : Rat) = p.length := by simp
  have l2 : ((p.map Prod.snd).length : Rat) = p.length := by simp
  unfold meanPoint
  simp only
  have fx : ∃ v ∈ p.map Prod.fst, x.getD 0 0 < v := by
    by_contra hn
    push Not at hn
    apply h.area
    apply flat_area (line_x (x.getD 0 0)).2
    intro v hv
    have := hn v.1 (List.mem_map_of_mem hv)
    have := (h.onGrid v hv).1
    simp only [rightOf]
    linarith
  have fy : ∃ v ∈ p.map Prod.snd, y.getD 0 0 < v := by
    by_contra hn
    push Not at hn
    apply h.area
    apply flat_area (line_y (y.getD 0 0)).2
    intro v hv
    have := hn v.2 (List.mem_map_of_mem hv)
    have := (h.onGrid v hv).2.2.1
    simp only [above]
    linarith
  have ex : ∀ {P : Rat → Prop}, (∀ v ∈ p, P v.1) → ∀ v ∈ p.map Prod.fst, P v := by
    intro P hP v hv
    obtain ⟨w, hw, rfl⟩ := List.mem_map.mp hv
    exact hP w hw
  have ey : ∀ {P : Rat → Prop}, (∀ v ∈ p, P v.2) → ∀ v ∈ p.map Prod.snd, P v := by
    intro P hP v hv
    obtain ⟨w, hw, rfl⟩ := List.mem_map.mp hv
    exact hP w hw
  have r1 := mean_above n1 (ex fun v hv => (h.onGrid v hv).1) fx
  have r2 := mean_below n1 (ex fun v hv => (h.onGrid v hv).2.1)
  have r3 := mean_above n2 (ey fun v hv => (h.onGrid v hv).2.2.1) fy
  have r4 := mean_below n2 (ey fun v hv => (h.onGrid v hv).2.2.2)
  rw [l1] at r1 r2
  rw [l2] at r3 r4
  exact ⟨r1, r2, r3, r4⟩

/-- The footprint lies on one side of the cell in column `i` and row `j`. -/
def Beside (x y : List Rat) (p : Poly) (i j : Nat) : Prop :=
  (∀ v ∈ p, v.1 ≤ x.getD i 0) ∨ (∀ v ∈ p, x.getD (i + 1) 0 ≤ v.1) ∨
    (∀ v ∈ p, v.2 ≤ y.getD j 0) ∨ (∀ v ∈ p, y.getD (j + 1) 0 ≤ v.2)

/-- The search looks at no more than 25 cells, and at every cell unless the footprint is beside it. -/
theorem convex_found (query : List Pt → Pt → Nat → List Nat) {x y : List Rat} {dx dy : Rat}
    (hx : AxisOk x) (hy : AxisOk y) (hsz : 2 < x.length ∨ 2 < y.length)
    (ux : Spaced x dx) (uy : Spaced y dy) {p : Poly} (h : ConvexFoot x y dx dy p) :
    ∃ c, candidatesFor query (gridMesh x y) .none p = .ok c ∧ WellFormed x y c ∧ (c.xi.zip c.yi).length ≤ 25 ∧
      ∀ i j, i + 1 < x.length → j + 1 < y.length → ¬ Beside x y p i j → (j, i) ∈ c.xi.zip c.yi := by
  obtain ⟨m1, m2, m3, m4⟩ := convex_mean h
  obtain ⟨C, col, row, h1, hwf, hcol, hrow, h4⟩ := C25_neighbourhood query x y (meanPoint p) hx hy m1 m2 m3 m4
  obtain ⟨C', hC', -, -, -⟩ := grid_candidates query hx hy (bbox := .none) (Or.inl ⟨rfl, hsz⟩) p h.ne_nil
  have hCC : C' = C := by
    have hC := hC'
    unfold candidatesFor at hC
    simp only [h1, bind, Except.bind] at hC
    split at hC
    · cases hC
    · cases hC; rfl
  subst hCC
  refine ⟨C', hC', hwf, ?_, ?_⟩
  · have hsub : (C'.xi.zip C'.yi).toFinset ⊆ Finset.Icc (row - 2) (row + 2) ×ˢ Finset.Icc (col - 2) (col + 2) := by
      intro rk hrk
      rw [List.mem_toFinset] at hrk
      have := (h4 rk.1 rk.2).mp hrk
      rw [Finset.mem_product, Finset.mem_Icc, Finset.mem_Icc]
      omega
    have hcard := Finset.card_le_card hsub
    rw [List.toFinset_card_of_nodup hwf.2.1, Finset.card_product, Nat.card_Icc, Nat.card_Icc] at hcard
    have a1 : row + 2 + 1 - (row - 2) ≤ 5 := by omega
    have a2 : col + 2 + 1 - (col - 2) ≤ 5 := by omega
    exact hcard.trans (Nat.mul_le_mul a1 a2)
  · intro i j hi hj hb
    unfold Beside at hb
    push Not at hb
    obtain ⟨⟨v1, k1, b1⟩, ⟨v2, k2, b2⟩, ⟨v3, k3, b3⟩, ⟨v4, k4, b4⟩⟩ := hb
    have sx := ux.1
    have sy := uy.1
    have q1 := abs_le.mp (h.narrow v1 k1).1
    have q2 := abs_le.mp (h.narrow v2 k2).1
    have q3 := abs_le.mp (h.narrow v3 k3).2
    have q4 := abs_le.mp (h.narrow v4 k4).2
    have cx := getD_lt_of_lt hx.1 (show i < i + 1 by omega) hi
    have cy := getD_lt_of_lt hy.1 (show j < j + 1 by omega) hj
    have near : ∀ {m u v w s z : Rat}, 0 < s → u < v → z - m ≤ 2 * s → -(2 * s) ≤ w - m → u < z → w < v →
        overlap (m - 2 * s) (m + 2 * s) u v ≠ 0 := by
      intro m u v w s z hs huv hz hw h1 h2
      unfold overlap
      have hlt : max (m - 2 * s) u < min (m + 2 * s) v := by
        rw [max_lt_iff]
        constructor
        · rw [lt_min_iff]; exact ⟨by linarith, by linarith⟩
        · rw [lt_min_iff]; exact ⟨by linarith, by linarith⟩
      rw [max_eq_right (by linarith)]
      exact ne_of_gt (sub_pos.mpr hlt)
    have o1 := near sx cx q1.2 q2.1 b1 b2
    have o2 := near sy cy q3.2 q4.1 b3 b4
    have mid : ∀ m s : Rat, (m - 2 * s + (m + 2 * s)) / 2 = m := by intro m s; ring
    have n1 := overlap_near hx ux (by linarith) (by rw [mid]; exact hcol) hi o1
    have n2 := overlap_near hy uy (by linarith) (by rw [mid]; exact hrow) hj o2
    exact (h4 j i).mpr ⟨hj, hi, n2.1, n2.2, n1.1, n1.2⟩

/-- The search finds every cell in which there is a part of the footprint. -/
theorem convex_search (query : List Pt → Pt → Nat → List Nat) {x y : List Rat} {dx dy : Rat}
    (hx : AxisOk x) (hy : AxisOk y) (hsz : 2 < x.length ∨ 2 < y.length)
    (ux : Spaced x dx) (uy : Spaced y dy) {p : Poly} (h : ConvexFoot x y dx dy p) :
    SearchComplete convexClip query x y p := by
  intro i j hi hj hne
  obtain ⟨C, hC, -, -, h4⟩ := convex_found query hx hy hsz ux uy h
  refine ⟨C, hC, h4 i j hi hj fun hb => hne ?_⟩
  rw [convexClip_cell, if_pos]
  apply cutRect_beside
  simp only [mem_counterclockwise]
  exact hb

theorem range_sum (n : Nat) (q : Nat → Rat) : ((List.range n).map q).sum = ∑ i ∈ Finset.range n, q i := by
  induction n with
  | zero => rfl
  | succ n ih =>
    rw [List.range_succ, List.map_append, List.sum_append, ih, Finset.sum_range_succ]
    simp

/-- If the search finds every cell with a piece, the pieces that are found are all pieces. -/
theorem covered_of_search (clip : Poly → Poly → List Poly) (query : List Pt → Pt → Nat → List Nat) {x y : List Rat}
    (hx : AxisOk x) (hy : AxisOk y) (hsz : 2 < x.length ∨ 2 < y.length) {p : Poly} (hp : p ≠ [])
    (h : SearchComplete clip query x y p) :
    coveredArea clip query (gridMesh x y) p = ((List.range (x.length - 1)).map fun i =>
      ((List.range (y.length - 1)).map fun j => areaInCell clip x y p i j).sum).sum := by
  obtain ⟨C, hC, ⟨⟨w1, w2, w3, w4⟩, -⟩, -, -⟩ :=
    grid_candidates query hx hy (bbox := .none) (Or.inl ⟨rfl, hsz⟩) p hp
  unfold coveredArea
  rw [hC]
  simp only
  rw [w4, List.flatMap_def, List.map_map, List.map_flatten, List.sum_flatten, List.map_map, List.map_map]
  have hcongr : ((C.xi.zip C.yi).map ((List.sum ∘ List.map fun s => |signedArea s|) ∘
      clip p ∘ fun rk => cellRect x y rk.1 rk.2)) =
      (C.xi.zip C.yi).map fun rk => areaInCell clip x y p rk.2 rk.1 := rfl
  rw [hcongr, list_sum_finset w2,
    Finset.sum_subset (s₂ := Finset.range (y.length - 1) ×ˢ Finset.range (x.length - 1))]
  · rw [Finset.sum_product, Finset.sum_comm, range_sum]
    apply Finset.sum_congr rfl
    intro i _
    rw [range_sum]
  · intro rk hrk
    rw [List.mem_toFinset] at hrk
    have := w3 rk.1 rk.2 hrk
    rw [Finset.mem_product, Finset.mem_range, Finset.mem_range]
    omega
  · intro rk hrk hn
    rw [Finset.mem_product, Finset.mem_range, Finset.mem_range] at hrk
    rw [List.mem_toFinset] at hn
    have hnil : clip p (cellRect x y rk.1 rk.2) = [] := by
      by_contra hne
      obtain ⟨c, hc, hm⟩ := h rk.2 rk.1 (by omega) (by omega) hne
      rw [hC] at hc
      cases hc
      exact hn hm
    unfold areaInCell
    rw [hnil]
    rfl

theorem convex_covered (query : List Pt → Pt → Nat → List Nat) {x y : List Rat} {dx dy : Rat}
    (hx : AxisOk x) (hy : AxisOk y) (hsz : 2 < x.length ∨ 2 < y.length)
    (ux : Spaced x dx) (uy : Spaced y dy) {p : Poly} (h : ConvexFoot x y dx dy p) :
    coveredArea convexClip query (gridMesh x y) p = |signedArea p| := by
  rw [covered_of_search convexClip query hx hy hsz h.ne_nil (convex_search query hx hy hsz ux uy h),
    convex_tiled hx hy h]

/-- **C28** for convex footprints: nothing of clipper and search is assumed. -/
theorem C28_convex (query : List Pt → Pt → Nat → List Nat) (foot : Pt → Poly) (x y : List Rat) (dx dy : Rat)
    (t basedate : Int) (loc : Rat → Rat → Int) (d : GFile) (rows : List LutRow)
    (hx : AxisOk x) (hy : AxisOk y) (hsz : 2 < x.length ∨ 2 < y.length)
    (ux : Spaced x dx) (uy : Spaced y dy) (hrows : getLutevents t loc d = .ok rows)
    (hin : ∀ r ∈ rows, ConvexFoot x y dx dy (foot (r.x, r.y))) :
    ∃ fake, fastFixedGridReadChunk convexClip query (fun pts => pts.map foot) (gridMesh x y) t basedate loc d =
        .ok (some fake) ∧
      (fake.children.map LmaEvent.power).sum = (d.events.map fun e => e.val.energy).sum := by
  have hmem : ∀ p ∈ (rows.map fun r => (r.x, r.y)).map foot, ConvexFoot x y dx dy p := by
    intro p hp
    rw [List.map_map] at hp
    obtain ⟨r, hr, rfl⟩ := List.mem_map.mp hp
    exact hin r hr
  exact C28_conserved convexClip query _ x y t basedate loc d rows _ hx hy hsz convexClip_ne_nil hrows rfl (by simp)
    (fun p hp => ⟨(hmem p hp).ne_nil, (hmem p hp).area⟩)
    (fun p hp => convex_covered query hx hy hsz ux uy (hmem p hp))

/-- A file whose events have footprints that are found on the grid. -/
theorem fileFit_of {clip : Poly → Poly → List Poly} {query : List Pt → Pt → Nat → List Nat} {foot : Pt → Poly}
    {x y : List Rat} {order : List Int → List Int} (ho : ∀ l, (order l).Perm l) {c : Criteria} {n : Nat} (hn : 0 < n)
    {d : GFile} (hd : HasData d) (hc : Consistent d) (hv : Derived d) (hf : UniqueIds d.flashes)
    (hg : UniqueIds d.groups) (ha : ∀ f ∈ d.flashes, 0 < f.val.area)
    (hp : ∀ e ∈ d.events, foot (placeOf e) ≠ [] ∧ signedArea (foot (placeOf e)) ≠ 0 ∧
      SearchComplete clip query x y (foot (placeOf e)))
    (hcov : ∀ e ∈ d.events, coveredArea clip query (gridMesh x y) (foot (placeOf e)) ≠ 0) :
    FileFit clip query foot x y order c n d := by
  refine ⟨hd, hc, hv, hf, hg, ha, hp, ?_⟩
  intro chunks hch ch hm
  obtain ⟨ids, hnd, hs, hp, -, hr, -⟩ := readFlashes_ids ho c (n := n) hd hv hf hg
  obtain ⟨chunks', hr', -, hlen, -⟩ := C20_chunks ho c hn hd hv hf hg
  rw [hch] at hr hr'
  obtain rfl := Except.ok.inj hr'
  have hchunk := Except.ok.inj hr
  have hl := (hlen ch hm).1
  have hch2 : ∃ cc, ch = keptFlashes d cc ∧ cc ≠ [] ∧ ∀ i ∈ cc, i ∈ ids := by
    rw [hchunk] at hm
    split at hm
    · exact absurd hm (List.not_mem_nil)
    · obtain ⟨cc, hcc, rfl⟩ := List.mem_map.mp hm
      refine ⟨cc, rfl, ?_, ?_⟩
      · rintro rfl
        exact absurd hl (by simp [keptFlashes, rowsInOrder])
      · intro i hi
        rw [← arraySplit_flatten ids (n := max (ids.length / n) 1) (by omega)]
        exact List.mem_flatten.mpr ⟨cc, hcc, hi⟩
  obtain ⟨cc, rfl, hne, hsub⟩ := hch2
  obtain ⟨-, -, h3⟩ := kept_hasData hc hne fun i hi => hs i (hsub i hi)
  obtain ⟨e, he⟩ := List.exists_mem_of_ne_nil _ h3
  exact ⟨e, he, hcov e (mem_childrenInOrder.mp he).1⟩

/-- **C93** for convex footprints, again for files in which the table puts only events at one place together. -/
theorem C93_convex_partial (query : List Pt → Pt → Nat → List Nat) (foot : Pt → Poly) (x y : List Rat)
    (dx dy : Rat) (basedate : Int) (loc : Rat → Rat → Int) (order : List Int → List Int) (c : Criteria) (n : Nat)
    (files : List (Int × GFile)) (points : Grid → List LmaParent → Grid) (label : String)
    (par : String → FakeLma → List LmaParent)
    (hx : AxisOk x) (hy : AxisOk y) (hsz : 2 < x.length ∨ 2 < y.length) (ho : ∀ l, (order l).Perm l) (hn : 0 < n)
    (ux : Spaced x dx) (uy : Spaced y dy)
    (hf : ∀ d ∈ files, d.2.events ≠ [] → HasData d.2 ∧ Consistent d.2 ∧ Derived d.2 ∧ UniqueIds d.2.flashes ∧
      UniqueIds d.2.groups ∧ (∀ f ∈ d.2.flashes, 0 < f.val.area) ∧ PixelExact loc d.2 ∧
      ∀ e ∈ d.2.events, ConvexFoot x y dx dy (foot (placeOf e))) :
    ∃ fakes outgrids grids fed fa te ged ga mfa,
      readFiles convexClip query (fun pts => pts.map foot) (gridMesh x y) basedate loc order c n files =
        .ok fakes ∧ lutPipelineSetup = .ok outgrids ∧
      gridFrame points (x.length - 1) (y.length - 1) outgrids
        (fun k => fakes.map fun f => (f.children, par k f)) = .ok grids ∧
      gridNamed label grids "flash_extent_density" = some fed ∧
      gridNamed label grids "average_flash_area" = some fa ∧
      gridNamed label grids "total_energy" = some te ∧
      gridNamed label grids "group_extent_density" = some ged ∧
      gridNamed label grids "average_group_area" = some ga ∧
      gridNamed label grids "minimum_flash_area" = some mfa ∧
      (∀ g ∈ [fed, fa, te, ged, ga, mfa], g.n0 = x.length - 1 ∧ g.n1 = y.length - 1) ∧
      ∀ i j, i + 1 < x.length → j + 1 < y.length →
        CellsOfFiles convexClip foot x y c files i j (fed.val i j) (fa.val i j) (te.val i j) (ged.val i j)
          (ga.val i j) (mfa.val i j) :=
  C93_partial convexClip query foot x y basedate loc order c n files points label par hx hy hsz convexClip_ne_nil
    ho hn fun d hd he => by
      obtain ⟨a1, a2, a3, a4, a5, a6, a7, a8⟩ := hf d hd he
      refine ⟨fileFit_of ho hn a1 a2 a3 a4 a5 a6 (fun e he => ⟨(a8 e he).ne_nil, (a8 e he).area,
        convex_search query hx hy hsz ux uy (a8 e he)⟩) (fun e he => ?_), a7⟩
      rw [convex_covered query hx hy hsz ux uy (a8 e he)]
      exact abs_ne_zero.mpr (a8 e he).area

/-- **C94** for convex footprints: the shape may be another at each place of a box that contains the events. -/
theorem C94_convex_partial (query : List Pt → Pt → Nat → List Nat) (foot : Pt → Poly) (x y : List Rat)
    (dx dy a b a' b' : Rat) (basedate : Int) (loc : Rat → Rat → Int) (order : List Int → List Int) (c : Criteria)
    (n : Nat) (files : List (Int × GFile)) (points : Grid → List LmaParent → Grid) (label : String)
    (par : String → FakeLma → List LmaParent)
    (hx : AxisOk x) (hy : AxisOk y) (hsz : 2 < x.length ∨ 2 < y.length) (ho : ∀ l, (order l).Perm l) (hn : 0 < n)
    (ux : Spaced x dx) (uy : Spaced y dy)
    (hfoot : ∀ p : Pt, a ≤ p.1 → p.1 ≤ b → a' ≤ p.2 → p.2 ≤ b' → ConvexFoot x y dx dy (foot p))
    (hf : ∀ d ∈ files, d.2.events ≠ [] → HasData d.2 ∧ Consistent d.2 ∧ Derived d.2 ∧ UniqueIds d.2.flashes ∧
      UniqueIds d.2.groups ∧ (∀ f ∈ d.2.flashes, 0 < f.val.area) ∧
      ∀ e ∈ d.2.events, a ≤ e.val.x ∧ e.val.x ≤ b ∧ a' ≤ e.val.y ∧ e.val.y ≤ b') :
    EnergyKept convexClip query foot x y basedate loc order c n files points label par :=
  C94_partial convexClip query _ x y basedate loc order c n files points label par hx hy hsz convexClip_ne_nil ho hn
    fun d hd he => by
      obtain ⟨a1, a2, a3, a4, a5, a6, a7⟩ := hf d hd he
      refine ⟨a1, a2, a3, a4, a5, a6, a, b, a', b', a7, ?_⟩
      intro p i1 i2 i3 i4
      have h := hfoot p i1 i2 i3 i4
      refine ⟨h.ne_nil, h.area, convex_search query hx hy hsz ux uy h, ?_, convex_tiled hx hy h⟩
      rw [convex_covered query hx hy hsz ux uy h]
      exact abs_ne_zero.mpr h.area

/-! ### Examples -/

/-- A slanted quadrilateral, listed clockwise. -/
def slanted (p : Pt) : Poly :=
  [(p.1 - 3/4, p.2 - 1/4), (p.1 - 1/4, p.2 + 3/4), (p.1 + 3/4, p.2 + 1/4), (p.1 + 1/4, p.2 - 3/4)]

theorem slanted_convex (p : Pt) : ConvexPoly (slanted p) := by
  right
  intro k hk r hr
  unfold slanted at *
  simp only [List.reverse_cons, List.reverse_nil, List.nil_append, List.cons_append, List.length_cons,
    List.length_nil, List.mem_cons, List.not_mem_nil, or_false] at *
  interval_cases k <;> rcases hr with rfl | rfl | rfl | rfl <;>
    simp only [cross, List.getD_cons_zero, List.getD_cons_succ, zero_add, Nat.reduceAdd, Nat.reduceMod] <;>
    ring_nf <;> norm_num

theorem slanted_area (p : Pt) : signedArea (slanted p) = -5/4 := by
  unfold slanted
  rw [signedArea_quad]
  simp only [cross]
  ring

theorem slanted_foot {p : Pt} (h1 : 3/4 ≤ p.1) (h2 : p.1 ≤ 21/4) (h3 : 3/4 ≤ p.2) (h4 : p.2 ≤ 17/4) :
    ConvexFoot sampleX sampleY 1 1 (slanted p) := by
  refine ⟨slanted_convex p, by rw [slanted_area]; norm_num, ?_, ?_⟩
  · intro v hv
    have e1 : sampleX.getD 0 0 = 0 := rfl
    have e2 : sampleX.getD (sampleX.length - 1) 0 = 6 := rfl
    have e3 : sampleY.getD 0 0 = 0 := rfl
    have e4 : sampleY.getD (sampleY.length - 1) 0 = 5 := rfl
    rw [e1, e2, e3, e4]
    unfold slanted at hv
    simp only [List.mem_cons, List.not_mem_nil, or_false] at hv
    rcases hv with rfl | rfl | rfl | rfl <;> simp only <;>
      exact ⟨by linarith, by linarith, by linarith, by linarith⟩
  · intro v hv
    unfold slanted at *
    simp only [List.mem_cons, List.not_mem_nil, or_false] at hv
    simp only [List.map_cons, List.map_nil, List.sum_cons, List.sum_nil, List.length_cons, List.length_nil]
    push_cast
    rcases hv with rfl | rfl | rfl | rfl <;> simp only [abs_le] <;>
      exact ⟨⟨by linarith, by linarith⟩, ⟨by linarith, by linarith⟩⟩

/-- The energy of a chunk, with slanted footprints. -/
example : ∃ fake, fastFixedGridReadChunk convexClip (fun _ _ _ => []) (fun pts => pts.map slanted)
      (gridMesh sampleX sampleY) 7 0 sampleLoc splitSample = .ok (some fake) ∧
    (fake.children.map LmaEvent.power).sum = (splitSample.events.map fun e => e.val.energy).sum :=
  C28_convex _ slanted sampleX sampleY 1 1 7 0 sampleLoc splitSample sampleRows
    sample_axes.1 sample_axes.2.1 (Or.inl (by decide)) sample_spaced.1 sample_spaced.2 sampleRows_eq (by
      have h : ∀ r ∈ sampleRows, 3/4 ≤ r.x ∧ r.x ≤ 21/4 ∧ 3/4 ≤ r.y ∧ r.y ≤ 17/4 := by decide +kernel
      intro r hr
      obtain ⟨h1, h2, h3, h4⟩ := h r hr
      exact slanted_foot h1 h2 h3 h4)

/-- One footprint, in the four cells around (2, 2): a quarter of the area, with four corners. -/
example : (convexClip (slanted (2, 2)) (cellRect sampleX sampleY 1 1)).map (fun q => (q.length, signedArea q)) =
    [(4, 5/16)] := by decide +kernel

/-- The files of the example of C94, with slanted footprints. -/
example : EnergyKept convexClip (fun _ _ _ => []) slanted sampleX sampleY 0 sampleLoc id {} 1 [(7, wideSample)]
    (fun g _ => g) "" (fun _ _ => []) := by
  obtain ⟨a1, a2, -, -⟩ := sample_axes
  obtain ⟨a3, a4⟩ := sample_spaced
  obtain ⟨w1, w2, w3, w4, w5, w6⟩ := wideSample_opened
  exact C94_convex_partial _ slanted sampleX sampleY 1 1 (3/4) (21/4) (3/4) (17/4) 0 sampleLoc id {} 1
    [(7, wideSample)] (fun g _ => g) "" (fun _ _ => []) a1 a2 (Or.inl (by decide)) (fun l => List.Perm.refl _)
    (by decide) a3 a4 (fun p h1 h2 h3 h4 => slanted_foot h1 h2 h3 h4) (by
      intro d hd _
      obtain rfl := List.mem_singleton.mp hd
      exact ⟨w1, w2, w3, w4, w5, w6, by decide +kernel⟩)

/-- The same file meets the hypotheses of `C93_convex_partial`. -/
example : PixelExact sampleLoc wideSample ∧
    ∀ e ∈ wideSample.events, ConvexFoot sampleX sampleY 1 1 (slanted (placeOf e)) := by
  refine ⟨by unfold PixelExact placeOf; decide +kernel, ?_⟩
  intro e he
  obtain rfl := List.mem_singleton.mp he
  exact slanted_foot (by norm_num [placeOf]) (by norm_num [placeOf]) (by norm_num [placeOf]) (by norm_num [placeOf])

end Verif.Props
