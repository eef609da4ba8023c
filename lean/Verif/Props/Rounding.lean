import Verif.Props.Convex
import Verif.Model.Scaling
import Verif.Proofs.Rounding

/-!
# C98: what rounding to integers does to the pieces

The theorems about clipping leave the clipper open.  The one of the code converts all coordinates to multiples of
`2⁻³¹`, towards zero, and rounds the corners of the intersection.
-/

namespace Verif.Props

open Verif.Py Verif.Model Verif.Spec Verif.Proofs

/-! ## Conversion of numbers -/

theorem scale_pos : (0 : Rat) < clipperScale := by norm_num [clipperScale]

theorem toClipper_near (v : Rat) : |(toClipper v : Rat) - v * clipperScale| ≤ 1 := by
  unfold toClipper
  split
  · have h1 := Int.floor_le (v * clipperScale)
    have h2 := Int.lt_floor_add_one (v * clipperScale)
    rw [abs_le]
    constructor <;> linarith
  · have h1 := Int.le_ceil (v * clipperScale)
    have h2 := Int.ceil_lt_add_one (v * clipperScale)
    rw [abs_le]
    constructor <;> linarith

theorem toClipper_mono {v w : Rat} (h : v ≤ w) : toClipper v ≤ toClipper w := by
  have hs := mul_le_mul_of_nonneg_right h scale_pos.le
  unfold toClipper
  split <;> split
  · exact Int.floor_mono hs
  · rename_i h1 h2; exact absurd (h1.trans h) h2
  · rename_i h1 h2
    have a : ⌈v * clipperScale⌉ ≤ 0 := by
      rw [Int.ceil_le]
      have := mul_nonpos_of_nonpos_of_nonneg (not_le.mp h1).le scale_pos.le
      simpa using this
    have b : 0 ≤ ⌊w * clipperScale⌋ := Int.floor_nonneg.mpr (mul_nonneg h2 scale_pos.le)
    exact a.trans b
  · exact Int.ceil_mono hs

/-- Numbers at least two units apart stay different. -/
theorem toClipper_strict {v w : Rat} (h : v + 2 / clipperScale ≤ w) : toClipper v < toClipper w := by
  have hs : v * clipperScale + 2 ≤ w * clipperScale := by
    have := mul_le_mul_of_nonneg_right h scale_pos.le
    rwa [add_mul, div_mul_cancel₀ _ scale_pos.ne'] at this
  unfold toClipper
  have h1 := Int.floor_le (v * clipperScale)
  have h2 := Int.lt_floor_add_one (w * clipperScale)
  have h3 := Int.ceil_lt_add_one (v * clipperScale)
  have h4 := Int.le_ceil (w * clipperScale)
  split <;> split
  all_goals
    rw [← Int.cast_lt (R := Rat)]
    linarith

/-- Multiples of the unit are not changed. -/
theorem toClipper_exact (n : Int) : toClipper (fromClipper n) = n := by
  unfold toClipper fromClipper
  rw [div_mul_cancel₀ _ scale_pos.ne']
  split <;> simp

theorem toClipper_zero : toClipper 0 = 0 := by simp [toClipper]

theorem signedArea_mul (c : Rat) (p : List Pt) :
    signedArea (p.map fun v => (v.1 * c, v.2 * c)) = signedArea p * c ^ 2 := by
  unfold signedArea
  rw [List.length_map, div_mul_eq_mul_div]
  congr 1
  rw [← List.sum_map_mul_right]
  congr 1
  apply List.map_congr_left
  intro k hk
  have hk := List.mem_range.mp hk
  have hk' : (k + 1) % p.length < p.length := Nat.mod_lt _ (by omega)
  simp only [List.getD_eq_getElem?_getD, List.getElem?_map, List.getElem?_eq_getElem hk,
    List.getElem?_eq_getElem hk', Option.map_some, Option.getD_some, cross]
  ring

theorem outlineLength_mul {c : Rat} (hc : 0 ≤ c) (p : List Pt) :
    outlineLength (p.map fun v => (v.1 * c, v.2 * c)) = outlineLength p * c := by
  unfold outlineLength
  rw [List.length_map, ← List.sum_map_mul_right]
  congr 1
  apply List.map_congr_left
  intro k hk
  have hk := List.mem_range.mp hk
  have hk' : (k + 1) % p.length < p.length := Nat.mod_lt _ (by omega)
  simp only [List.getD_eq_getElem?_getD, List.getElem?_map, List.getElem?_eq_getElem hk,
    List.getElem?_eq_getElem hk', Option.map_some, Option.getD_some]
  rw [← sub_mul, ← sub_mul, abs_mul, abs_mul, abs_of_nonneg hc, ← add_mul]

/-- The polygon that the clipper works on, in units of the clipper. -/
def rounded (p : Poly) : List Pt := ofInts (scaleToClipper p)

theorem rounded_near (p : Poly) :
    List.Forall₂ (Near 1) (p.map fun v => (v.1 * clipperScale, v.2 * clipperScale)) (rounded p) := by
  unfold rounded ofInts scaleToClipper
  rw [List.map_map, List.forall₂_map_left_iff, List.forall₂_map_right_iff, List.forall₂_same]
  exact fun v _ => ⟨toClipper_near v.1, toClipper_near v.2⟩

theorem rounded_length (p : Poly) : (rounded p).length = p.length := by
  simp [rounded, ofInts, scaleToClipper]

/-- The area that the clipper sees. -/
theorem rounded_area (p : Poly) :
    |signedArea (rounded p) - signedArea p * clipperScale ^ 2| ≤ outlineLength p * clipperScale + p.length := by
  have := area_near (rounded_near p)
  rw [signedArea_mul, outlineLength_mul scale_pos.le] at this
  simpa using this

/-- The length of the outline that the clipper sees. -/
theorem rounded_outline (p : Poly) :
    outlineLength (rounded p) ≤ outlineLength p * clipperScale + 4 * p.length := by
  rw [← outlineLength_mul scale_pos.le, outlineLength_loop, outlineLength_loop]
  have key : ∀ {l l' : List Pt}, List.Forall₂ (Near 1) l l' → ∀ {a a' : Pt}, Near 1 a a' →
      pathOf l1 a' l' ≤ pathOf l1 a l + 4 * l.length := by
    intro l l' h
    induction h with
    | nil => intro a a' _; simp [pathOf]
    | @cons b b' l l' hb _ ih =>
      intro a a' ha
      have := ih hb
      simp only [pathOf, List.length_cons]
      push_cast
      have h1 := l1_triangle a' a b'
      have h2 := l1_triangle a b b'
      have h3 : l1 a' a ≤ 2 := by rw [l1_comm]; exact (add_le_add ha.1 ha.2).trans (by norm_num)
      have h4 : l1 b b' ≤ 2 := (add_le_add hb.1 hb.2).trans (by norm_num)
      linarith
  have hn := rounded_near p
  have hlen : ((p.map fun v => (v.1 * clipperScale, v.2 * clipperScale)).length : Rat) = p.length := by simp
  generalize (p.map fun v => (v.1 * clipperScale, v.2 * clipperScale)) = q at hn hlen
  rw [← hlen]
  cases hz : q.getLast? with
  | none =>
    rw [List.getLast?_eq_none_iff] at hz
    subst hz
    generalize rounded p = r at hn
    cases hn
    simp [loopOf]
  | some z =>
    generalize rounded p = r at hn
    cases hz' : r.getLast? with
    | none =>
      rw [List.getLast?_eq_none_iff] at hz'
      subst hz'
      cases hn
      simp at hz
    | some z' =>
      have hzz : Near 1 z z' := forall₂_last hn hz hz'
      unfold loopOf
      rw [hz, hz']
      exact key hn hzz

/-! ## The pieces of a footprint -/

theorem scaleFrom_area (q : IPoly) : signedArea (scaleFromClipper q) = signedArea (ofInts q) / clipperScale ^ 2 := by
  have e : scaleFromClipper q = (ofInts q).map fun v => (v.1 * clipperScale⁻¹, v.2 * clipperScale⁻¹) := by
    unfold scaleFromClipper ofInts
    rw [List.map_map]
    apply List.map_congr_left
    intro v _
    simp [fromClipper, div_eq_mul_inv]
  rw [e, signedArea_mul, inv_pow, div_eq_mul_inv]

theorem scaled_areaInCell (iclip : IPoly → IPoly → List IPoly) (x y : List Rat) (p : Poly) (i j : Nat) :
    areaInCell (scaledClip iclip) x y p i j =
      ((iclip (scaleToClipper p) (intRect (toClipper (x.getD i 0)) (toClipper (y.getD j 0))
        (toClipper (x.getD (i + 1) 0)) (toClipper (y.getD (j + 1) 0)))).map fun q =>
          |signedArea (ofInts q)|).sum / clipperScale ^ 2 := by
  unfold areaInCell scaledClip
  rw [List.map_map, div_eq_mul_inv, ← List.sum_map_mul_right]
  congr 1
  apply List.map_congr_left
  intro q _
  simp only [Function.comp]
  rw [scaleFrom_area, abs_div, abs_of_nonneg (a := clipperScale ^ 2) (by have := scale_pos; positivity),
    div_eq_mul_inv]

/-- The edges of the grid, as the clipper sees them. -/
def scaledEdges (x : List Rat) : List Rat := x.map fun v => (toClipper v : Rat)

theorem scaledEdges_getD (x : List Rat) (k : Nat) : (scaledEdges x).getD k 0 = toClipper (x.getD k 0) := by
  unfold scaledEdges
  simp only [List.getD_eq_getElem?_getD, List.getElem?_map]
  cases x[k]? with
  | none => simp [toClipper_zero]
  | some v => rfl

theorem scaledEdges_lt {x : List Rat} {dx : Rat} (ux : Spaced x dx) (hd : 2 / clipperScale ≤ dx) {k : Nat}
    (hk : k + 1 < (scaledEdges x).length) : (scaledEdges x).getD k 0 < (scaledEdges x).getD (k + 1) 0 := by
  rw [scaledEdges_getD, scaledEdges_getD]
  have hl : (scaledEdges x).length = x.length := by simp [scaledEdges]
  rw [hl] at hk
  have h := toClipper_strict (v := x.getD k 0) (w := x.getD (k + 1) 0) (by
    linarith [ux.2 k hk])
  exact_mod_cast h

theorem mem_rounded {p : Poly} {w : Pt} (h : w ∈ rounded p) :
    ∃ v ∈ p, w = ((toClipper v.1 : Rat), (toClipper v.2 : Rat)) := by
  unfold rounded ofInts scaleToClipper at h
  rw [List.map_map] at h
  obtain ⟨v, hv, rfl⟩ := List.mem_map.mp h
  exact ⟨v, hv, rfl⟩

/-- The part of the rounded footprint in the rounded cell. -/
def roundedPart (x y : List Rat) (p : Poly) (i j : Nat) : Rat :=
  signedArea (cutRect (counterclockwise (rounded p)) (toClipper (x.getD i 0)) (toClipper (y.getD j 0))
    (toClipper (x.getD (i + 1) 0)) (toClipper (y.getD (j + 1) 0)))

/-- The rounded cells tile the rounded footprint. -/
theorem rounded_tiled {x y : List Rat} {dx dy : Rat} (hx : AxisOk x) (hy : AxisOk y) (ux : Spaced x dx)
    (uy : Spaced y dy) (hdx : 2 / clipperScale ≤ dx) (hdy : 2 / clipperScale ≤ dy) {p : Poly}
    (h : ConvexFoot x y dx dy p) (hc : ConvexPoly (rounded p)) (ha : signedArea (rounded p) ≠ 0) :
    ((List.range (x.length - 1)).map fun i => ((List.range (y.length - 1)).map fun j =>
      roundedPart x y p i j).sum).sum = |signedArea (rounded p)| := by
  obtain ⟨-, h2⟩ := counterclockwise_ok hc ha
  rw [← h2]
  have := hx.2
  have := hy.2
  have lx : (scaledEdges x).length = x.length := by simp [scaledEdges]
  have ly : (scaledEdges y).length = y.length := by simp [scaledEdges]
  have key := cells_sum (x := scaledEdges x) (y := scaledEdges y) (fun k hk => scaledEdges_lt ux hdx hk)
    (fun k hk => scaledEdges_lt uy hdy hk) (by omega) (by omega) (p := counterclockwise (rounded p)) (by
      intro w hw
      obtain ⟨v, hv, rfl⟩ := mem_rounded (mem_counterclockwise.mp hw)
      obtain ⟨o1, o2, o3, o4⟩ := h.onGrid v hv
      rw [lx, ly]
      simp only [scaledEdges_getD, Int.cast_le]
      exact ⟨toClipper_mono o1, toClipper_mono o2, toClipper_mono o3, toClipper_mono o4⟩)
  rw [lx, ly] at key
  simp only [scaledEdges_getD] at key
  exact key

theorem rounded_beside {x y : List Rat} {p : Poly} {i j : Nat} (h : Beside x y p i j) :
    roundedPart x y p i j = 0 := by
  unfold roundedPart
  apply cutRect_beside
  simp only [mem_counterclockwise]
  have all : ∀ {P : Pt → Prop}, (∀ v ∈ p, P ((toClipper v.1 : Rat), (toClipper v.2 : Rat))) →
      ∀ w ∈ rounded p, P w := by
    intro P hP w hw
    obtain ⟨v, hv, rfl⟩ := mem_rounded hw
    exact hP v hv
  rcases h with h | h | h | h
  · exact Or.inl (all fun v hv => Int.cast_le.mpr (toClipper_mono (h v hv)))
  · exact Or.inr (Or.inl (all fun v hv => Int.cast_le.mpr (toClipper_mono (h v hv))))
  · exact Or.inr (Or.inr (Or.inl (all fun v hv => Int.cast_le.mpr (toClipper_mono (h v hv)))))
  · exact Or.inr (Or.inr (Or.inr (all fun v hv => Int.cast_le.mpr (toClipper_mono (h v hv)))))

theorem sum_near {β : Type} (l : List β) (f g : β → Rat) {τ : Rat} (h : ∀ b ∈ l, |f b - g b| ≤ τ) :
    |(l.map f).sum - (l.map g).sum| ≤ l.length * τ := by
  induction l with
  | nil => simp
  | cons b l ih =>
    simp only [List.map_cons, List.sum_cons, List.length_cons]
    have h1 := h b List.mem_cons_self
    have h2 := ih fun b hb => h b (List.mem_cons_of_mem _ hb)
    have h3 := abs_add_le (f b - g b) ((l.map f).sum - (l.map g).sum)
    rw [show f b - g b + ((l.map f).sum - (l.map g).sum) = f b + (l.map f).sum - (g b + (l.map g).sum) by ring] at h3
    push_cast
    linarith

/-- **C98**, one footprint: the areas of all pieces that are found sum to the area of the footprint, up to the length
of its outline in units of `2⁻³¹`, one square unit for every corner, and 25 times the error of the clipper. -/
theorem C98_footprint (query : List Pt → Pt → Nat → List Nat) {iclip : IPoly → IPoly → List IPoly}
    {τ : Nat → Rat → Rat} (hτ : ClipsWithin iclip τ) (τ0 : ∀ n ℓ, 0 ≤ ℓ → 0 ≤ τ n ℓ) {x y : List Rat} {dx dy : Rat}
    (hx : AxisOk x) (hy : AxisOk y) (hsz : 2 < x.length ∨ 2 < y.length)
    (ux : Spaced x dx) (uy : Spaced y dy) (hdx : 2 / clipperScale ≤ dx) (hdy : 2 / clipperScale ≤ dy) {p : Poly}
    (h : ConvexFoot x y dx dy p) (hc : ConvexPoly (rounded p)) (ha : signedArea (rounded p) ≠ 0) :
    |coveredArea (scaledClip iclip) query (gridMesh x y) p - abs (signedArea p)| ≤
      outlineLength p / clipperScale +
        (p.length + 25 * τ p.length (outlineLength (rounded p))) / clipperScale ^ 2 := by
  obtain ⟨C, hC, ⟨w1, w2, w3, w4⟩, hcount, hfound⟩ := convex_found query hx hy hsz ux uy h
  have hcov : coveredArea (scaledClip iclip) query (gridMesh x y) p =
      ((C.xi.zip C.yi).map fun rk => areaInCell (scaledClip iclip) x y p rk.2 rk.1).sum := by
    unfold coveredArea
    rw [hC]
    simp only
    rw [w4, List.flatMap_def, List.map_map, List.map_flatten, List.sum_flatten, List.map_map, List.map_map]
    rfl
  have htile : ((C.xi.zip C.yi).map fun rk => roundedPart x y p rk.2 rk.1).sum = |signedArea (rounded p)| := by
    rw [← rounded_tiled hx hy ux uy hdx hdy h hc ha, list_sum_finset w2,
      Finset.sum_subset (s₂ := Finset.range (y.length - 1) ×ˢ Finset.range (x.length - 1))]
    · rw [Finset.sum_product, Finset.sum_comm, range_sum]
      apply Finset.sum_congr rfl
      intro i _
      rw [range_sum]
    · intro rk hrk
      rw [List.mem_toFinset] at hrk
      have := w3 rk.1 rk.2 hrk
      rw [Finset.mem_product, Finset.mem_range, Finset.mem_range]
      omega
    · intro rk hrk hn
      rw [Finset.mem_product, Finset.mem_range, Finset.mem_range] at hrk
      rw [List.mem_toFinset] at hn
      by_contra hne
      exact hn (hfound rk.2 rk.1 (by omega) (by omega) fun hb => hne (rounded_beside hb))
  have hS := scale_pos
  have hS2 : 0 < clipperScale ^ 2 := by positivity
  have hL : 0 ≤ outlineLength (rounded p) := by
    unfold outlineLength
    apply List.sum_nonneg
    intro v hv
    obtain ⟨k, -, rfl⟩ := List.mem_map.mp hv
    positivity
  have hT := τ0 p.length _ hL
  have hsum := sum_near (C.xi.zip C.yi) (fun rk => areaInCell (scaledClip iclip) x y p rk.2 rk.1 * clipperScale ^ 2)
    (fun rk => roundedPart x y p rk.2 rk.1) (τ := τ p.length (outlineLength (rounded p))) (by
      intro rk hrk
      have hb := w3 rk.1 rk.2 hrk
      rw [scaled_areaInCell, div_mul_cancel₀ _ hS2.ne']
      have sx := ux.1
      have sy := uy.1
      have hl : (scaleToClipper p).length = p.length := by simp [scaleToClipper]
      have := hτ (scaleToClipper p) (toClipper (x.getD rk.2 0)) (toClipper (y.getD rk.1 0))
        (toClipper (x.getD (rk.2 + 1) 0)) (toClipper (y.getD (rk.1 + 1) 0)) hc ha
        (toClipper_mono (getD_lt_of_lt hx.1 (show rk.2 < rk.2 + 1 by omega) hb.2).le)
        (toClipper_mono (getD_lt_of_lt hy.1 (show rk.1 < rk.1 + 1 by omega) hb.1).le)
      rw [hl] at this
      exact this)
  rw [List.sum_map_mul_right, ← hcov, htile] at hsum
  have hnum : ((C.xi.zip C.yi).length : Rat) * τ p.length (outlineLength (rounded p)) ≤
      25 * τ p.length (outlineLength (rounded p)) := by
    apply mul_le_mul_of_nonneg_right _ hT
    exact_mod_cast hcount
  have hr := rounded_area p
  have hr2 := abs_abs_sub_abs_le (signedArea (rounded p)) (signedArea p * clipperScale ^ 2)
  rw [abs_mul, abs_of_nonneg hS2.le] at hr2
  have htot : |(coveredArea (scaledClip iclip) query (gridMesh x y) p - |signedArea p|) * clipperScale ^ 2| ≤
      outlineLength p * clipperScale + p.length + 25 * τ p.length (outlineLength (rounded p)) := by
    have h3 := abs_add_le
      (coveredArea (scaledClip iclip) query (gridMesh x y) p * clipperScale ^ 2 - |signedArea (rounded p)|)
      (|signedArea (rounded p)| - |signedArea p| * clipperScale ^ 2)
    rw [show coveredArea (scaledClip iclip) query (gridMesh x y) p * clipperScale ^ 2 - |signedArea (rounded p)| +
      (|signedArea (rounded p)| - |signedArea p| * clipperScale ^ 2) =
      (coveredArea (scaledClip iclip) query (gridMesh x y) p - |signedArea p|) * clipperScale ^ 2 by ring] at h3
    linarith
  rw [abs_mul, abs_of_nonneg hS2.le, ← le_div_iff₀ hS2] at htot
  refine htot.trans (le_of_eq ?_)
  field_simp
  ring

/-! ## Convexity survives the rounding -/

theorem cross_moved {a b c d α β γ δ S : Rat} (hS : 0 ≤ S) (h1 : |α| ≤ 2) (h2 : |β| ≤ 2) (h3 : |γ| ≤ 2) (h4 : |δ| ≤ 2)
    (h : 2 * S * (|a| + |b| + |c| + |d|) + 8 ≤ S ^ 2 * (a * d - c * b)) :
    0 ≤ (S * a + α) * (S * d + δ) - (S * c + γ) * (S * b + β) := by
  have m : ∀ {u v : Rat}, |v| ≤ 2 → -(2 * |u|) ≤ u * v ∧ u * v ≤ 2 * |u| := by
    intro u v hv
    have e : |u * v| ≤ 2 * |u| := by
      rw [abs_mul, mul_comm]
      exact mul_le_mul_of_nonneg_right hv (abs_nonneg u)
    exact abs_le.mp e
  have k1 := mul_le_mul_of_nonneg_left (m (u := a) h4).1 hS
  have k2 := mul_le_mul_of_nonneg_left (m (u := d) h1).1 hS
  have k3 := mul_le_mul_of_nonneg_left (m (u := b) h3).2 hS
  have k4 := mul_le_mul_of_nonneg_left (m (u := c) h2).2 hS
  have k5 := (m (u := α) h4).1
  have k6 := (m (u := β) h3).2
  nlinarith

theorem rounded_getD (p : Poly) (k : Nat) :
    (rounded p).getD k (0, 0) = ((toClipper (p.getD k (0, 0)).1 : Rat), (toClipper (p.getD k (0, 0)).2 : Rat)) := by
  unfold rounded ofInts scaleToClipper
  simp only [List.getD_eq_getElem?_getD, List.getElem?_map]
  cases p[k]? with
  | none => simp [toClipper_zero]
  | some v => rfl

theorem toClipper_diff (v w : Rat) :
    ∃ e, |e| ≤ 2 ∧ (toClipper w : Rat) - toClipper v = clipperScale * (w - v) + e := by
  refine ⟨(toClipper w - w * clipperScale) - (toClipper v - v * clipperScale), ?_, by ring⟩
  have h1 := abs_le.mp (toClipper_near v)
  have h2 := abs_le.mp (toClipper_near w)
  rw [abs_le]
  constructor <;> linarith [h1.1, h1.2, h2.1, h2.2]

theorem rounded_ccw {p : Poly} (h : ClearlyCcw (1 / clipperScale) p) : ConvexCcw (rounded p) := by
  intro k hk r hr
  rw [rounded_length] at hk ⊢
  obtain ⟨j, hj, rfl⟩ := List.mem_iff_getElem.mp hr
  rw [rounded_length] at hj
  have e : (rounded p)[j] = (rounded p).getD j (0, 0) := by
    rw [List.getD_eq_getElem?_getD, List.getElem?_eq_getElem (by rw [rounded_length]; exact hj), Option.getD_some]
  rw [e]
  by_cases h1 : j = k
  · subst h1; simp [cross]
  by_cases h2 : j = (k + 1) % p.length
  · subst h2; simp only [cross]; apply le_of_eq; ring
  have hm := h k hk j hj h1 h2
  simp only [rounded_getD, cross] at hm ⊢
  obtain ⟨e1, g1, q1⟩ := toClipper_diff (p.getD k (0, 0)).1 (p.getD ((k + 1) % p.length) (0, 0)).1
  obtain ⟨e2, g2, q2⟩ := toClipper_diff (p.getD k (0, 0)).2 (p.getD ((k + 1) % p.length) (0, 0)).2
  obtain ⟨e3, g3, q3⟩ := toClipper_diff (p.getD k (0, 0)).1 (p.getD j (0, 0)).1
  obtain ⟨e4, g4, q4⟩ := toClipper_diff (p.getD k (0, 0)).2 (p.getD j (0, 0)).2
  rw [q1, q2, q3, q4]
  apply cross_moved scale_pos.le g1 g2 g3 g4
  have hS := scale_pos
  have := mul_le_mul_of_nonneg_left hm (show 0 ≤ clipperScale ^ 2 by positivity)
  refine le_trans (le_of_eq ?_) this
  field_simp

theorem rounded_reverse (p : Poly) : rounded p.reverse = (rounded p).reverse := by
  simp [rounded, ofInts, scaleToClipper]

theorem rounded_convex {p : Poly} (h : ClearlyConvex (1 / clipperScale) p) : ConvexPoly (rounded p) := by
  rcases h with h | h
  · exact Or.inl (rounded_ccw h)
  · refine Or.inr ?_
    rw [← rounded_reverse]
    exact rounded_ccw h

theorem clearlyCcw_ccw {δ : Rat} (hδ : 0 ≤ δ) {p : Poly} (h : ClearlyCcw δ p) : ConvexCcw p := by
  intro k hk r hr
  obtain ⟨j, hj, rfl⟩ := List.mem_iff_getElem.mp hr
  have e : p[j] = p.getD j (0, 0) := by
    rw [List.getD_eq_getElem?_getD, List.getElem?_eq_getElem hj, Option.getD_some]
  rw [e]
  by_cases h1 : j = k
  · subst h1; simp [cross]
  by_cases h2 : j = (k + 1) % p.length
  · subst h2; simp only [cross]; apply le_of_eq; ring
  exact le_trans (by positivity) (h k hk j hj h1 h2)

theorem clearly_convex {δ : Rat} (hδ : 0 ≤ δ) {p : Poly} (h : ClearlyConvex δ p) : ConvexPoly p :=
  h.imp (clearlyCcw_ccw hδ) (clearlyCcw_ccw hδ)

/-! ## What a user sees -/

/-- How much area may be gained or lost, for a clipper with the error `τ`. -/
def areaError (τ : Nat → Rat → Rat) (p : Poly) : Rat :=
  outlineLength p / clipperScale + (p.length + 25 * τ p.length (outlineLength (rounded p))) / clipperScale ^ 2

/-- A footprint on the grid, no wider than four cells, convex by more than the unit of the clipper, and large enough
for the error to be at most the part `ε` of its area. -/
structure FootWithin (τ : Nat → Rat → Rat) (ε : Rat) (x y : List Rat) (dx dy : Rat) (p : Poly) : Prop where
  clear : ClearlyConvex (1 / clipperScale) p
  area : signedArea p ≠ 0
  onGrid : ∀ v ∈ p, x.getD 0 0 ≤ v.1 ∧ v.1 ≤ x.getD (x.length - 1) 0 ∧
    y.getD 0 0 ≤ v.2 ∧ v.2 ≤ y.getD (y.length - 1) 0
  narrow : ∀ v ∈ p, |v.1 - (p.map Prod.fst).sum / p.length| ≤ 2 * dx ∧
    |v.2 - (p.map Prod.snd).sum / p.length| ≤ 2 * dy
  large : areaError τ p ≤ ε * |signedArea p|

theorem FootWithin.foot {τ : Nat → Rat → Rat} {ε : Rat} {x y : List Rat} {dx dy : Rat} {p : Poly}
    (h : FootWithin τ ε x y dx dy p) : ConvexFoot x y dx dy p :=
  ⟨clearly_convex (by have := scale_pos; positivity) h.clear, h.area, h.onGrid, h.narrow⟩

theorem outlineLength_nonneg (p : List Pt) : 0 ≤ outlineLength p := by
  unfold outlineLength
  apply List.sum_nonneg
  intro v hv
  obtain ⟨k, -, rfl⟩ := List.mem_map.mp hv
  positivity

theorem FootWithin.rounded_area_ne {τ : Nat → Rat → Rat} (τ0 : ∀ n ℓ, 0 ≤ ℓ → 0 ≤ τ n ℓ) {ε : Rat} (hε : ε < 1)
    {x y : List Rat} {dx dy : Rat} {p : Poly} (h : FootWithin τ ε x y dx dy p) : signedArea (rounded p) ≠ 0 := by
  intro h0
  have h1 := rounded_area p
  have hS := scale_pos
  have hS2 : 0 < clipperScale ^ 2 := by positivity
  rw [h0, zero_sub, abs_neg, abs_mul, abs_of_pos hS2] at h1
  have h2 := h.large
  have hA := abs_pos.mpr h.area
  have hT := τ0 p.length _ (outlineLength_nonneg (rounded p))
  unfold areaError at h2
  have h3 := mul_le_mul_of_nonneg_right h2 hS2.le
  have e : (outlineLength p / clipperScale + (p.length + 25 * τ p.length (outlineLength (rounded p))) /
      clipperScale ^ 2) * clipperScale ^ 2 =
      outlineLength p * clipperScale + (p.length + 25 * τ p.length (outlineLength (rounded p))) := by
    field_simp
  rw [e] at h3
  have h4 : 0 < (1 - ε) * (|signedArea p| * clipperScale ^ 2) :=
    mul_pos (by linarith) (mul_pos hA hS2)
  nlinarith

theorem C98_area (query : List Pt → Pt → Nat → List Nat) {iclip : IPoly → IPoly → List IPoly}
    {τ : Nat → Rat → Rat} (hτ : ClipsWithin iclip τ) (τ0 : ∀ n ℓ, 0 ≤ ℓ → 0 ≤ τ n ℓ) {ε : Rat} (hε : ε < 1)
    {x y : List Rat} {dx dy : Rat} (hx : AxisOk x) (hy : AxisOk y) (hsz : 2 < x.length ∨ 2 < y.length)
    (ux : Spaced x dx) (uy : Spaced y dy) (hdx : 2 / clipperScale ≤ dx) (hdy : 2 / clipperScale ≤ dy) {p : Poly}
    (h : FootWithin τ ε x y dx dy p) :
    |coveredArea (scaledClip iclip) query (gridMesh x y) p / |signedArea p| - 1| ≤ ε := by
  have hA := abs_pos.mpr h.area
  have key := (C98_footprint query hτ τ0 hx hy hsz ux uy hdx hdy h.foot (rounded_convex h.clear)
    (h.rounded_area_ne τ0 hε)).trans h.large
  rw [show coveredArea (scaledClip iclip) query (gridMesh x y) p / |signedArea p| - 1 =
    (coveredArea (scaledClip iclip) query (gridMesh x y) p - |signedArea p|) / |signedArea p| by
      rw [sub_div, div_self hA.ne'], abs_div, abs_abs, div_le_iff₀ hA]
  exact key

/-- **C98**: if every footprint is large enough for the rounding of the clipper to be at most the part `ε` of its area,
the energy on the grid differs by at most the part `ε` from the energy of the events. -/
theorem C98_energy (query : List Pt → Pt → Nat → List Nat) (iclip : IPoly → IPoly → List IPoly)
    (τ : Nat → Rat → Rat) (hτ : ClipsWithin iclip τ) (τ0 : ∀ n ℓ, 0 ≤ ℓ → 0 ≤ τ n ℓ)
    (hne : ∀ p q s, s ∈ iclip p q → s ≠ []) (ε : Rat) (hε : ε < 1) (foot : Pt → Poly)
    (x y : List Rat) (dx dy : Rat) (t basedate : Int) (loc : Rat → Rat → Int) (d : GFile) (rows : List LutRow)
    (hx : AxisOk x) (hy : AxisOk y) (hsz : 2 < x.length ∨ 2 < y.length)
    (ux : Spaced x dx) (uy : Spaced y dy) (hdx : 2 / clipperScale ≤ dx) (hdy : 2 / clipperScale ≤ dy)
    (he : ∀ e ∈ d.events, 0 ≤ e.val.energy) (hrows : getLutevents t loc d = .ok rows)
    (hin : ∀ r ∈ rows, FootWithin τ ε x y dx dy (foot (r.x, r.y))) :
    ∃ fake, fastFixedGridReadChunk (scaledClip iclip) query (fun pts => pts.map foot) (gridMesh x y) t basedate loc d =
        .ok (some fake) ∧
      |(fake.children.map LmaEvent.power).sum - (d.events.map fun e => e.val.energy).sum| ≤
        ε * (d.events.map fun e => e.val.energy).sum := by
  have hrne : rows ≠ [] := by
    rintro rfl
    have h0 := lut_ids hrows
    have : d.events ≠ [] := by
      intro he
      unfold getLutevents at hrows
      rw [if_pos (Or.inl he)] at hrows
      cases hrows
    rw [List.map_nil] at h0
    have := npUnique_eq_nil.mp h0.symm
    simp at this
    contradiction
  have hcov : ∀ r ∈ rows, |coveredArea (scaledClip iclip) query (gridMesh x y) (foot (r.x, r.y)) /
      |signedArea (foot (r.x, r.y))| - 1| ≤ ε := fun r hr =>
    C98_area query hτ τ0 hε hx hy hsz ux uy hdx hdy (hin r hr)
  have hclip : ∀ p q s, s ∈ scaledClip iclip p q → s ≠ [] := by
    intro p q s hs
    unfold scaledClip at hs
    obtain ⟨s', hs', rfl⟩ := List.mem_map.mp hs
    simpa [scaleFromClipper] using hne _ _ _ hs'
  obtain ⟨fake, h1, h2⟩ := C28_chunk (scaledClip iclip) query (fun pts => pts.map foot) x y t basedate loc d rows
    ((rows.map fun r => (r.x, r.y)).map foot) hx hy hsz hclip hrows rfl (by simp) (by
      intro p hp
      rw [List.map_map] at hp
      obtain ⟨r, hr, rfl⟩ := List.mem_map.mp hp
      exact (hin r hr).foot.ne_nil) (by
      obtain ⟨r, hr⟩ := List.exists_mem_of_ne_nil _ hrne
      refine ⟨foot (r.x, r.y), List.mem_map.mpr ⟨(r.x, r.y), List.mem_map.mpr ⟨r, hr, rfl⟩, rfl⟩, ?_⟩
      intro h0
      have := hcov r hr
      rw [h0, zero_div, zero_sub, abs_neg, abs_one] at this
      linarith)
  refine ⟨fake, h1, ?_⟩
  obtain ⟨-, -, hst, hsum, -⟩ := C17_conservation hrows
  rw [h2, ← hsum, List.map_map, List.zip_map_left, List.map_map]
  have hpos : ∀ r ∈ rows, 0 ≤ r.energy := by
    intro r hr
    rw [(hst r hr).2.energy]
    apply List.sum_nonneg
    intro v hv
    obtain ⟨e, hev, rfl⟩ := List.mem_map.mp hv
    exact he e (List.mem_filter.mp hev).1
  clear h1 h2 hst hsum hrows hin hrne
  induction rows with
  | nil => simp
  | cons r rows ih =>
    have i1 := ih (fun r hr => hcov r (List.mem_cons_of_mem _ hr)) (fun r hr => hpos r (List.mem_cons_of_mem _ hr))
    have i2 := hcov r List.mem_cons_self
    have i3 := hpos r List.mem_cons_self
    simp only [List.zip_cons_cons, List.map_cons, List.sum_cons]
    simp only [Function.comp, Prod.map, id] at i1 ⊢
    set q := coveredArea (scaledClip iclip) query (gridMesh x y) (foot (r.x, r.y)) / |signedArea (foot (r.x, r.y))|
    have i4 : |r.energy * (q - 1)| ≤ ε * r.energy := by
      rw [abs_mul, abs_of_nonneg i3, mul_comm]
      exact mul_le_mul_of_nonneg_right i2 i3
    refine le_trans (le_of_eq ?_) ((abs_add_le _ _).trans (le_trans (add_le_add i4 i1) (le_of_eq ?_)))
    · congr 1; ring
    · ring

/-- When the debug message about uncovered area is logged. -/
theorem C98_message (clip : Poly → Poly → List Poly) (query : List Pt → Pt → Nat → List Nat) (x y : List Rat)
    (hx : AxisOk x) (hy : AxisOk y) (hsz : 2 < x.length ∨ 2 < y.length) (hclip : ∀ p q s, s ∈ clip p q → s ≠ [])
    (p : Poly) (hp : p ≠ []) :
    ∃ c s, candidatesFor query (gridMesh x y) .none p = .ok c ∧ makeSubPolys clip p |signedArea p| c = .ok s ∧
      (notCoveredMessage s = true ↔
        1 / 1000 < |coveredArea clip query (gridMesh x y) p / |signedArea p| - 1|) := by
  obtain ⟨C, hC, ⟨⟨w1, w2, w3, w4⟩, -⟩, -, -⟩ :=
    grid_candidates query hx hy (bbox := .none) (Or.inl ⟨rfl, hsz⟩) p hp
  have hl : C.quads.length = (C.xi.zip C.yi).length := by rw [w4, List.length_map]
  obtain ⟨s, hs, hal, hrows⟩ := makeSubPolys_rows (clip := clip) (p := p) (c := C) (by
    rw [hl, List.length_zip, w1, min_self]) w1
    fun q _ s hs => hclip p q s hs
  refine ⟨C, s, hC, hs, ?_⟩
  have hf : s.fracs.sum = coveredArea clip query (gridMesh x y) p / |signedArea p| := by
    rw [← rows_fracs hal, hrows, piecesIn_fracs _ _ _ _ hl]
    unfold coveredArea
    rw [hC]
  unfold notCoveredMessage
  rw [decide_eq_true_eq, hf]
  set q := coveredArea clip query (gridMesh x y) p / |signedArea p|
  rw [show q * 100 - 100 = (q - 1) * 100 by ring, abs_mul, abs_of_pos (show (0 : Rat) < 100 by norm_num)]
  constructor <;> intro h <;> linarith

theorem C98_silent (query : List Pt → Pt → Nat → List Nat) (iclip : IPoly → IPoly → List IPoly)
    (τ : Nat → Rat → Rat) (hτ : ClipsWithin iclip τ) (τ0 : ∀ n ℓ, 0 ≤ ℓ → 0 ≤ τ n ℓ)
    (hne : ∀ p q s, s ∈ iclip p q → s ≠ []) (x y : List Rat) (dx dy : Rat)
    (hx : AxisOk x) (hy : AxisOk y) (hsz : 2 < x.length ∨ 2 < y.length)
    (ux : Spaced x dx) (uy : Spaced y dy) (hdx : 2 / clipperScale ≤ dx) (hdy : 2 / clipperScale ≤ dy)
    (p : Poly) (h : FootWithin τ (1 / 1000) x y dx dy p) :
    ∃ c s, candidatesFor query (gridMesh x y) .none p = .ok c ∧
      makeSubPolys (scaledClip iclip) p |signedArea p| c = .ok s ∧ notCoveredMessage s = false := by
  obtain ⟨c, s, h1, h2, h3⟩ := C98_message (scaledClip iclip) query x y hx hy hsz (by
    intro p q s hs
    unfold scaledClip at hs
    obtain ⟨s', hs', rfl⟩ := List.mem_map.mp hs
    simpa [scaleFromClipper] using hne _ _ _ hs') p h.foot.ne_nil
  refine ⟨c, s, h1, h2, ?_⟩
  rw [Bool.eq_false_iff]
  intro hm
  exact absurd (C98_area query hτ τ0 (by norm_num) hx hy hsz ux uy hdx hdy h) (not_le.mpr (h3.mp hm))

/-! ### A clipper that rounds corners to the nearest integers -/

theorem roundClip_ne_nil (p q s : IPoly) (h : s ∈ roundClip p q) : s ≠ [] := by
  unfold roundClip at h
  obtain ⟨s', hs', rfl⟩ := List.mem_map.mp h
  simpa using convexClip_ne_nil _ _ _ hs'

/-- With that clipper, the error is at most 13.5 units of length for the outline and 151 square units for each
corner. -/
theorem roundClip_error (p : Poly) : areaError (fun n ℓ => ℓ / 2 + 4 * n) p ≤
    27 / 2 * outlineLength p / clipperScale + 151 * p.length / clipperScale ^ 2 := by
  have hS := scale_pos
  have hS2 : 0 < clipperScale ^ 2 := by positivity
  have h1 := rounded_outline p
  unfold areaError
  have e : outlineLength p / clipperScale + (p.length + 25 * ((outlineLength p * clipperScale + 4 * p.length) / 2 +
      4 * p.length)) / clipperScale ^ 2 =
      27 / 2 * outlineLength p / clipperScale + 151 * p.length / clipperScale ^ 2 := by
    field_simp
    ring
  rw [← e]
  simp only
  gcongr

/-- C98 with that clipper, with nothing assumed of clipper and search. -/
theorem C98_rounded (query : List Pt → Pt → Nat → List Nat) (ε : Rat) (hε : ε < 1) (foot : Pt → Poly)
    (x y : List Rat) (dx dy : Rat) (t basedate : Int) (loc : Rat → Rat → Int) (d : GFile) (rows : List LutRow)
    (hx : AxisOk x) (hy : AxisOk y) (hsz : 2 < x.length ∨ 2 < y.length)
    (ux : Spaced x dx) (uy : Spaced y dy) (hdx : 2 / clipperScale ≤ dx) (hdy : 2 / clipperScale ≤ dy)
    (he : ∀ e ∈ d.events, 0 ≤ e.val.energy) (hrows : getLutevents t loc d = .ok rows)
    (hin : ∀ r ∈ rows, ClearlyConvex (1 / clipperScale) (foot (r.x, r.y)) ∧
      ConvexFoot x y dx dy (foot (r.x, r.y)) ∧
      27 / 2 * outlineLength (foot (r.x, r.y)) / clipperScale + 151 * (foot (r.x, r.y)).length / clipperScale ^ 2 ≤
        ε * |signedArea (foot (r.x, r.y))|) :
    ∃ fake, fastFixedGridReadChunk (scaledClip roundClip) query (fun pts => pts.map foot) (gridMesh x y) t basedate
        loc d = .ok (some fake) ∧
      |(fake.children.map LmaEvent.power).sum - (d.events.map fun e => e.val.energy).sum| ≤
        ε * (d.events.map fun e => e.val.energy).sum :=
  C98_energy query roundClip _ roundClip_within (fun n ℓ h => by positivity) roundClip_ne_nil ε hε foot x y dx dy t
    basedate loc d rows hx hy hsz ux uy hdx hdy he hrows fun r hr => by
      obtain ⟨h1, h2, h3⟩ := hin r hr
      exact ⟨h1, h2.area, h2.onGrid, h2.narrow, (roundClip_error _).trans h3⟩

/-- There and back, every coordinate moves by at most one unit, and not at all if it is a multiple of the unit. -/
theorem C98_coordinates (v : Rat) :
    |fromClipper (toClipper v) - v| ≤ 1 / clipperScale ∧
    (∀ n : Int, v = n / clipperScale → fromClipper (toClipper v) = v) ∧
    |fromClipper (toClipper v)| ≤ |v| := by
  have hS := scale_pos
  refine ⟨?_, ?_, ?_⟩
  · have h := toClipper_near v
    unfold fromClipper
    rw [show (toClipper v : Rat) / clipperScale - v = (toClipper v - v * clipperScale) / clipperScale by
      field_simp, abs_div, abs_of_pos hS]
    gcongr
  · rintro n rfl
    have := toClipper_exact n
    unfold fromClipper at this
    rw [this]
    rfl
  · unfold fromClipper
    rw [abs_div, abs_of_pos hS, div_le_iff₀ hS, ← abs_of_pos hS, ← abs_mul]
    unfold toClipper
    split
    · rename_i h
      have h0 : 0 ≤ v * clipperScale := by positivity
      rw [abs_of_nonneg h0, abs_of_nonneg (by exact_mod_cast Int.floor_nonneg.mpr h0)]
      exact Int.floor_le _
    · rename_i h
      have h0 : v * clipperScale ≤ 0 := mul_nonpos_of_nonpos_of_nonneg (by linarith) hS.le
      rw [abs_of_nonpos h0, abs_of_nonpos (by exact_mod_cast Int.ceil_le.mpr (by simpa using h0))]
      exact neg_le_neg (Int.le_ceil _)

/-! ### Examples -/

instance (δ : Rat) (p : Poly) : Decidable (ClearlyConvex δ p) := by
  unfold ClearlyConvex ClearlyCcw; infer_instance

/-- Slanted footprints: the energy is kept up to a part in ten million. -/
example : ∃ fake, fastFixedGridReadChunk (scaledClip roundClip) (fun _ _ _ => []) (fun pts => pts.map slanted)
      (gridMesh sampleX sampleY) 7 0 sampleLoc splitSample = .ok (some fake) ∧
    |(fake.children.map LmaEvent.power).sum - (splitSample.events.map fun e => e.val.energy).sum| ≤
      1 / 10000000 * (splitSample.events.map fun e => e.val.energy).sum :=
  C98_rounded _ (1 / 10000000) (by norm_num) slanted sampleX sampleY 1 1 7 0 sampleLoc splitSample sampleRows
    sample_axes.1 sample_axes.2.1 (Or.inl (by decide)) sample_spaced.1 sample_spaced.2
    (by norm_num [clipperScale]) (by norm_num [clipperScale]) (by decide +kernel) sampleRows_eq (by
      have h : ∀ r ∈ sampleRows, 3/4 ≤ r.x ∧ r.x ≤ 21/4 ∧ 3/4 ≤ r.y ∧ r.y ≤ 17/4 := by decide +kernel
      have h' : ∀ r ∈ sampleRows, ClearlyConvex (1 / clipperScale) (slanted (r.x, r.y)) ∧
          27 / 2 * outlineLength (slanted (r.x, r.y)) / clipperScale +
            151 * (slanted (r.x, r.y)).length / clipperScale ^ 2 ≤
          1 / 10000000 * |signedArea (slanted (r.x, r.y))| := by decide +kernel
      intro r hr
      obtain ⟨h1, h2, h3, h4⟩ := h r hr
      exact ⟨(h' r hr).1, slanted_foot h1 h2 h3 h4, (h' r hr).2⟩)

/-- A square of 8 km seen from the satellite (224 microradians) is large enough: the error of its area is below
1/1000, so the message is not logged. -/
example : 27 / 2 * outlineLength (rect 0 (224/1000000) 0 (224/1000000)) / clipperScale +
      151 * (rect 0 (224/1000000) 0 (224/1000000)).length / clipperScale ^ 2 ≤
    1 / 1000 * |signedArea (rect 0 (224/1000000) 0 (224/1000000))| ∧
    ClearlyConvex (1 / clipperScale) (rect 0 (224/1000000) 0 (224/1000000)) := by decide +kernel

/-- A third is not kept, and moves towards zero on both sides. -/
example : toClipper (1/3) = 715827882 ∧ toClipper (-1/3) = -715827882 ∧
    fromClipper (toClipper (1/3)) < 1/3 ∧ -1/3 < fromClipper (toClipper (-1/3)) := by decide +kernel

/-- A footprint below the unit of the clipper is lost as a whole. -/
example : scaledClip roundClip (rect 0 (1/2147483649) 0 (1/2147483649)) (rect 0 1 0 1) = [] ∧
    signedArea (rect 0 (1/2147483649) 0 (1/2147483649)) ≠ 0 := by decide +kernel

/-- The message for half a footprint, and none for a whole one. -/
example : notCoveredMessage ⟨[], [1/4, 1/4], [0, 0], [0, 0]⟩ = true ∧
    notCoveredMessage ⟨[], [1/4, 3/4], [0, 0], [0, 0]⟩ = false ∧
    notCoveredMessage ⟨[], [1/4, 3/4, 1/500], [0, 0], [0, 0]⟩ = true := by decide +kernel

end Verif.Props
