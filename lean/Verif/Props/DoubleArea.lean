import Verif.Model.DoubleArea
import Verif.Props.DoubleTimes
import Verif.Proofs.Area
import Mathlib.Tactic.Positivity

/-!
# Areas and shares of polygons in double precision (C122)
-/

namespace Verif.Props

open Verif.Py Verif.Model Verif.Spec Verif.Proofs

/-- `s` is the sum of the list `l` in double precision, in some order: by splitting it in two parts that are not empty,
adding each, and rounding the sum of the two. -/
inductive AddsUp : List Rat → Rat → Prop
  | nil : AddsUp [] 0
  | one (v : Rat) : AddsUp [v] v
  | add {l a b : List Rat} {s t : Rat} (ha : a ≠ []) (hb : b ≠ []) (hl : l.Perm (a ++ b)) (hs : AddsUp a s)
      (ht : AddsUp b t) : AddsUp l (double (s + t))

/-- The unit of rounding of doubles. -/
def ulp1 : Rat := 1 / 2 ^ 53

/-- The sum of the sizes of the products of which the area of a polygon is made. -/
def productSize (p : Poly) : Rat :=
  ((List.range p.length).map fun k =>
    |(p.getD k (0, 0)).1 * (p.getD ((k + 1) % p.length) (0, 0)).2| +
    |(p.getD ((k + 1) % p.length) (0, 0)).1 * (p.getD k (0, 0)).2|).sum

theorem ulp1_pos : 0 < ulp1 := by unfold ulp1; norm_num

theorem double_near' (v : Rat) : |double v - v| ≤ ulp1 * |v| := double_near v

/-- A value known up to a factor `m - 1` of `W`, rounded. -/
theorem round_step {v t m W : Rat} (hm : 1 ≤ m) (h : |v - t| ≤ (m - 1) * W) (ht : |t| ≤ W) :
    |double v - t| ≤ (m * (1 + ulp1) - 1) * W := by
  have h1 := double_near' v
  have hu := ulp1_pos
  have hv : |v| ≤ m * W := by
    have := abs_sub_abs_le_abs_sub v t
    linarith
  have h2 : ulp1 * |v| ≤ ulp1 * (m * W) := mul_le_mul_of_nonneg_left hv hu.le
  have h3 := abs_sub_le (double v) v t
  nlinarith

theorem sum_abs_le : ∀ l : List Rat, |l.sum| ≤ (l.map abs).sum
  | [] => by simp
  | a :: l => by
    simp only [List.sum_cons, List.map_cons]
    exact (abs_add_le _ _).trans (by linarith [sum_abs_le l])

theorem sum_abs_nonneg (l : List Rat) : 0 ≤ (l.map abs).sum := (abs_nonneg _).trans (sum_abs_le l)

theorem pow_mono {m n : Nat} (h : m ≤ n) : (1 + ulp1) ^ m ≤ (1 + ulp1) ^ n :=
  pow_le_pow_right₀ (by linarith [ulp1_pos]) h

theorem one_le_pow (n : Nat) : 1 ≤ (1 + ulp1) ^ n := one_le_pow₀ (by linarith [ulp1_pos])

/-- A sum in any order is close to the exact sum. -/
theorem addsUp_near {l : List Rat} {s : Rat} (h : AddsUp l s) :
    |s - l.sum| ≤ ((1 + ulp1) ^ (l.length - 1) - 1) * (l.map abs).sum := by
  induction h with
  | nil => simp
  | one v => simp
  | @add l a b s t ha hb hl hs ht ihs iht =>
    have hla : 1 ≤ a.length := List.length_pos_iff.mpr ha
    have hlb : 1 ≤ b.length := List.length_pos_iff.mpr hb
    have hlen : l.length = a.length + b.length := by rw [hl.length_eq, List.length_append]
    have hsum : l.sum = a.sum + b.sum := by rw [hl.sum_eq, List.sum_append]
    have hW : (l.map abs).sum = (a.map abs).sum + (b.map abs).sum := by
      rw [(hl.map abs).sum_eq, List.map_append, List.sum_append]
    have hA := sum_abs_nonneg a
    have hB := sum_abs_nonneg b
    have m1 : (1 + ulp1) ^ (a.length - 1) ≤ (1 + ulp1) ^ (l.length - 2) := pow_mono (by omega)
    have m2 : (1 + ulp1) ^ (b.length - 1) ≤ (1 + ulp1) ^ (l.length - 2) := pow_mono (by omega)
    have e : l.length - 1 = (l.length - 2) + 1 := by omega
    rw [e, pow_succ]
    refine round_step (one_le_pow _) ?_ (sum_abs_le l)
    rw [hsum, hW]
    have := abs_add_le (s - a.sum) (t - b.sum)
    rw [show s + t - (a.sum + b.sum) = (s - a.sum) + (t - b.sum) by ring]
    nlinarith

/-- numpy adds fewer than eight numbers from left to right, beginning with zero. -/
theorem addsUp_left : ∀ l : List Rat, (∀ v ∈ l, IsDouble v) → AddsUp l (l.foldl (fun a b => double (a + b)) 0) := by
  intro l
  induction l using List.reverseRecOn with
  | nil => intro _; exact .nil
  | append_singleton l v ih =>
    intro h
    rw [List.foldl_append]
    simp only [List.foldl_cons, List.foldl_nil]
    by_cases hl : l = []
    · subst hl
      simp only [List.foldl_nil, zero_add, List.nil_append]
      rw [double_eq (h v (by simp))]
      exact .one v
    · exact .add hl (by simp) (List.Perm.refl _) (ih fun w hw => h w (by simp [hw])) (.one v)

/-! ### The area -/

/-- One rounded determinant. -/
def detFl (a b : Pt) : Rat := double (double (a.1 * b.2) - double (b.1 * a.2))

/-- The sizes of its two products. -/
def detSize (a b : Pt) : Rat := |a.1 * b.2| + |b.1 * a.2|

theorem detSize_nonneg (a b : Pt) : 0 ≤ detSize a b := add_nonneg (abs_nonneg _) (abs_nonneg _)

theorem abs_cross_le (a b : Pt) : |cross a b| ≤ detSize a b := by
  unfold cross detSize
  exact abs_sub _ _

theorem detFl_near (a b : Pt) : |detFl a b - cross a b| ≤ ((1 + ulp1) ^ 2 - 1) * detSize a b := by
  rw [pow_two]
  refine round_step (by linarith [ulp1_pos]) ?_ (abs_cross_le a b)
  unfold cross detSize
  have h1 := double_near' (a.1 * b.2)
  have h2 := double_near' (b.1 * a.2)
  rw [show double (a.1 * b.2) - double (b.1 * a.2) - (a.1 * b.2 - b.1 * a.2) =
    (double (a.1 * b.2) - a.1 * b.2) - (double (b.1 * a.2) - b.1 * a.2) by ring]
  have := abs_sub (double (a.1 * b.2) - a.1 * b.2) (double (b.1 * a.2) - b.1 * a.2)
  linarith

/-- The determinants along a path. -/
def detsFl : List Pt → List Rat
  | a :: b :: l => detFl a b :: detsFl (b :: l)
  | _ => []

/-- Their sizes. -/
def pathSize : List Pt → Rat
  | a :: b :: l => detSize a b + pathSize (b :: l)
  | _ => 0

theorem detsFl_eq (a : Pt) (l : List Pt) :
    List.zipWith (fun a b => double (a - b))
      (List.zipWith (fun a b => double (a * b)) ((a :: l).map Prod.fst).dropLast ((a :: l).map Prod.snd).tail)
      (List.zipWith (fun a b => double (a * b)) ((a :: l).map Prod.fst).tail ((a :: l).map Prod.snd).dropLast) =
      detsFl (a :: l) := by
  induction l generalizing a with
  | nil => simp [detsFl]
  | cons b l ih =>
    have := ih b
    simp only [List.map_cons, List.tail_cons, List.dropLast_cons_cons, List.zipWith_cons_cons, detsFl, detFl] at this ⊢
    rw [this]

theorem detsFl_length : ∀ (a : Pt) (l : List Pt), (detsFl (a :: l)).length = l.length
  | a, [] => rfl
  | a, b :: l => by simp [detsFl, detsFl_length b l]

theorem detsFl_double : ∀ (a : Pt) (l : List Pt), ∀ v ∈ detsFl (a :: l), IsDouble v
  | a, [], v, h => by simp [detsFl] at h
  | a, b :: l, v, h => by
    simp only [detsFl, List.mem_cons] at h
    rcases h with rfl | h
    · exact double_isDouble _
    · exact detsFl_double b l v h

theorem pathSize_nonneg : ∀ l : List Pt, 0 ≤ pathSize l
  | [] => le_refl _
  | [_] => le_refl _
  | a :: b :: l => add_nonneg (detSize_nonneg a b) (pathSize_nonneg (b :: l))

theorem abs_pathSum_le : ∀ l : List Pt, |pathSum l| ≤ pathSize l
  | [] => by simp [pathSum, pathSize]
  | [_] => by simp [pathSum, pathSize]
  | a :: b :: l => (abs_add_le _ _).trans (add_le_add (abs_cross_le a b) (abs_pathSum_le (b :: l)))

theorem dets_near : ∀ (a : Pt) (l : List Pt),
    |(detsFl (a :: l)).sum - pathSum (a :: l)| ≤ ((1 + ulp1) ^ 2 - 1) * pathSize (a :: l) ∧
    ((detsFl (a :: l)).map abs).sum ≤ (1 + ulp1) ^ 2 * pathSize (a :: l)
  | a, [] => by simp [detsFl, pathSum, pathSize]
  | a, b :: l => by
    obtain ⟨h1, h2⟩ := dets_near b l
    have h3 := detFl_near a b
    have h4 := abs_cross_le a b
    have h5 := abs_sub_abs_le_abs_sub (detFl a b) (cross a b)
    simp only [detsFl, pathSum, pathSize, List.sum_cons, List.map_cons]
    constructor
    · rw [show detFl a b + (detsFl (b :: l)).sum - (cross a b + pathSum (b :: l)) =
        (detFl a b - cross a b) + ((detsFl (b :: l)).sum - pathSum (b :: l)) by ring]
      have := abs_add_le (detFl a b - cross a b) ((detsFl (b :: l)).sum - pathSum (b :: l))
      linarith
    · linarith

theorem pathSize_eq (p : List Pt) :
    pathSize p = ((List.range (p.length - 1)).map fun k =>
      detSize (p.getD k (0, 0)) (p.getD (k + 1) (0, 0))).sum := by
  induction p with
  | nil => simp [pathSize]
  | cons a l ih =>
    cases l with
    | nil => simp [pathSize]
    | cons b l =>
      simp only [pathSize, ih, List.length_cons, Nat.add_sub_cancel, List.range_succ_eq_map,
        List.map_cons, List.sum_cons, List.map_map]
      rfl

theorem productSize_cons (a : Pt) (l : List Pt) :
    productSize (a :: l) = pathSize (a :: l) + detSize (lastOf a l) a := by
  unfold productSize
  rw [pathSize_eq]
  simp only [List.length_cons, Nat.add_sub_cancel, List.range_succ, List.map_append, List.map_cons,
    List.map_nil, List.sum_append, List.sum_cons, List.sum_nil, add_zero, Nat.mod_self]
  congr 1
  · congr 1
    apply List.map_congr_left
    intro k hk
    rw [Nat.mod_eq_of_lt (by have := List.mem_range.mp hk; omega)]
    rfl
  · unfold detSize
    rw [lastOf, List.getLast_eq_getElem]
    simp [List.getD_eq_getElem?_getD]

theorem areaOfFl_cons (sum : List Rat → Rat) (a : Pt) (l : List Pt) :
    areaOfFl double sum (a :: l) = .ok (double (double (sum (detsFl (a :: l)) + detFl (lastOf a l) a) * (1 / 2))) := by
  unfold areaOfFl polyAreaFl
  simp only [detsFl_eq]
  have h1 : ((a :: l).map Prod.fst).getLast? = some (lastOf a l).1 := by
    rw [List.getLast?_map, lastOf, List.getLast?_eq_some_getLast (by simp)]; rfl
  have h2 : ((a :: l).map Prod.snd).getLast? = some (lastOf a l).2 := by
    rw [List.getLast?_map, lastOf, List.getLast?_eq_some_getLast (by simp)]; rfl
  rw [h1, h2]
  simp only [List.map_cons, List.head?_cons, detFl]

/-- C122: the area of a polygon of `n` vertices, computed in doubles with any order of additions, differs from the exact
area by at most `((1 + u)^(n + 2) - 1) / 2` times the sum of the sizes of the products it is made of. -/
theorem C122_area (sum : List Rat → Rat) (hsum : ∀ l, (∀ v ∈ l, IsDouble v) → AddsUp l (sum l)) (p : Poly)
    (hp : p ≠ []) :
    ∃ area, areaOfFl double sum p = .ok area ∧
      |area - signedArea p| ≤ ((1 + ulp1) ^ (p.length + 2) - 1) / 2 * productSize p := by
  obtain ⟨a, l, rfl⟩ := List.exists_cons_of_ne_nil hp
  refine ⟨_, areaOfFl_cons sum a l, ?_⟩
  have hd := hsum _ (detsFl_double a l)
  have h1 := addsUp_near hd
  rw [detsFl_length] at h1
  obtain ⟨h2, h3⟩ := dets_near a l
  have h4 := detFl_near (lastOf a l) a
  have hW := pathSize_nonneg (a :: l)
  have hw := detSize_nonneg (lastOf a l) a
  set W := pathSize (a :: l)
  set w := detSize (lastOf a l) a
  have hq := one_le_pow (l.length - 1)
  have hpow : (1 + ulp1) ^ (l.length - 1) ≤ (1 + ulp1) ^ l.length := pow_mono (by omega)
  have hl1 := one_le_pow l.length
  -- the sum along the path
  have h5 : |sum (detsFl (a :: l)) - pathSum (a :: l)| ≤ ((1 + ulp1) ^ (l.length + 2) - 1) * W := by
    have h6 := abs_sub_le (sum (detsFl (a :: l))) (detsFl (a :: l)).sum (pathSum (a :: l))
    have h7 : ((1 + ulp1) ^ (l.length - 1) - 1) * ((detsFl (a :: l)).map abs).sum ≤
        ((1 + ulp1) ^ l.length - 1) * ((1 + ulp1) ^ 2 * W) :=
      mul_le_mul (by linarith) h3 (sum_abs_nonneg _) (by linarith)
    rw [pow_add]
    linarith [h6.trans (add_le_add h1 h2), h7]
  have h8 : ((1 + ulp1) ^ 2 - 1) * w ≤ ((1 + ulp1) ^ (l.length + 2) - 1) * w :=
    mul_le_mul_of_nonneg_right (by linarith [pow_mono (show 2 ≤ l.length + 2 by omega)]) hw
  have h9 : |sum (detsFl (a :: l)) + detFl (lastOf a l) a - (pathSum (a :: l) + cross (lastOf a l) a)| ≤
      ((1 + ulp1) ^ (l.length + 2) - 1) * (W + w) := by
    rw [show sum (detsFl (a :: l)) + detFl (lastOf a l) a - (pathSum (a :: l) + cross (lastOf a l) a) =
      (sum (detsFl (a :: l)) - pathSum (a :: l)) + (detFl (lastOf a l) a - cross (lastOf a l) a) by ring]
    have := abs_add_le (sum (detsFl (a :: l)) - pathSum (a :: l)) (detFl (lastOf a l) a - cross (lastOf a l) a)
    linarith
  have h10 := round_step (one_le_pow (l.length + 2)) h9
    ((abs_add_le _ _).trans (add_le_add (abs_pathSum_le (a :: l)) (abs_cross_le (lastOf a l) a)))
  have hhalf : double (double (sum (detsFl (a :: l)) + detFl (lastOf a l) a) * (1 / 2)) =
      double (sum (detsFl (a :: l)) + detFl (lastOf a l) a) * (1 / 2) := by
    rw [mul_comm]
    exact double_eq (double_isDouble _).half
  rw [hhalf, signedArea_cons, productSize_cons]
  have e : (a :: l).length + 2 = l.length + 2 + 1 := by simp
  rw [e, pow_succ]
  rw [show double (sum (detsFl (a :: l)) + detFl (lastOf a l) a) * (1 / 2) -
      (pathSum (a :: l) + cross (lastOf a l) a) / 2 =
      (double (sum (detsFl (a :: l)) + detFl (lastOf a l) a) - (pathSum (a :: l) + cross (lastOf a l) a)) / 2 by ring,
    abs_div, abs_of_pos (show (0 : Rat) < 2 by norm_num)]
  linarith

/-! ### Shares -/

/-- A polygon with one to `n` vertices, all with coordinates of at most `R`. -/
structure SmallPoly (n : Nat) (R : Rat) (p : Poly) : Prop where
  ne : p ≠ []
  len : p.length ≤ n
  x : ∀ v ∈ p, |v.1| ≤ R
  y : ∀ v ∈ p, |v.2| ≤ R

/-- The error of the area of such a polygon. -/
def doubleAreaError (n : Nat) (R : Rat) : Rat := n * (n + 3) * R ^ 2 / 2 ^ 53

theorem pow_bound {m : Nat} (h : m ≤ 2 ^ 26) : (1 + ulp1) ^ m - 1 ≤ (m + 1) * ulp1 := by
  have hu := ulp1_pos
  have hu2 : ulp1 * 2 ^ 53 = 1 := by unfold ulp1; norm_num
  have key : ∀ k : Nat, k ≤ m → (1 + ulp1) ^ k ≤ 1 + k * ulp1 + k ^ 2 * ulp1 ^ 2 := by
    intro k
    induction k with
    | zero => intro _; simp
    | succ k ih =>
      intro hk
      have h1 := ih (by omega)
      have hkm : (k : Rat) ≤ 2 ^ 26 := by exact_mod_cast (by omega : k ≤ 2 ^ 26)
      have hk0 : (0 : Rat) ≤ k := by positivity
      have hku : (k : Rat) * ulp1 ≤ 1 := by nlinarith
      rw [pow_succ]
      have h2 : (1 + ulp1) ^ k * (1 + ulp1) ≤ (1 + k * ulp1 + k ^ 2 * ulp1 ^ 2) * (1 + ulp1) :=
        mul_le_mul_of_nonneg_right h1 (by linarith)
      have h3 : (k : Rat) ^ 2 * ulp1 ^ 3 ≤ k * ulp1 ^ 2 := by
        have : (k : Rat) ^ 2 * ulp1 ^ 3 = (k * ulp1 ^ 2) * (k * ulp1) := by ring
        rw [this]
        exact mul_le_of_le_one_right (by positivity) hku
      have h4 : (0 : Rat) ≤ (k + 1) * ulp1 ^ 2 := by positivity
      push_cast
      nlinarith
  have h1 := key m (le_refl m)
  have hm : (m : Rat) ≤ 2 ^ 26 := by exact_mod_cast h
  have hm0 : (0 : Rat) ≤ m := by positivity
  have h2 : (m : Rat) ^ 2 * ulp1 ^ 2 ≤ ulp1 := by
    have h3 : (m : Rat) ^ 2 ≤ (2 ^ 26) ^ 2 := pow_le_pow_left₀ hm0 hm 2
    have h4 : (m : Rat) ^ 2 * ulp1 ≤ 1 := by nlinarith
    have : (m : Rat) ^ 2 * ulp1 ^ 2 = (m ^ 2 * ulp1) * ulp1 := by ring
    rw [this]
    exact mul_le_of_le_one_left hu.le h4
  linarith

theorem productSize_le {n : Nat} {R : Rat} {p : Poly} (h : SmallPoly n R p) : productSize p ≤ n * (2 * R ^ 2) := by
  unfold productSize
  have hpos : 0 < p.length := List.length_pos_iff.mpr h.ne
  have hmem : ∀ k, k < p.length → p.getD k (0, 0) ∈ p := by
    intro k hk
    rw [List.getD_eq_getElem?_getD, List.getElem?_eq_getElem hk]
    exact List.getElem_mem hk
  have hR : 0 ≤ R := (abs_nonneg _).trans (h.x _ (hmem 0 hpos))
  have hprod : ∀ a b : Rat, |a| ≤ R → |b| ≤ R → |a * b| ≤ R ^ 2 := by
    intro a b ha hb
    rw [abs_mul, pow_two]
    exact mul_le_mul ha hb (abs_nonneg _) hR
  have key : ∀ l : List Nat, (∀ k ∈ l, k < p.length) → (l.map fun k =>
      |(p.getD k (0, 0)).1 * (p.getD ((k + 1) % p.length) (0, 0)).2| +
      |(p.getD ((k + 1) % p.length) (0, 0)).1 * (p.getD k (0, 0)).2|).sum ≤ l.length * (2 * R ^ 2) := by
    intro l
    induction l with
    | nil => intro _; simp
    | cons k l ih =>
      intro hl
      have h1 := hmem k (hl k (by simp))
      have h2 := hmem ((k + 1) % p.length) (Nat.mod_lt _ hpos)
      have h3 := hprod _ _ (h.x _ h1) (h.y _ h2)
      have h4 := hprod _ _ (h.x _ h2) (h.y _ h1)
      have h5 := ih fun k' hk' => hl k' (by simp [hk'])
      simp only [List.map_cons, List.sum_cons, List.length_cons]
      push_cast
      linarith
  have h1 := key (List.range p.length) (by simp)
  rw [List.length_range] at h1
  have h2 : (p.length : Rat) ≤ n := by exact_mod_cast h.len
  have h3 : (0 : Rat) ≤ 2 * R ^ 2 := by positivity
  exact h1.trans (mul_le_mul_of_nonneg_right h2 h3)

/-- C122: the area of a polygon of at most `n` vertices within `R` of the origin is wrong by at most
`n (n + 3) R^2 / 2^53`, however the terms are added. -/
theorem C122_near {sum : List Rat → Rat} (hsum : ∀ l, (∀ v ∈ l, IsDouble v) → AddsUp l (sum l)) {n : Nat} {R : Rat}
    {p : Poly} (hn : n ≤ 1000000) (h : SmallPoly n R p) :
    ∃ area, areaOfFl double sum p = .ok area ∧ |area - signedArea p| ≤ doubleAreaError n R := by
  obtain ⟨area, h1, h2⟩ := C122_area sum hsum p h.ne
  refine ⟨area, h1, h2.trans ?_⟩
  have h3 := productSize_le h
  have h4 : (1 + ulp1) ^ (p.length + 2) ≤ (1 + ulp1) ^ (n + 2) := pow_mono (by have := h.len; omega)
  have h5 := pow_bound (m := n + 2) (by omega)
  have h6 := one_le_pow (p.length + 2)
  have h7 : ((1 + ulp1) ^ (p.length + 2) - 1) / 2 * productSize p ≤ (n + 3) * ulp1 / 2 * (n * (2 * R ^ 2)) := by
    refine mul_le_mul ?_ h3 ?_ ?_
    · push_cast at h5
      linarith
    · obtain ⟨a, l, rfl⟩ := List.exists_cons_of_ne_nil h.ne
      rw [productSize_cons]
      exact add_nonneg (pathSize_nonneg _) (detSize_nonneg _ _)
    · have := ulp1_pos
      positivity
  refine h7.trans (le_of_eq ?_)
  unfold doubleAreaError ulp1
  ring

theorem double_rel (v : Rat) : ∃ d, |d| ≤ ulp1 ∧ double v = v * (1 + d) := by
  by_cases hv : v = 0
  · subst hv
    exact ⟨0, by simpa using ulp1_pos.le, by rw [double_zero]; ring⟩
  · refine ⟨(double v - v) / v, ?_, by field_simp; ring⟩
    rw [abs_div, div_le_iff₀ (abs_pos.mpr hv)]
    exact double_near' v

/-- The quotient of two areas with errors. -/
theorem areas_quotient_near {a A a' A' k : Rat} (hA : A ≠ 0) (hk : k ≤ 1 / 100) (h1 : |a' - a| ≤ k * |A|)
    (h2 : |A' - A| ≤ k * |A|) :
    A' ≠ 0 ∧ abs (|a' / A'| - |a| / |A|) ≤ 11 / 10 * k * (1 + |a| / |A|) := by
  have hpos := abs_pos.mpr hA
  have hk0 : 0 ≤ k := by
    have := (abs_nonneg _).trans h1
    exact nonneg_of_mul_nonneg_left this hpos
  have hA' : (1 - k) * |A| ≤ |A'| := by
    have := abs_sub_abs_le_abs_sub A A'
    rw [abs_sub_comm] at this
    linarith
  have hpos' : 0 < |A'| := lt_of_lt_of_le (by apply mul_pos _ hpos; linarith) hA'
  refine ⟨abs_pos.mp hpos', ?_⟩
  rw [abs_div]
  have e : |a'| / |A'| - |a| / |A| = ((|a'| - |a|) * |A| - |a| * (|A'| - |A|)) / (|A'| * |A|) := by
    field_simp
    ring
  rw [e, abs_div, abs_of_pos (mul_pos hpos' hpos), div_le_iff₀ (mul_pos hpos' hpos)]
  have h3 := abs_abs_sub_abs_le a' a
  have h4 := abs_abs_sub_abs_le A' A
  have h5 : abs ((|a'| - |a|) * |A| - |a| * (|A'| - |A|)) ≤ k * |A| * |A| + |a| * (k * |A|) := by
    refine (abs_sub _ _).trans ?_
    rw [abs_mul, abs_mul, abs_abs, abs_abs]
    exact add_le_add (mul_le_mul_of_nonneg_right (h3.trans h1) hpos.le)
      (mul_le_mul_of_nonneg_left (h4.trans h2) (abs_nonneg _))
  refine h5.trans ?_
  have h6 : 11 / 10 * k * (1 + |a| / |A|) * (|A'| * |A|) = 11 / 10 * k * (|A| + |a|) * |A'| := by
    field_simp
  rw [h6]
  have h7 : 0 ≤ k * (|A| + |a|) := mul_nonneg hk0 (by positivity)
  have h8 : k * (|A| + |a|) * ((1 - k) * |A|) ≤ k * (|A| + |a|) * |A'| := mul_le_mul_of_nonneg_left hA' h7
  have h9 : 0 ≤ k * (|A| + |a|) * |A| := mul_nonneg h7 hpos.le
  nlinarith

/-- A footprint and a piece that are large enough: the errors of areas are at most the part `k` of the area of the
footprint. -/
structure ShareOk (n : Nat) (R k : Rat) (poly : Poly) : Prop where
  small : SmallPoly n R poly
  area : signedArea poly ≠ 0
  error : doubleAreaError n R ≤ k * |signedArea poly|

/-- C122: the share of a piece is the quotient of the exact areas, within the errors of the areas. -/
theorem C122_share {sum : List Rat → Rat} (hsum : ∀ l, (∀ v ∈ l, IsDouble v) → AddsUp l (sum l)) {n : Nat} {R k : Rat}
    {poly piece : Poly} (hn : n ≤ 1000000) (hk : k ≤ 1 / 100) (h : ShareOk n R k poly) (hp : SmallPoly n R piece) :
    ∃ share, fracAreaFl double sum poly piece = .ok share ∧
      |share - abs (signedArea piece) / abs (signedArea poly)| ≤
        6 / 5 * k * (1 + abs (signedArea piece) / abs (signedArea poly)) +
          abs (signedArea piece) / abs (signedArea poly) / 2 ^ 53 := by
  obtain ⟨A', hA', eA⟩ := C122_near hsum hn h.small
  obtain ⟨a', ha', ea⟩ := C122_near hsum hn hp
  obtain ⟨hne, hq⟩ := areas_quotient_near h.area hk (ea.trans h.error) (eA.trans h.error)
  refine ⟨|double (a' / |A'|)|, by simp only [fracAreaFl, hA', ha']; rfl, ?_⟩
  obtain ⟨d, hd, e⟩ := double_rel (a' / |A'|)
  set s := abs (signedArea piece) / abs (signedArea poly)
  have hs : 0 ≤ s := by positivity
  have hu := ulp1_pos
  have hu' : ulp1 ≤ 1 / 100 := by unfold ulp1; norm_num
  have e1 : |double (a' / |A'|)| = |a' / A'| * |1 + d| := by
    rw [e, abs_mul, abs_div, abs_abs, abs_div]
  have hk0 : 0 ≤ k := by
    have := (abs_nonneg _).trans (eA.trans h.error)
    exact nonneg_of_mul_nonneg_left this (abs_pos.mpr h.area)
  have e2 : abs (|1 + d| - 1) ≤ ulp1 := by
    have := abs_abs_sub_abs_le (1 + d) 1
    rw [abs_one, add_sub_cancel_left] at this
    exact this.trans hd
  rw [e1]
  have e3 : |a' / A'| * |1 + d| - s = (|a' / A'| - s) * |1 + d| + s * (|1 + d| - 1) := by ring
  rw [e3]
  refine (abs_add_le _ _).trans ?_
  rw [abs_mul, abs_mul, abs_abs, abs_of_nonneg hs]
  have e4 : |1 + d| ≤ 1 + ulp1 := by linarith [(abs_le.mp e2).2]
  have e5 : abs (|a' / A'| - s) * |1 + d| ≤ 11 / 10 * k * (1 + s) * (1 + ulp1) :=
    mul_le_mul hq e4 (abs_nonneg _) (by positivity)
  have e6 : s * abs (|1 + d| - 1) ≤ s * ulp1 := mul_le_mul_of_nonneg_left e2 hs
  have e7 : s / 2 ^ 53 = s * ulp1 := by unfold ulp1; ring
  rw [e7]
  have e8 : 0 ≤ k * (1 + s) := mul_nonneg hk0 (by linarith)
  nlinarith

/-- C122: the energies of the pieces add up to the energy of the event times the part of the footprint that the pieces
cover, within the errors of the areas. -/
theorem C122_energy {sum : List Rat → Rat} (hsum : ∀ l, (∀ v ∈ l, IsDouble v) → AddsUp l (sum l)) {n : Nat}
    {R k energy : Rat} {poly : Poly} (hn : n ≤ 1000000) (hk : k ≤ 1 / 100) (he : 0 ≤ energy) (h : ShareOk n R k poly) :
    ∀ pieces : List Poly, (∀ q ∈ pieces, SmallPoly n R q) →
    ∃ es, pieces.mapM (pieceEnergyFl double sum energy poly) = .ok es ∧ es.length = pieces.length ∧
      |es.sum - energy * ((pieces.map fun q => |signedArea q|).sum / |signedArea poly|)| ≤
        energy * (2 * k * (pieces.length + (pieces.map fun q => |signedArea q|).sum / |signedArea poly|) +
          3 * ((pieces.map fun q => |signedArea q|).sum / |signedArea poly|) / 2 ^ 53) := by
  intro pieces
  induction pieces with
  | nil => intro _; exact ⟨[], rfl, rfl, by simp⟩
  | cons q pieces ih =>
    intro hq
    obtain ⟨es, h1, h2, h3⟩ := ih fun q' h' => hq q' (by simp [h'])
    obtain ⟨c, h4, h5⟩ := C122_share hsum hn hk h (hq q (by simp))
    have h6 : pieceEnergyFl double sum energy poly q = .ok (double (energy * c)) := by
      simp only [pieceEnergyFl, h4]; rfl
    refine ⟨double (energy * c) :: es, ?_, by simp [h2], ?_⟩
    · rw [List.mapM_cons, h6, h1]; rfl
    simp only [List.map_cons, List.sum_cons, List.length_cons, add_div]
    set s := |signedArea q| / |signedArea poly|
    set S := (pieces.map fun q => |signedArea q|).sum / |signedArea poly|
    have hs : 0 ≤ s := by positivity
    have hu := ulp1_pos
    have hu' : ulp1 ≤ 1 / 100 := by unfold ulp1; norm_num
    have hk0 : 0 ≤ k := by
      have h0 : 0 ≤ doubleAreaError n R := by unfold doubleAreaError; positivity
      exact nonneg_of_mul_nonneg_left (h0.trans h.error) (abs_pos.mpr h.area)
    have e7 : ∀ t : Rat, t / 2 ^ 53 = t * ulp1 := by intro t; unfold ulp1; ring
    rw [e7] at h5 h3 ⊢
    have hc : |c| ≤ s + (6 / 5 * k * (1 + s) + s * ulp1) := by
      have := abs_sub_abs_le_abs_sub c s
      rw [abs_of_nonneg hs] at this
      linarith
    have h7 := double_near' (energy * c)
    have hone : |double (energy * c) - energy * s| ≤ energy * (2 * k * (1 + s) + 3 * s * ulp1) := by
      have h8 := abs_sub_le (double (energy * c)) (energy * c) (energy * s)
      rw [abs_mul, abs_of_nonneg he] at h7
      have h9 : |energy * c - energy * s| ≤ energy * (6 / 5 * k * (1 + s) + s * ulp1) := by
        rw [← mul_sub, abs_mul, abs_of_nonneg he]
        exact mul_le_mul_of_nonneg_left h5 he
      have h10 : ulp1 * (energy * |c|) ≤ energy * (ulp1 * (s + (6 / 5 * k * (1 + s) + s * ulp1))) := by
        rw [mul_left_comm]
        exact mul_le_mul_of_nonneg_left (mul_le_mul_of_nonneg_left hc hu.le) he
      have h11 : ulp1 * (s + (6 / 5 * k * (1 + s) + s * ulp1)) + (6 / 5 * k * (1 + s) + s * ulp1) ≤
          2 * k * (1 + s) + 3 * s * ulp1 := by
        have a1 : 0 ≤ k * (1 + s) := mul_nonneg hk0 (by linarith)
        have a2 : 0 ≤ s * ulp1 := mul_nonneg hs hu.le
        nlinarith
      have h12 := mul_le_mul_of_nonneg_left h11 he
      linarith
    rw [show double (energy * c) + es.sum - energy * (s + S) =
      (double (energy * c) - energy * s) + (es.sum - energy * S) by ring]
    refine (abs_add_le _ _).trans ?_
    push_cast
    linarith

/-- C122: if the pieces make up the footprint, the energy of the event is kept within the errors of the areas. -/
theorem C122_conserved {sum : List Rat → Rat} (hsum : ∀ l, (∀ v ∈ l, IsDouble v) → AddsUp l (sum l)) {n : Nat}
    {R k energy : Rat} {poly : Poly} {pieces : List Poly} (hn : n ≤ 1000000) (hk : k ≤ 1 / 100) (he : 0 ≤ energy)
    (h : ShareOk n R k poly) (hp : ∀ q ∈ pieces, SmallPoly n R q)
    (htile : (pieces.map fun q => |signedArea q|).sum = |signedArea poly|) :
    ∃ es, pieces.mapM (pieceEnergyFl double sum energy poly) = .ok es ∧
      |es.sum - energy| ≤ energy * (2 * k * (pieces.length + 1) + 3 / 2 ^ 53) := by
  obtain ⟨es, h1, -, h3⟩ := C122_energy hsum hn hk he h pieces hp
  rw [htile, div_self (abs_ne_zero.mpr h.area)] at h3
  exact ⟨es, h1, by simpa using h3⟩

/-- C122: the part of a cell that a piece covers. -/
theorem C122_mesh {sum sum' : List Rat → Rat} (hsum : ∀ l, (∀ v ∈ l, IsDouble v) → AddsUp l (sum l))
    (hsum' : ∀ l, (∀ v ∈ l, IsDouble v) → AddsUp l (sum' l)) {n : Nat} {R k : Rat} {poly piece quad : Poly}
    (hn : n ≤ 1000000) (hk : k ≤ 1 / 100) (h : ShareOk n R k poly) (hq : ShareOk n R k quad)
    (hp : SmallPoly n R piece) (hquad : 0 < signedArea quad) :
    ∃ part, quadFracFl double sum sum' poly piece quad = .ok part ∧
      |part - abs (signedArea piece) / signedArea quad| ≤
        2 * k * (1 + abs (signedArea piece) / signedArea quad) +
          4 * (abs (signedArea piece) / signedArea quad) / 2 ^ 53 := by
  obtain ⟨A', hA', eA⟩ := C122_near hsum hn h.small
  obtain ⟨a', ha', ea⟩ := C122_near hsum hn hp
  obtain ⟨Q', hQ', eQ⟩ := C122_near hsum' hn hq.small
  have hneA := (areas_quotient_near h.area hk (ea.trans h.error) (eA.trans h.error)).1
  obtain ⟨hneQ, hQ⟩ := areas_quotient_near hq.area hk (ea.trans hq.error) (eQ.trans hq.error)
  have hk0 : 0 ≤ k := by
    have := (abs_nonneg _).trans (eA.trans h.error)
    exact nonneg_of_mul_nonneg_left this (abs_pos.mpr h.area)
  have hQpos : 0 < Q' := by
    have := eQ.trans hq.error
    rw [abs_of_pos hquad] at this
    have h2 := (abs_le.mp this).1
    nlinarith
  refine ⟨_, by simp only [quadFracFl, fracAreaFl, hA', ha', hQ']; rfl, ?_⟩
  have hu := ulp1_pos
  have hu' : ulp1 ≤ 1 / 1000 := by unfold ulp1; norm_num
  obtain ⟨d1, b1, e1⟩ := double_rel (a' / |A'|)
  obtain ⟨d2, b2, e2⟩ := double_rel (|double (a' / |A'|)| * |A'|)
  obtain ⟨d3, b3, e3⟩ := double_rel (double (|double (a' / |A'|)| * |A'|) / Q')
  rw [e3, e2, e1]
  rw [abs_of_pos hquad] at hQ
  set s := abs (signedArea piece) / signedArea quad
  have hs : 0 ≤ s := by positivity
  have p1 : 0 ≤ 1 + d1 := by linarith [(abs_le.mp b1).1]
  have eq : |a' / |A'| * (1 + d1)| * |A'| * (1 + d2) / Q' * (1 + d3) =
      |a' / Q'| * ((1 + d1) * (1 + d2) * (1 + d3)) := by
    rw [abs_mul, abs_div, abs_abs, abs_of_nonneg p1, abs_div, abs_of_pos hQpos]
    have := abs_pos.mpr hneA
    field_simp
  rw [eq]
  obtain ⟨l1, r1⟩ := abs_le.mp b1
  obtain ⟨l2, r2⟩ := abs_le.mp b2
  obtain ⟨l3, r3⟩ := abs_le.mp b3
  have hP : |(1 + d1) * (1 + d2) * (1 + d3) - 1| ≤ 7 / 2 * ulp1 := by
    have t : (1 + d1) * (1 + d2) * (1 + d3) - 1 =
        d1 + d2 + d3 + (d1 * d2 + d1 * d3 + d2 * d3 + d1 * d2 * d3) := by ring
    have m12 : |d1 * d2| ≤ ulp1 * ulp1 := by rw [abs_mul]; exact mul_le_mul b1 b2 (abs_nonneg _) hu.le
    have m13 : |d1 * d3| ≤ ulp1 * ulp1 := by rw [abs_mul]; exact mul_le_mul b1 b3 (abs_nonneg _) hu.le
    have m23 : |d2 * d3| ≤ ulp1 * ulp1 := by rw [abs_mul]; exact mul_le_mul b2 b3 (abs_nonneg _) hu.le
    have m123 : |d1 * d2 * d3| ≤ ulp1 * ulp1 * ulp1 := by
      rw [abs_mul]; exact mul_le_mul m12 b3 (abs_nonneg _) (by positivity)
    have q : ulp1 * ulp1 ≤ ulp1 * (1 / 1000) := mul_le_mul_of_nonneg_left hu' hu.le
    have q3 : ulp1 * ulp1 * ulp1 ≤ ulp1 * (1 / 1000) := by
      have : ulp1 * ulp1 * ulp1 ≤ ulp1 * ulp1 * 1 := mul_le_mul_of_nonneg_left (by linarith) (by positivity)
      linarith
    obtain ⟨x1, y1⟩ := abs_le.mp m12
    obtain ⟨x2, y2⟩ := abs_le.mp m13
    obtain ⟨x3, y3⟩ := abs_le.mp m23
    obtain ⟨x4, y4⟩ := abs_le.mp m123
    rw [t, abs_le]
    constructor <;> linarith
  set P := (1 + d1) * (1 + d2) * (1 + d3)
  have hPabs : |P| ≤ 1 + 7 / 2 * ulp1 := by
    have := abs_sub_abs_le_abs_sub P 1
    rw [abs_one] at this
    linarith
  clear_value P
  rw [show |a' / Q'| * P - s = (|a' / Q'| - s) * P + s * (P - 1) by ring]
  refine (abs_add_le _ _).trans ?_
  rw [abs_mul, abs_mul, abs_of_nonneg hs]
  have g1 : abs (|a' / Q'| - s) * |P| ≤ 11 / 10 * k * (1 + s) * (1 + 7 / 2 * ulp1) :=
    mul_le_mul hQ hPabs (abs_nonneg _) (by positivity)
  have g2 : s * |P - 1| ≤ s * (7 / 2 * ulp1) := mul_le_mul_of_nonneg_left hP hs
  have g3 : 4 * s / 2 ^ 53 = 4 * s * ulp1 := by unfold ulp1; ring
  rw [g3]
  have g4 : 0 ≤ k * (1 + s) := mul_nonneg hk0 (by linarith)
  have g5 : 0 ≤ s * ulp1 := mul_nonneg hs hu.le
  nlinarith

/-! ### A pixel -/

/-- A rectangle. -/
def rectangle (x0 y0 x1 y1 : Rat) : Poly := [(x0, y0), (x1, y0), (x1, y1), (x0, y1)]

/-- A pixel of the instrument: 224 microradians across. -/
def exPixel : Poly := rectangle (1/10) (1/10) (1/10 + 224/1000000) (1/10 + 224/1000000)

/-- Its four pieces on a grid of 56 microradians with a line through it. -/
def exPieces : List Poly :=
  [rectangle (1/10) (1/10) (1/10 + 56/1000000) (1/10 + 112/1000000),
   rectangle (1/10 + 56/1000000) (1/10) (1/10 + 224/1000000) (1/10 + 112/1000000),
   rectangle (1/10) (1/10 + 112/1000000) (1/10 + 56/1000000) (1/10 + 224/1000000),
   rectangle (1/10 + 56/1000000) (1/10 + 112/1000000) (1/10 + 224/1000000) (1/10 + 224/1000000)]

theorem exPixel_ok : ShareOk 8 (1/5) (1/100000000) exPixel :=
  ⟨⟨by decide, by decide, by decide +kernel, by decide +kernel⟩, by decide +kernel, by decide +kernel⟩

/-- The pixel meets the hypotheses: the energies of its pieces add up to the energy within one part in nine million. -/
example : ∃ es, exPieces.mapM (pieceEnergyFl double (List.foldl (fun a b => double (a + b)) 0) 1000 exPixel) = .ok es ∧
    |es.sum - 1000| ≤ 1000 / 9000000 := by
  obtain ⟨es, h1, h2⟩ := C122_conserved (pieces := exPieces) (energy := 1000)
    (sum := List.foldl (fun a b => double (a + b)) 0) (fun l hl => addsUp_left l hl) (n := 8) (by norm_num)
    (by norm_num) (by norm_num) exPixel_ok (by
      have h : ∀ q ∈ exPieces, q ≠ [] ∧ q.length ≤ 8 ∧ (∀ v ∈ q, |v.1| ≤ 1/5) ∧ (∀ v ∈ q, |v.2| ≤ 1/5) := by decide +kernel
      intro q hq
      obtain ⟨a, b, c, d⟩ := h q hq
      exact ⟨a, b, c, d⟩) (by decide +kernel)
  refine ⟨es, h1, h2.trans ?_⟩
  decide +kernel

/-- The computed shares of the pieces, which are not exactly a quarter and three quarters of a half. -/
example : (exPieces.mapM (fracAreaFl double (List.foldl (fun a b => double (a + b)) 0) exPixel)).toOption.map
    (·.map fun s => decide (s = 1/8 ∨ s = 3/8)) = some [false, false, false, false] := by decide +kernel

end Verif.Props
