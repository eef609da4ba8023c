import Verif.Proofs.RoundBits
import Verif.Props.Setup
import Verif.Props.Tiles
import Mathlib.Tactic.LinearCombination

/-!
# C113, C114: numbers of boxes and tiles in double precision
-/

namespace Verif.Props

open Verif.Py Verif.Model Verif.Spec Verif.Proofs

/-! ### Doubles -/

/-- A number that a Python `float` can hold: a whole number of at most 53 bits times a power of two.  The limits of
the exponent are left out. -/
def IsDouble (x : Rat) : Prop := ∃ m k : Int, |m| ≤ 2 ^ 53 ∧ x = m * 2 ^ k

theorem double_eq {x : Rat} (h : IsDouble x) : double x = x := roundBits_eq (by norm_num) h

theorem double_isDouble (v : Rat) : IsDouble (double v) := roundBits_hasBits (by norm_num) v

theorem double_mono {v w : Rat} (h : v ≤ w) : double v ≤ double w := roundBits_mono (by norm_num) h

theorem double_near (v : Rat) : |double v - v| ≤ 1 / 2 ^ 53 * |v| := roundBits_near (by norm_num) v

theorem double_pos {v : Rat} (h : 0 < v) : 0 < double v := roundBits_pos (by norm_num) h

theorem double_nonneg {v : Rat} (h : 0 ≤ v) : 0 ≤ double v := roundBits_nonneg (by norm_num) h

theorem double_zero : double 0 = 0 := roundBits_zero

theorem isDouble_int {n : Int} (h : |n| ≤ 2 ^ 53) : IsDouble n := ⟨n, 0, h, by simp⟩

theorem isDouble_nat {n : Nat} (h : n ≤ 2 ^ 53) : IsDouble n :=
  ⟨n, 0, by rw [abs_of_nonneg (by positivity)]; exact_mod_cast h, by simp⟩

theorem isDouble_half {n : Int} (h : |n| ≤ 2 ^ 53) : IsDouble ((n : Rat) / 2) :=
  ⟨n, -1, h, by rw [zpow_neg_one]; ring⟩

theorem IsDouble.half {x : Rat} (h : IsDouble x) : IsDouble (1 / 2 * x) := by
  obtain ⟨m, k, hm, rfl⟩ := h
  exact ⟨m, k - 1, hm, by rw [zpow_sub_one₀ (by norm_num)]; ring⟩

/-- C113, the rounding: the rounded number is a double and no double is nearer; a number half way between
two doubles goes to the one whose last bit is 0. -/
theorem C113_double (v : Rat) : IsDouble (double v) ∧ (∀ x, IsDouble x → |double v - v| ≤ |x - v|) ∧
    ∀ m k : Int, 2 ^ 52 ≤ m → m < 2 ^ 53 → v = (m + 1 / 2) * 2 ^ k →
      double v = (if m % 2 = 0 then (m : Rat) else m + 1) * 2 ^ k := by
  refine ⟨double_isDouble v, fun x hx => roundBits_nearest (by norm_num) v hx, ?_⟩
  rintro m k h1 h2 rfl
  have h2k : (0 : Rat) < 2 ^ k := by positivity
  have hm1 : ((2 : Rat) ^ 52) ≤ m := by exact_mod_cast h1
  have hm2 : (m : Rat) + 1 ≤ 2 ^ 53 := by exact_mod_cast h2
  have hv : (0 : Rat) < (m + 1 / 2) * 2 ^ k := by
    apply mul_pos _ h2k
    have : (0 : Rat) < 2 ^ 52 := by norm_num
    linarith
  have hlog : Int.log 2 |((m : Rat) + 1 / 2) * 2 ^ k| = k + 52 := by
    obtain ⟨a, b⟩ := log_abs_bounds hv
    set e := Int.log 2 |((m : Rat) + 1 / 2) * 2 ^ k|
    have c1 : (2 : Rat) ^ (k + 52) ≤ (m + 1 / 2) * 2 ^ k := by
      rw [zpow_add₀ (by norm_num), mul_comm]
      refine mul_le_mul_of_nonneg_right ?_ (le_of_lt h2k)
      have : (2 : Rat) ^ (52 : Int) = 2 ^ 52 := by norm_num
      rw [this]; linarith
    have c2 : (m + 1 / 2) * 2 ^ k < (2 : Rat) ^ (k + 53) := by
      rw [zpow_add₀ (by norm_num), mul_comm (2 ^ k : Rat)]
      refine mul_lt_mul_of_pos_right ?_ h2k
      have : (2 : Rat) ^ (53 : Int) = 2 ^ 53 := by norm_num
      rw [this]; linarith
    have d1 : k + 52 < e + 1 := (zpow_lt_zpow_iff_right₀ (by norm_num)).mp (lt_of_le_of_lt c1 b)
    have d2 : e < k + 53 := (zpow_lt_zpow_iff_right₀ (by norm_num)).mp (lt_of_le_of_lt a c2)
    omega
  unfold double roundBits
  rw [if_neg (ne_of_gt hv), hlog]
  have e1 : k + 52 + 1 - ((53 : Nat) : Int) = k := by push_cast; ring
  rw [e1, mul_div_assoc, div_self (ne_of_gt h2k), mul_one]
  congr 1
  have hfl : ⌊(m : Rat) + 1 / 2⌋ = m := by
    rw [Int.floor_eq_iff]; constructor <;> linarith
  unfold npAround
  simp only [hfl]
  rw [if_neg (by linarith), if_neg (by linarith)]
  split_ifs <;> push_cast <;> rfl

example : IsDouble (1 / 2) ∧ IsDouble 3 ∧ double (1 / 2) = 1 / 2 ∧ double (1 / 10) ≠ 1 / 10 :=
  ⟨⟨1, -1, by norm_num, by norm_num⟩, ⟨3, 0, by norm_num, by norm_num⟩, by decide +kernel, by decide +kernel⟩

/-- A tie: `2^53 + 1` is half way between `2^53` and `2^53 + 2`. -/
example : double (2 ^ 53 + 1) = 2 ^ 53 ∧ double (2 ^ 53 + 3) = 2 ^ 53 + 4 := by decide +kernel

/-! ### C113: the number of boxes -/

/-- C113: for all sizes and spacings, in the numbers as they are written on the command line, the number of boxes is
the number of times that the spacing fits in the size, up to 2^50 boxes. -/
def C113_full : Prop := ∀ (width dx : Rat), 0 < width → 0 < dx → width / dx ≤ 2 ^ 50 →
  cellCountFl double width dx = .ok ⌊width / dx⌋

/-- `--width 0.6 --dx 0.2` gives two boxes, not three. -/
theorem C113_full_false : ¬ C113_full := by
  intro h
  have h1 := h (6 / 10) (2 / 10) (by norm_num) (by norm_num) (by norm_num)
  have h2 : (cellCountFl double (6 / 10) (2 / 10)).toOption = some 2 := by decide +kernel
  rw [h1] at h2
  exact absurd h2 (by decide +kernel)

theorem cellCountFl_id : cellCountFl id = cellCount := rfl

theorem pyInt_double_div {a b : Nat} (hb : 0 < b) (ha : a < 2 ^ 53) :
    pyInt (double ((a : Rat) / b)) = ((a / b : Nat) : Int) := by
  have hb' : (0 : Rat) < b := by exact_mod_cast hb
  have hq0 : (0 : Rat) ≤ (a : Rat) / b := by positivity
  rw [pyInt_of_nonneg (double_nonneg hq0), Int.floor_eq_iff]
  have e1 : a / b * b ≤ a := Nat.div_mul_le_self a b
  have e2 : a + 1 ≤ (a / b + 1) * b := by
    have h1 := Nat.div_add_mod a b
    have h2 := Nat.mod_lt a hb
    have h3 : (a / b + 1) * b = b * (a / b) + b := by ring
    omega
  constructor
  · have h1 : ((a / b : Nat) : Rat) ≤ (a : Rat) / b := by
      rw [le_div_iff₀ hb']; exact_mod_cast e1
    have h2 := double_mono h1
    rw [double_eq (isDouble_nat (le_trans (Nat.div_le_self a b) (le_of_lt ha)))] at h2
    exact_mod_cast h2
  · by_contra hc
    push Not at hc
    have hn := double_near ((a : Rat) / b)
    rw [abs_of_nonneg hq0] at hn
    have h1 := (abs_le.mp hn).2
    have h2 : (((a / b : Nat) : Int) : Rat) + 1 ≤ (a : Rat) / b * (1 + 1 / 2 ^ 53) := by linarith
    have h3 : ((((a / b : Nat) : Int) : Rat) + 1) * b ≤ a * (1 + 1 / 2 ^ 53) := by
      have := mul_le_mul_of_nonneg_right h2 (le_of_lt hb')
      have e : (a : Rat) / b * (1 + 1 / 2 ^ 53) * b = a * (1 + 1 / 2 ^ 53) := by field_simp
      linarith
    have h4 : (a : Rat) + 1 ≤ (((a / b : Nat) : Int) : Rat) * b + b := by
      have : a + 1 ≤ (a / b) * b + b := by rw [← Nat.succ_mul]; exact e2
      exact_mod_cast this
    have h5 : (a : Rat) < 2 ^ 53 := by exact_mod_cast ha
    have h6 : (a : Rat) * (1 / 2 ^ 53) < 1 := by
      rw [mul_one_div, div_lt_one (by norm_num)]; exact h5
    linarith

/-- C113 for whole numbers of kilometres. -/
theorem C113_whole_partial (width dx : Nat) (hd : 0 < dx) (hw : width < 2 ^ 53) (hd' : dx ≤ 2 ^ 53) :
    cellCountFl double width dx = .ok ((width / dx : Nat) : Int) := by
  have h1 := double_eq (isDouble_nat hd')
  have h2 := double_eq (isDouble_nat (le_of_lt hw))
  unfold cellCountFl
  rw [h1, h2, if_neg (by exact_mod_cast hd.ne'), pyInt_double_div hd hw]

example : cellCountFl double ((400 : Nat) : Rat) ((3 : Nat) : Rat) = .ok (133 : Nat) :=
  C113_whole_partial 400 3 (by norm_num) (by norm_num) (by norm_num)

/-- C113 for a spacing and a size that are doubles (such as 0.5 and 12.5), where the spacing fits a whole number of
times. -/
theorem C113_multiple_partial (k : Nat) (dx : Rat) (hd : 0 < dx) (h1 : IsDouble dx) (h2 : IsDouble (k * dx))
    (hk : k ≤ 2 ^ 53) : cellCountFl double (k * dx) dx = .ok k := by
  unfold cellCountFl
  rw [double_eq h1, double_eq h2, if_neg (ne_of_gt hd), mul_div_assoc, div_self (ne_of_gt hd), mul_one,
    double_eq (isDouble_nat hk), pyInt_of_nonneg (by positivity)]
  simp

example : cellCountFl double ((25 : Nat) * (1 / 2)) (1 / 2) = .ok (25 : Nat) :=
  C113_multiple_partial 25 (1 / 2) (by norm_num) ⟨1, -1, by norm_num, by norm_num⟩ ⟨25, -1, by norm_num, by norm_num⟩
    (by norm_num)

/-- The quotient that the program computes. -/
theorem quotient_near {width dx : Rat} (hw : 0 < width) (hd : 0 < dx) :
    |double (double width / double dx) - width / dx| ≤ width / dx / 2 ^ 51 := by
  have hD := double_pos hd
  have hW := double_pos hw
  have n1 := double_near width
  have n2 := double_near dx
  have n3 := double_near (double width / double dx)
  rw [abs_of_pos hw] at n1
  rw [abs_of_pos hd] at n2
  rw [abs_of_pos (div_pos hW hD)] at n3
  obtain ⟨a1, b1⟩ := abs_le.mp n1
  obtain ⟨a2, b2⟩ := abs_le.mp n2
  obtain ⟨a3, b3⟩ := abs_le.mp n3
  set u : Rat := 1 / 2 ^ 53 with hu
  have hu0 : 0 < u := by norm_num [hu]
  have hu1 : u ≤ 1 / 1000 := by norm_num [hu]
  have hq : 0 < width / dx := div_pos hw hd
  have e51 : width / dx / 2 ^ 51 = 4 * u * (width / dx) := by rw [hu]; ring
  clear_value u
  clear hu
  -- the quotient of the rounded numbers
  have k1 : double width / double dx ≤ width / dx * (1 + 5 / 2 * u) := by
    rw [div_le_iff₀ hD]
    have : width ≤ width / dx * (double dx / (1 - u)) := by
      have : dx ≤ double dx / (1 - u) := by
        rw [le_div_iff₀ (by linarith)]; nlinarith
      calc width = width / dx * dx := by field_simp
        _ ≤ _ := mul_le_mul_of_nonneg_left this (le_of_lt hq)
    have h1 : double width ≤ width * (1 + u) := by linarith
    have h2 : (1 + u) ≤ (1 + 5 / 2 * u) * (1 - u) := by nlinarith
    have h3 : width * (1 - u) ≤ width / dx * double dx := by
      have h4 : width / dx * (double dx / (1 - u)) = width / dx * double dx / (1 - u) := by ring
      rw [h4, le_div_iff₀ (by linarith)] at this
      exact this
    calc double width ≤ width * (1 + u) := h1
      _ ≤ width * ((1 + 5 / 2 * u) * (1 - u)) := mul_le_mul_of_nonneg_left h2 (le_of_lt hw)
      _ = width * (1 - u) * (1 + 5 / 2 * u) := by ring
      _ ≤ width / dx * double dx * (1 + 5 / 2 * u) := mul_le_mul_of_nonneg_right h3 (by linarith)
      _ = _ := by ring
  have k2 : width / dx * (1 - 2 * u) ≤ double width / double dx := by
    rw [le_div_iff₀ hD]
    have h1 : width * (1 - u) ≤ double width := by linarith
    have h2 : double dx ≤ dx * (1 + u) := by linarith
    have h3 : width / dx * double dx ≤ width * (1 + u) := by
      have := mul_le_mul_of_nonneg_left h2 (le_of_lt hq)
      have e : width / dx * (dx * (1 + u)) = width * (1 + u) := by field_simp
      linarith
    have h4 : (1 + u) * (1 - 2 * u) ≤ 1 - u := by nlinarith
    calc width / dx * (1 - 2 * u) * double dx = width / dx * double dx * (1 - 2 * u) := by ring
      _ ≤ width * (1 + u) * (1 - 2 * u) := mul_le_mul_of_nonneg_right h3 (by linarith)
      _ = width * ((1 + u) * (1 - 2 * u)) := by ring
      _ ≤ width * (1 - u) := mul_le_mul_of_nonneg_left h4 (le_of_lt hw)
      _ ≤ _ := h1
  rw [e51, abs_le]
  have hu2 : 0 < u * (width / dx) := mul_pos hu0 hq
  have hu3 : u * (u * (width / dx)) ≤ 1 / 1000 * (u * (width / dx)) := mul_le_mul_of_nonneg_right hu1 (le_of_lt hu2)
  have k3 := mul_le_mul_of_nonneg_left k1 (le_of_lt hu0)
  constructor <;> nlinarith

/-- C113 for all sizes and spacings: the number is off by at most one, and it is right unless the size is a whole
number of boxes up to one part in 2^51; for a whole number of boxes it is right or one too small. -/
theorem C113_decimal_partial (width dx : Rat) (hw : 0 < width) (hd : 0 < dx) (hmax : width / dx ≤ 2 ^ 50) :
    ∃ n : Int, cellCountFl double width dx = .ok n ∧ |n - ⌊width / dx⌋| ≤ 1 ∧
      ((∀ m : Int, width / dx / 2 ^ 51 < |width / dx - m|) → n = ⌊width / dx⌋) ∧
      ∀ k : Nat, width = k * dx → n = k ∨ n = k - 1 := by
  have hD := double_pos hd
  have hW := double_pos hw
  have hq : 0 < width / dx := div_pos hw hd
  have near := quotient_near hw hd
  obtain ⟨a, b⟩ := abs_le.mp near
  have hsmall : width / dx / 2 ^ 51 ≤ 1 / 2 := by
    rw [div_le_iff₀ (by norm_num)]
    calc width / dx ≤ 2 ^ 50 := hmax
      _ = 1 / 2 * 2 ^ 51 := by norm_num
  have h0 : 0 ≤ double (double width / double dx) := double_nonneg (le_of_lt (div_pos hW hD))
  refine ⟨⌊double (double width / double dx)⌋, ?_, ?_, ?_, ?_⟩
  · unfold cellCountFl
    rw [if_neg (ne_of_gt hD), pyInt_of_nonneg h0]
  · set y := double (double width / double dx)
    have f1 := Int.floor_le y
    have f2 := Int.lt_floor_add_one y
    have g1 := Int.floor_le (width / dx)
    have g2 := Int.lt_floor_add_one (width / dx)
    have c1 : (⌊y⌋ : Rat) < ⌊width / dx⌋ + 2 := by linarith
    have c2 : (⌊width / dx⌋ : Rat) < ⌊y⌋ + 2 := by linarith
    have d1 : ⌊y⌋ < ⌊width / dx⌋ + 2 := by exact_mod_cast c1
    have d2 : ⌊width / dx⌋ < ⌊y⌋ + 2 := by exact_mod_cast c2
    rw [abs_le]
    omega
  · intro hm
    set y := double (double width / double dx)
    have g1 := Int.floor_le (width / dx)
    have g2 := Int.lt_floor_add_one (width / dx)
    have m1 := hm ⌊width / dx⌋
    have m2 := hm (⌊width / dx⌋ + 1)
    rw [abs_of_nonneg (by linarith)] at m1
    push_cast at m2
    rw [abs_sub_comm, abs_of_nonneg (by linarith)] at m2
    rw [Int.floor_eq_iff]
    constructor <;> linarith
  · intro k hk
    have e : width / dx = k := by rw [hk]; field_simp
    rw [e] at a b hsmall
    set y := double (double width / double dx)
    have f1 := Int.floor_le y
    have f2 := Int.lt_floor_add_one y
    have c1 : (⌊y⌋ : Rat) < k + 1 := by linarith
    have c2 : (k : Rat) < ⌊y⌋ + 2 := by linarith
    have d1 : ⌊y⌋ < k + 1 := by exact_mod_cast c1
    have d2 : (k : Int) < ⌊y⌋ + 2 := by exact_mod_cast c2
    omega

/-- Both outcomes occur for a whole number of boxes: 0.9 km in steps of 0.3 km, and 0.6 km in steps of 0.2 km.  A size
that is not near a multiple: 400 km in steps of 0.7 km. -/
example : (cellCountFl double (9 / 10) (3 / 10)).toOption = some 3 ∧
    (cellCountFl double (6 / 10) (2 / 10)).toOption = some 2 ∧
    (cellCountFl double 400 (7 / 10)).toOption = some 571 := by decide +kernel

/-! ### C114: the tiles -/

/-- The tile between two edges is `m` boxes wide, up to a thousandth of a box. -/
def BoxesWide (lo hi delta : Rat) (m : Int) : Prop := |hi - lo - m * delta| ≤ delta / 1000

/-- C114: in double precision too, a domain of `N` boxes (up to 2^30, and not further than 2^30 boxes from the origin)
around a centre is cut into `s` equal tiles if `s` divides `N`. -/
def C114_full : Prop := ∀ (N s : Nat) (delta ctr : Rat), 0 < s → 0 < N → N ≤ 2 ^ 30 → IsDouble delta → 0 < delta →
  IsDouble ctr → |ctr| ≤ 2 ^ 30 * delta → s ∣ N →
  ∃ bnd e, axisBoundsFl double N delta ctr = .ok bnd ∧ subdivideBndFl double bnd delta s = .ok e ∧ e.length = s + 1 ∧
    ∀ i < s, BoxesWide (e.getD i 0) (e.getD (i + 1) 0) delta (N / s : Nat)

/-- The edges of an axis are in order. -/
theorem axisEdge_mono {fl : Rat → Rat} (hm : ∀ v w, v ≤ w → fl v ≤ fl w) (n : Int) {d : Rat} (hd : 0 ≤ d) (c : Rat)
    {i j : Nat} (h : i ≤ j) : axisEdgeFl fl n d c i ≤ axisEdgeFl fl n d c j := by
  unfold axisEdgeFl
  have h' : (i : Rat) ≤ j := by exact_mod_cast h
  apply hm
  apply add_le_add_left
  apply hm
  apply add_le_add_left
  apply hm
  apply mul_le_mul_of_nonneg_right _ hd
  apply hm
  exact sub_le_sub_right h' _

theorem axisBoundsFl_eq {fl : Rat → Rat} (hm : ∀ v w, v ≤ w → fl v ≤ fl w) (N : Nat) {d : Rat} (hd : 0 ≤ d) (c : Rat) :
    axisBoundsFl fl N d c = .ok (axisEdgeFl fl (N + 1) d c 0, axisEdgeFl fl (N + 1) d c N) := by
  unfold axisBoundsFl
  have e : (((N : Int) + 1).toNat) = N + 1 := by omega
  simp only [e]
  rw [List.range_succ_eq_map, List.map_cons]
  simp only [Except.ok.injEq, Prod.mk.injEq]
  have hmem : ∀ x ∈ ((List.range N).map Nat.succ).map (axisEdgeFl fl (N + 1) d c),
      axisEdgeFl fl (N + 1) d c 0 ≤ x ∧ x ≤ axisEdgeFl fl (N + 1) d c N := by
    intro x hx
    obtain ⟨i, hi, rfl⟩ := List.mem_map.mp hx
    obtain ⟨j, hj, rfl⟩ := List.mem_map.mp hi
    have hj := List.mem_range.mp hj
    exact ⟨axisEdge_mono hm _ hd c (by omega), axisEdge_mono hm _ hd c (by omega)⟩
  constructor
  · exact foldl_min_eq _ _ _ (le_refl _) (fun x hx => (hmem x hx).1) (Or.inl rfl)
  · refine foldl_max_eq _ _ _ (axisEdge_mono hm _ hd c (by omega)) (fun x hx => (hmem x hx).2) ?_
    cases N with
    | zero => left; rfl
    | succ m => exact Or.inr (List.mem_map.mpr ⟨m + 1, List.mem_map.mpr ⟨m, by simp, rfl⟩, rfl⟩)

/-- The rows of the sector of the continental US at 2 km: 1500 boxes of 56 microradians around 86240 microradians.  In
two tiles they are cut after 749 boxes, not after 750. -/
theorem C114_full_false : ¬ C114_full := by
  intro h
  have hd : (0 : Rat) < double (56 / 1000000) := double_pos (by norm_num)
  obtain ⟨bnd, e, h1, h2, -, h4⟩ := h 1500 2 (double (56 / 1000000)) (double (86240 / 1000000)) (by norm_num) (by norm_num)
    (by norm_num) (double_isDouble _) hd (double_isDouble _) (by decide +kernel) (by norm_num)
  rw [axisBoundsFl_eq (fun _ _ => double_mono) 1500 (le_of_lt hd)] at h1
  cases h1
  have h5 := h4 0 (by norm_num)
  have h6 : (match subdivideBndFl double
      (axisEdgeFl double (((1500 : Nat) : Int) + 1) (double (56 / 1000000)) (double (86240 / 1000000)) 0,
        axisEdgeFl double (((1500 : Nat) : Int) + 1) (double (56 / 1000000)) (double (86240 / 1000000)) 1500)
      (double (56 / 1000000)) 2 with
      | .ok e => decide (|e.getD 1 0 - e.getD 0 0 - (750 : Int) * double (56 / 1000000)| ≤ double (56 / 1000000) / 1000)
      | .error _ => true) = false := by decide +kernel
  rw [h2] at h6
  have h7 := of_decide_eq_false h6
  exact h7 h5

theorem edgesFl_length (fl : Rat → Rat) (bnd : Rat × Rat) (delta : Rat) (s : Nat) (n : Int) :
    (subdivideEdgesFl fl bnd delta s n).length = s + 1 := by
  simp [subdivideEdgesFl]

theorem edgesFl_getD (fl : Rat → Rat) (bnd : Rat × Rat) (delta : Rat) {s : Nat} (n : Int) (k : Nat) (hk : k ≤ s) :
    (subdivideEdgesFl fl bnd delta s n).getD k 0 =
      if k < s then fl (fl (fl ((k : Rat) * delta) * pyInt (fl ((n : Rat) / s))) + bnd.1) else bnd.2 := by
  unfold subdivideEdgesFl
  simp only [List.length_map, List.length_range, Nat.add_sub_cancel]
  rw [List.getD_eq_getElem?_getD]
  by_cases h : k < s
  · rw [if_pos h, List.getElem?_set_ne (by omega), List.getElem?_map, List.getElem?_range (by omega)]
    rfl
  · have : k = s := by omega
    subst this
    rw [if_neg h, List.getElem?_set_self (by simp)]
    rfl

/-- With exact arithmetic the model is that of C47. -/
theorem subdivideBndFl_id : subdivideBndFl id = subdivideBnd := rfl

theorem axisBoundsFl_id : axisBoundsFl id = axisBounds := rfl

/-- C114: the edges run in order from the lower to the upper bound, which they contain exactly; so neighbouring tiles
meet without gap or overlap. -/
theorem C114_order (lo hi delta : Rat) (s : Nat) (hlo : IsDouble lo) (hhi : IsDouble hi) (hle : lo ≤ hi) (hd : 0 < delta)
    (hs : 0 < s) (hs' : s ≤ 2 ^ 50) (hmax : (hi - lo) / delta ≤ 2 ^ 50) :
    ∃ e, subdivideBndFl double (lo, hi) delta s = .ok e ∧ e.length = s + 1 ∧ e.getD 0 0 = lo ∧ e.getD s 0 = hi ∧
      ∀ i < s, e.getD i 0 ≤ e.getD (i + 1) 0 := by
  have hw0 : 0 ≤ hi - lo := by linarith
  have hW0 := double_nonneg hw0
  have hq0 : 0 ≤ double (hi - lo) / delta := div_nonneg hW0 (le_of_lt hd)
  have hQ0 := double_nonneg hq0
  have n1 := double_near (hi - lo)
  have n2 := double_near (double (hi - lo) / delta)
  rw [abs_of_nonneg hw0] at n1
  rw [abs_of_nonneg hq0] at n2
  have b1 := (abs_le.mp n1).2
  have b2 := (abs_le.mp n2).2
  obtain ⟨n, hn⟩ : ∃ n : Nat, ⌊double (double (hi - lo) / delta)⌋ = n := Int.eq_ofNat_of_zero_le (Int.floor_nonneg.mpr hQ0)
  have hnQ : (n : Rat) ≤ double (double (hi - lo) / delta) := by
    have := Int.floor_le (double (double (hi - lo) / delta))
    rw [hn] at this
    exact_mod_cast this
  have hs0 : (0 : Rat) < s := by exact_mod_cast hs
  have hdelta : double (hi - lo) / delta ≤ (hi - lo) / delta * (1 + 1 / 2 ^ 53) := by
    rw [div_mul_eq_mul_div]
    apply div_le_div_of_nonneg_right _ (le_of_lt hd)
    linarith
  have hwd : 0 ≤ (hi - lo) / delta := div_nonneg hw0 (le_of_lt hd)
  have hnb : (n : Rat) ≤ (hi - lo) / delta * (1 + 1 / 2 ^ 53) * (1 + 1 / 2 ^ 53) := by
    have := mul_le_mul_of_nonneg_right hdelta (show (0 : Rat) ≤ 1 + 1 / 2 ^ 53 by norm_num)
    linarith
  have hnmax : n < 2 ^ 53 := by
    have h1 : (hi - lo) / delta * (1 + 1 / 2 ^ 53) * (1 + 1 / 2 ^ 53) ≤ 2 ^ 50 * (1 + 1 / 2 ^ 53) * (1 + 1 / 2 ^ 53) := by
      apply mul_le_mul_of_nonneg_right _ (by norm_num)
      exact mul_le_mul_of_nonneg_right hmax (by norm_num)
    have h2 : (2 : Rat) ^ 50 * (1 + 1 / 2 ^ 53) * (1 + 1 / 2 ^ 53) < 2 ^ 53 := by norm_num
    have : (n : Rat) < 2 ^ 53 := by linarith
    exact_mod_cast this
  refine ⟨subdivideEdgesFl double (lo, hi) delta s n, ?_, edgesFl_length _ _ _ _ _, ?_, ?_, ?_⟩
  · unfold subdivideBndFl
    rw [if_neg (by rintro (h | h); exacts [hd.ne' h, hs.ne' h])]
    simp only [pyInt_of_nonneg hQ0, hn]
  · rw [edgesFl_getD _ _ _ _ _ (by omega), if_pos hs]
    simp [double_zero, double_eq hlo]
  · rw [edgesFl_getD _ _ _ _ _ le_rfl, if_neg (by omega)]
  · intro i hi'
    have hdn : pyInt (double (((n : Int) : Rat) / s)) = ((n / s : Nat) : Int) := by
      rw [Int.cast_natCast]; exact pyInt_double_div hs hnmax
    rw [edgesFl_getD _ _ _ _ _ (by omega), if_pos hi', edgesFl_getD _ _ _ _ _ (by omega), hdn]
    have hdn0 : (0 : Rat) ≤ (((n / s : Nat) : Int) : Rat) := by positivity
    split_ifs with h
    · apply double_mono
      apply add_le_add_left
      apply double_mono
      apply mul_le_mul_of_nonneg_right _ hdn0
      apply double_mono
      apply mul_le_mul_of_nonneg_right _ (le_of_lt hd)
      push_cast; linarith
    · -- the last tile
      have hi1 : i = s - 1 := by omega
      have key : double (double ((i : Rat) * delta) * (((n / s : Nat) : Int) : Rat)) ≤ hi - lo := by
        have hid : (0 : Rat) ≤ i * delta := by positivity
        have c1 := (abs_le.mp (double_near ((i : Rat) * delta))).2
        rw [abs_of_nonneg hid] at c1
        have hp0 : 0 ≤ double ((i : Rat) * delta) * (((n / s : Nat) : Int) : Rat) := mul_nonneg (double_nonneg hid) hdn0
        have c2 := (abs_le.mp (double_near (double ((i : Rat) * delta) * (((n / s : Nat) : Int) : Rat)))).2
        rw [abs_of_nonneg hp0] at c2
        have hdns : (((n / s : Nat) : Int) : Rat) * s ≤ n := by
          have : n / s * s ≤ n := Nat.div_mul_le_self n s
          exact_mod_cast this
        have hi2 : (i : Rat) = s - 1 := by
          rw [hi1, Nat.cast_sub hs]; simp
        set dn : Rat := (((n / s : Nat) : Int) : Rat)
        have d1 : double ((i : Rat) * delta) * dn ≤ i * delta * (1 + 1 / 2 ^ 53) * dn :=
          mul_le_mul_of_nonneg_right (by linarith) hdn0
        have d2 : double (double ((i : Rat) * delta) * dn) ≤ i * dn * delta * ((1 + 1 / 2 ^ 53) * (1 + 1 / 2 ^ 53)) := by
          have := mul_le_mul_of_nonneg_right d1 (show (0 : Rat) ≤ 1 + 1 / 2 ^ 53 by norm_num)
          linarith
        -- s * (i * dn) ≤ (s - 1) * n
        have d3 : (i : Rat) * dn ≤ (s - 1) * (n / s) := by
          rw [hi2]
          apply mul_le_mul_of_nonneg_left _ (by rw [← hi2]; positivity)
          rw [le_div_iff₀ hs0]; exact hdns
        have d4 : ((n : Rat) / s) * delta ≤ (hi - lo) / s * ((1 + 1 / 2 ^ 53) * (1 + 1 / 2 ^ 53)) := by
          have := mul_le_mul_of_nonneg_right hnb (le_of_lt hd)
          have e : (hi - lo) / delta * (1 + 1 / 2 ^ 53) * (1 + 1 / 2 ^ 53) * delta =
              (hi - lo) * ((1 + 1 / 2 ^ 53) * (1 + 1 / 2 ^ 53)) := by field_simp
          rw [e] at this
          rw [div_mul_eq_mul_div, div_mul_eq_mul_div]
          exact div_le_div_of_nonneg_right this (le_of_lt hs0)
        have hs1 : (0 : Rat) ≤ s - 1 := by rw [← hi2]; positivity
        have d5 : (i : Rat) * dn * delta ≤ (s - 1) * ((hi - lo) / s * ((1 + 1 / 2 ^ 53) * (1 + 1 / 2 ^ 53))) := by
          have a1 := mul_le_mul_of_nonneg_right d3 (le_of_lt hd)
          have a2 := mul_le_mul_of_nonneg_left d4 hs1
          linarith
        have d6 : (s - 1 : Rat) / s * ((1 + 1 / 2 ^ 53) ^ 4) ≤ 1 := by
          rw [div_mul_eq_mul_div, div_le_one hs0]
          have hsr : (s : Rat) ≤ 2 ^ 50 := by exact_mod_cast hs'
          have g : ((1 : Rat) + 1 / 2 ^ 53) ^ 4 ≤ 1 + 1 / 2 ^ 50 := by norm_num
          have := mul_le_mul_of_nonneg_left g hs1
          have g2 : (s : Rat) * (1 / 2 ^ 50) ≤ 1 := by
            rw [mul_one_div, div_le_one (by norm_num)]; exact hsr
          have g3 : (0 : Rat) ≤ 1 / 2 ^ 50 := by norm_num
          linarith
        have d7 := mul_le_mul_of_nonneg_right d5 (show (0 : Rat) ≤ (1 + 1 / 2 ^ 53) * (1 + 1 / 2 ^ 53) by norm_num)
        have d8 := mul_le_mul_of_nonneg_right d6 hw0
        have e : (s - 1 : Rat) * ((hi - lo) / s * ((1 + 1 / 2 ^ 53) * (1 + 1 / 2 ^ 53))) * ((1 + 1 / 2 ^ 53) * (1 + 1 / 2 ^ 53)) =
            (s - 1 : Rat) / s * ((1 + 1 / 2 ^ 53) ^ 4) * (hi - lo) := by ring
        rw [e] at d7
        linarith
      have := double_mono (show double (double ((i : Rat) * delta) * (((n / s : Nat) : Int) : Rat)) + lo ≤ hi by linarith)
      rwa [double_eq hhi] at this

/-- `C114_order` applies to 4000 boxes of a tenth in 7 tiles. -/
example : ∃ e, subdivideBndFl double (0, 400) (double (1 / 10)) 7 = .ok e ∧ e.length = 8 ∧ e.getD 0 0 = 0 ∧ e.getD 7 0 = 400 ∧
    ∀ i < 7, e.getD i 0 ≤ e.getD (i + 1) 0 :=
  C114_order 0 400 (double (1 / 10)) 7 ⟨0, 0, by norm_num, by norm_num⟩ ⟨400, 0, by norm_num, by norm_num⟩ (by norm_num)
    (double_pos (by norm_num)) (by norm_num) (by norm_num) (by decide +kernel)

/-- Rounding near a target: the error grows by the unit roundoff of its size. -/
theorem double_close {v t d e M e' : Rat} (hd : 0 < d) (h : |v - t| ≤ e * d) (ht : |t| ≤ M * d)
    (he : e + (M + e) / 2 ^ 53 ≤ e') : |double v - t| ≤ e' * d := by
  have h1 := double_near v
  have h2 : |v| ≤ (M + e) * d := by
    have := abs_sub_abs_le_abs_sub v t
    linarith
  have h3 := abs_sub_le (double v) v t
  have h4 : 1 / 2 ^ 53 * |v| ≤ 1 / 2 ^ 53 * ((M + e) * d) := mul_le_mul_of_nonneg_left h2 (by norm_num)
  have h5 := mul_le_mul_of_nonneg_right he (le_of_lt hd)
  have e1 : (e + (M + e) / 2 ^ 53) * d = e * d + 1 / 2 ^ 53 * ((M + e) * d) := by ring
  linarith

theorem axisEdge_close {N i : Nat} (hi : i ≤ N) (hN : N ≤ 2 ^ 30) {d c : Rat} (hd : 0 < d) (hdd : IsDouble d)
    (hc : |c| ≤ 2 ^ 30 * d) : |axisEdgeFl double (N + 1) d c i - (c - N * d / 2 + i * d)| ≤ 1 / 2 ^ 20 * d := by
  have hN' : (N : Rat) ≤ 2 ^ 30 := by exact_mod_cast hN
  have hi' : (i : Rat) ≤ N := by exact_mod_cast hi
  have hi0 : (0 : Rat) ≤ i := by positivity
  have hz1 : |((N : Int) + 1)| ≤ 2 ^ 53 := by rw [abs_le]; constructor <;> omega
  have hz2 : |(2 * (i : Int) - (N + 1))| ≤ 2 ^ 53 := by rw [abs_le]; constructor <;> omega
  have a1 : double ((((N : Int) + 1 : Int) : Rat) / 2) = (N + 1) / 2 := by
    rw [double_eq (isDouble_half hz1)]; push_cast; rfl
  have a2 : double ((i : Rat) - (N + 1) / 2) = i - (N + 1) / 2 := by
    have e : (i : Rat) - (N + 1) / 2 = ((2 * (i : Int) - (N + 1) : Int) : Rat) / 2 := by push_cast; ring
    rw [e, double_eq (isDouble_half hz2)]
  unfold axisEdgeFl
  rw [a1, a2, double_eq hdd.half]
  have t1 : |((i : Rat) - (N + 1) / 2) * d| ≤ 2 ^ 30 * d := by
    rw [abs_mul, abs_of_pos hd]
    apply mul_le_mul_of_nonneg_right _ (le_of_lt hd)
    rw [abs_le]; constructor <;> linarith
  have c1 : |double (((i : Rat) - (N + 1) / 2) * d) - ((i : Rat) - (N + 1) / 2) * d| ≤ 1 / 2 ^ 23 * d :=
    double_close (e := 0) (M := 2 ^ 30) hd (by simp) t1 (by norm_num)
  obtain ⟨p1, q1⟩ := abs_le.mp c1
  obtain ⟨p2, q2⟩ := abs_le.mp t1
  obtain ⟨p3, q3⟩ := abs_le.mp hc
  have c2 : |double (double (((i : Rat) - (N + 1) / 2) * d) + c) - (((i : Rat) - (N + 1) / 2) * d + c)| ≤ 1 / 2 ^ 21 * d := by
    refine double_close (e := 1 / 2 ^ 23) (M := 2 ^ 31) hd ?_ ?_ (by norm_num)
    · rw [add_sub_add_right_eq_sub]; exact c1
    · rw [abs_le]; constructor <;> linarith
  have e : c - N * d / 2 + i * d = ((i : Rat) - (N + 1) / 2) * d + c + 1 / 2 * d := by ring
  rw [e]
  refine double_close (e := 1 / 2 ^ 21) (M := 2 ^ 31 + 1) hd ?_ ?_ (by norm_num)
  · rw [add_sub_add_right_eq_sub]; exact c2
  · rw [abs_le]; constructor <;> linarith

/-- C114 for every domain and every number of tiles: each tile but the last has `m` boxes and the last has the rest, where
`m` is the whole quotient, or one less if the number of tiles divides the number of boxes. -/
theorem C114_boxes_partial (N s : Nat) (delta ctr : Rat) (hs : 0 < s) (hN0 : 0 < N) (hN : N ≤ 2 ^ 30)
    (hdd : IsDouble delta) (hd : 0 < delta) (hc : |ctr| ≤ 2 ^ 30 * delta) :
    ∃ bnd e m, axisBoundsFl double N delta ctr = .ok bnd ∧ subdivideBndFl double bnd delta s = .ok e ∧
      e.length = s + 1 ∧ e.getD 0 0 = bnd.1 ∧ e.getD s 0 = bnd.2 ∧
      |bnd.1 - (ctr - N * delta / 2)| ≤ delta / 1000 ∧ |bnd.2 - (ctr + N * delta / 2)| ≤ delta / 1000 ∧
      (m = N / s ∨ s ∣ N ∧ m = N / s - 1) ∧
      (∀ i, i + 1 < s → BoxesWide (e.getD i 0) (e.getD (i + 1) 0) delta m) ∧
      BoxesWide (e.getD (s - 1) 0) (e.getD s 0) delta ((N : Int) - (s - 1) * m) := by
  have hN' : (N : Rat) ≤ 2 ^ 30 := by exact_mod_cast hN
  have hN1 : (1 : Rat) ≤ N := by exact_mod_cast hN0
  have hNd : (0 : Rat) ≤ N * delta := by positivity
  obtain ⟨p3, q3⟩ := abs_le.mp hc
  have hlo := axisEdge_close (Nat.zero_le N) hN hd hdd hc
  have hhi := axisEdge_close (le_refl N) hN hd hdd hc
  have hlod : IsDouble (axisEdgeFl double (N + 1) delta ctr 0) := double_isDouble _
  set lo := axisEdgeFl double (N + 1) delta ctr 0
  set hi := axisEdgeFl double (N + 1) delta ctr N
  obtain ⟨l1, l2⟩ := abs_le.mp hlo
  obtain ⟨r1, r2⟩ := abs_le.mp hhi
  push_cast at l1 l2
  rw [zero_mul] at l1 l2
  have hNd' : (N : Rat) * delta ≤ 2 ^ 30 * delta := mul_le_mul_of_nonneg_right hN' (le_of_lt hd)
  -- the number of boxes
  have w1 : |double (hi - lo) - N * delta| ≤ 1 / 2 ^ 18 * delta := by
    refine double_close (e := 1 / 2 ^ 19) (M := 2 ^ 30) hd ?_ ?_ (by norm_num)
    · rw [abs_le]; constructor <;> linarith
    · rw [abs_of_nonneg hNd]; exact hNd'
  have w2 : |double (hi - lo) / delta - N| ≤ 1 / 2 ^ 18 * 1 := by
    have e : double (hi - lo) / delta - N = (double (hi - lo) - N * delta) / delta := by field_simp
    rw [e, abs_div, abs_of_pos hd, div_le_iff₀ hd, mul_one]
    exact w1
  have w3 : |double (double (hi - lo) / delta) - N| ≤ 1 / 2 ^ 17 * 1 := by
    refine double_close (e := 1 / 2 ^ 18) (M := 2 ^ 30) one_pos w2 ?_ (by norm_num)
    rw [abs_of_nonneg (by positivity), mul_one]; exact hN'
  obtain ⟨w4, w5⟩ := abs_le.mp w3
  have hQ0 : 0 ≤ double (double (hi - lo) / delta) := by linarith
  obtain ⟨n, hn⟩ : ∃ n : Nat, ⌊double (double (hi - lo) / delta)⌋ = n := Int.eq_ofNat_of_zero_le (Int.floor_nonneg.mpr hQ0)
  have f1 := Int.floor_le (double (double (hi - lo) / delta))
  have f2 := Int.lt_floor_add_one (double (double (hi - lo) / delta))
  rw [hn] at f1 f2
  have hnN : n = N ∨ n + 1 = N := by
    have c1 : ((n : Int) : Rat) < N + 1 := by linarith
    have c2 : (N : Rat) < ((n : Int) : Rat) + 2 := by linarith
    have d1 : n < N + 1 := by exact_mod_cast c1
    have d2 : N < n + 2 := by exact_mod_cast c2
    omega
  have hdn : pyInt (double (((n : Int) : Rat) / s)) = ((n / s : Nat) : Int) := by
    rw [Int.cast_natCast]; exact pyInt_double_div hs (by omega)
  -- the edges
  have hsub : subdivideBndFl double (lo, hi) delta s = .ok (subdivideEdgesFl double (lo, hi) delta s n) := by
    unfold subdivideBndFl
    rw [if_neg (by rintro (h | h); exacts [hd.ne' h, hs.ne' h])]
    simp only [pyInt_of_nonneg hQ0, hn]
  have h0 : (subdivideEdgesFl double (lo, hi) delta s n).getD 0 0 = lo := by
    rw [edgesFl_getD _ _ _ _ _ (by omega), if_pos hs]
    simp [double_zero, double_eq hlod]
  have hlast : (subdivideEdgesFl double (lo, hi) delta s n).getD s 0 = hi := by
    rw [edgesFl_getD _ _ _ _ _ le_rfl, if_neg (by omega)]
  have hedge : ∀ k, k < s → |(subdivideEdgesFl double (lo, hi) delta s n).getD k 0 -
      (k * ((n / s : Nat) : Rat) * delta + lo)| ≤ 1 / 2 ^ 19 * delta := by
    intro k hk
    rw [edgesFl_getD _ _ _ _ _ (le_of_lt hk), if_pos hk, hdn]
    have hkd : (k : Rat) * ((n / s : Nat) : Rat) ≤ 2 ^ 30 := by
      have h1 : k * (n / s) ≤ n := le_trans (Nat.mul_le_mul_right _ (le_of_lt hk)) (Nat.mul_div_le n s)
      have h2 : k * (n / s) ≤ 2 ^ 30 := by omega
      exact_mod_cast h2
    have hdn0 : (0 : Rat) ≤ ((n / s : Nat) : Rat) := by positivity
    have ecast : ((((n / s : Nat) : Int)) : Rat) = ((n / s : Nat) : Rat) := by push_cast; rfl
    rw [ecast]
    set dn : Rat := ((n / s : Nat) : Rat)
    have hk0 : (0 : Rat) ≤ k := by positivity
    have hkdd : (k : Rat) * dn * delta ≤ 2 ^ 30 * delta := mul_le_mul_of_nonneg_right hkd (le_of_lt hd)
    have hkdd0 : (0 : Rat) ≤ (k : Rat) * dn * delta := mul_nonneg (mul_nonneg hk0 hdn0) (le_of_lt hd)
    have y1 := double_near ((k : Rat) * delta)
    rw [abs_of_nonneg (show (0 : Rat) ≤ k * delta from mul_nonneg hk0 (le_of_lt hd))] at y1
    have y2 : |double ((k : Rat) * delta) * dn - k * dn * delta| ≤ 1 / 2 ^ 23 * delta := by
      have e : double ((k : Rat) * delta) * dn - k * dn * delta = (double ((k : Rat) * delta) - k * delta) * dn := by ring
      rw [e, abs_mul, abs_of_nonneg hdn0]
      have := mul_le_mul_of_nonneg_right y1 hdn0
      have e2 : 1 / 2 ^ 53 * ((k : Rat) * delta) * dn = 1 / 2 ^ 53 * (k * dn * delta) := by ring
      have e3 : (1 : Rat) / 2 ^ 53 * (k * dn * delta) ≤ 1 / 2 ^ 53 * (2 ^ 30 * delta) :=
        mul_le_mul_of_nonneg_left hkdd (by norm_num)
      have e4 : (1 : Rat) / 2 ^ 53 * (2 ^ 30 * delta) = 1 / 2 ^ 23 * delta := by ring
      linarith
    have y3 : |double (double ((k : Rat) * delta) * dn) - k * dn * delta| ≤ 1 / 2 ^ 21 * delta := by
      refine double_close (e := 1 / 2 ^ 23) (M := 2 ^ 30) hd y2 ?_ (by norm_num)
      rw [abs_of_nonneg hkdd0]; exact hkdd
    refine double_close (e := 1 / 2 ^ 21) (M := 2 ^ 32) hd ?_ ?_ (by norm_num)
    · rw [add_sub_add_right_eq_sub]; exact y3
    · rw [abs_le]; constructor <;> linarith
  have hm : n / s = N / s ∨ s ∣ N ∧ n / s = N / s - 1 := by
    rcases hnN with h | h
    · left; rw [h]
    · by_cases hdiv : s ∣ N
      · right
        refine ⟨hdiv, ?_⟩
        obtain ⟨q, rfl⟩ := hdiv
        rw [Nat.mul_div_cancel_left _ hs]
        have hq : 0 < q := by
          rcases Nat.eq_zero_or_pos q with h' | h'
          · subst h'; omega
          · exact h'
        have e : n = (s - 1) + s * (q - 1) := by
          have : s * q = s * (q - 1) + s := by
            conv_lhs => rw [show q = q - 1 + 1 by omega, Nat.mul_add, Nat.mul_one]
          omega
        rw [e, Nat.add_mul_div_left _ _ hs, Nat.div_eq_of_lt (by omega)]
        omega
      · left
        rw [← h, Nat.succ_div, if_neg (by rw [h]; exact hdiv)]
        rfl
  clear hdn
  generalize n / s = q at hm hedge
  refine ⟨(lo, hi), _, q, axisBoundsFl_eq (fun _ _ => double_mono) N (le_of_lt hd) ctr, hsub, edgesFl_length _ _ _ _ _,
    h0, hlast, ?_, ?_, hm, ?_, ?_⟩
  · show |lo - _| ≤ _
    rw [abs_le]; constructor <;> linarith
  · show |hi - _| ≤ _
    rw [abs_le]; constructor <;> linarith
  · intro i hi'
    obtain ⟨x1, x2⟩ := abs_le.mp (hedge i (by omega))
    obtain ⟨z1, z2⟩ := abs_le.mp (hedge (i + 1) hi')
    unfold BoxesWide
    push_cast at z1 z2 ⊢
    rw [abs_le]
    constructor <;> linarith
  · rw [hlast]
    obtain ⟨x1, x2⟩ := abs_le.mp (hedge (s - 1) (by omega))
    have es : ((s - 1 : Nat) : Rat) = s - 1 := by rw [Nat.cast_sub hs]; simp
    rw [es] at x1 x2
    unfold BoxesWide
    push_cast
    rw [abs_le]
    constructor <;> linarith

/-- C114 where all bounds are exact: a spacing and a lower bound that are whole multiples of a power of two, which with
the size of the domain stay below 2^53 of its units, give exactly the tiles of C47. -/
theorem C114_exact_partial (a N s : Nat) (b k : Int) (ha : 0 < a) (hs : 0 < s) (hmax : |b| + N * a < 2 ^ 53) :
    let delta : Rat := a * 2 ^ k
    let lo : Rat := b * 2 ^ k
    subdivideBndFl double (lo, lo + N * delta) delta s = subdivideBnd (lo, lo + N * delta) delta s := by
  intro delta lo
  have h2 : (0 : Rat) < 2 ^ k := by positivity
  have ha' : (0 : Rat) < a := by exact_mod_cast ha
  have hd : 0 < delta := mul_pos ha' h2
  have hb0 : 0 ≤ |b| := abs_nonneg b
  have hNa : (N : Int) * a ≤ 2 ^ 53 := by linarith
  have hN53 : (N : Int) ≤ 2 ^ 53 := by
    have : (N : Int) * 1 ≤ N * a := by
      apply mul_le_mul_of_nonneg_left _ (by positivity)
      exact_mod_cast ha
    linarith
  rw [subdivideBnd_boxes lo delta N s hs hd]
  unfold subdivideBndFl
  rw [if_neg (by rintro (h | h); exacts [hd.ne' h, hs.ne' h])]
  have e1 : double (lo + N * delta - lo) = N * delta := by
    have : IsDouble (N * delta) := by
      refine ⟨(N : Int) * a, k, ?_, ?_⟩
      · rw [abs_of_nonneg (by positivity)]; exact hNa
      · show (N : Rat) * (a * 2 ^ k) = _
        push_cast; ring
    rw [show lo + N * delta - lo = N * delta by ring, double_eq this]
  have e2 : double ((N : Rat) * delta / delta) = N := by
    rw [mul_div_assoc, div_self (ne_of_gt hd), mul_one, double_eq (isDouble_nat (by exact_mod_cast hN53))]
  have e3 : pyInt ((N : Rat)) = (N : Int) := by
    rw [pyInt_of_nonneg (by positivity)]; simp
  simp only [e1, e2, e3]
  congr 1
  -- the edges
  have hlen : (subdivideEdgesFl double (lo, lo + N * delta) delta s N).length =
      (subdivideEdges (lo, lo + N * delta) delta s N).length := by
    rw [edgesFl_length, edges_length]
  apply List.ext_getElem hlen
  intro i h1 h2'
  rw [edgesFl_length] at h1
  have g1 : (subdivideEdgesFl double (lo, lo + N * delta) delta s N)[i] =
      (subdivideEdgesFl double (lo, lo + N * delta) delta s N).getD i 0 := by
    rw [List.getD_eq_getElem?_getD, List.getElem?_eq_getElem (by rw [edgesFl_length]; exact h1), Option.getD_some]
  have g2 : (subdivideEdges (lo, lo + N * delta) delta s N)[i] =
      (subdivideEdges (lo, lo + N * delta) delta s N).getD i 0 := by
    rw [List.getD_eq_getElem?_getD, List.getElem?_eq_getElem (by rw [edges_length]; exact h1), Option.getD_some]
  rw [g1, g2, edgesFl_getD _ _ _ _ _ (by omega), edges_getD _ _ _ _ (by omega)]
  split_ifs with hi
  · have hdn : pyInt (double (((N : Int) : Rat) / s)) = ((N / s : Nat) : Int) := by
      rw [Int.cast_natCast]
      exact pyInt_double_div hs (by
        have : (N : Int) < 2 ^ 53 := by
          have : (N : Int) * 1 ≤ N * a := by
            apply mul_le_mul_of_nonneg_left _ (by positivity)
            exact_mod_cast ha
          linarith
        exact_mod_cast this)
    rw [hdn]
    have hNs : N / s * i ≤ N := le_trans (Nat.mul_le_mul_left _ (le_of_lt hi)) (Nat.div_mul_le_self N s)
    generalize N / s = q at hNs
    have hq : ((q : Int) : Rat) = q := by push_cast; rfl
    rw [hq]
    rcases Nat.eq_zero_or_pos q with h0 | h0
    · subst h0
      have hlod : IsDouble lo := ⟨b, k, by
        have : (0 : Int) ≤ N * a := by positivity
        linarith, rfl⟩
      simp [double_zero, double_eq hlod]
    · have hqi : (q : Int) * i * a ≤ N * a := mul_le_mul_of_nonneg_right (by exact_mod_cast hNs) (by positivity)
      have hia : (i : Int) * a ≤ q * i * a := by
        rw [mul_assoc]
        exact le_mul_of_one_le_left (by positivity) (by exact_mod_cast h0)
      have d1 : IsDouble ((i : Rat) * delta) := by
        refine ⟨(i : Int) * a, k, ?_, ?_⟩
        · rw [abs_of_nonneg (by positivity)]; linarith
        · show (i : Rat) * (a * 2 ^ k) = _
          push_cast; ring
      have d2 : IsDouble ((i : Rat) * delta * q) := by
        refine ⟨(q : Int) * i * a, k, ?_, ?_⟩
        · rw [abs_of_nonneg (by positivity)]; linarith
        · show (i : Rat) * (a * 2 ^ k) * q = _
          push_cast; ring
      have d3 : IsDouble ((i : Rat) * delta * q + lo) := by
        refine ⟨(q : Int) * i * a + b, k, ?_, ?_⟩
        · refine le_trans (abs_add_le _ _) ?_
          rw [abs_of_nonneg (show (0 : Int) ≤ (q : Int) * i * a by positivity)]; linarith
        · show (i : Rat) * (a * 2 ^ k) * q + b * 2 ^ k = _
          push_cast; ring
      rw [double_eq d1, double_eq d2, double_eq d3]
      show (i : Rat) * delta * q + lo = lo + i * (q * delta)
      ring
  · rfl

/-- The exact case: 0 to 4 in steps of a half, as in the documentation of `subdivide_bnd`. -/
example : subdivideBndFl double (((0 : Int) : Rat) * 2 ^ (-1 : Int), ((0 : Int) : Rat) * 2 ^ (-1 : Int) + (8 : Nat) * ((1 : Nat) * 2 ^ (-1 : Int)))
    ((1 : Nat) * 2 ^ (-1 : Int)) 3 =
    subdivideBnd (((0 : Int) : Rat) * 2 ^ (-1 : Int), ((0 : Int) : Rat) * 2 ^ (-1 : Int) + (8 : Nat) * ((1 : Nat) * 2 ^ (-1 : Int)))
    ((1 : Nat) * 2 ^ (-1 : Int)) 3 :=
  C114_exact_partial 1 8 3 0 (-1) (by norm_num) (by norm_num) (by norm_num)

/-- The columns of the same sector of the continental US are cut in the middle: 2500 boxes around -31360 microradians. -/
example : ∃ bnd e m, axisBoundsFl double (2500 : Nat) (double (56 / 1000000)) (double (-31360 / 1000000)) = .ok bnd ∧
    subdivideBndFl double bnd (double (56 / 1000000)) 2 = .ok e ∧ (m = 1250 ∨ m = 1249) ∧
    BoxesWide (e.getD 0 0) (e.getD 1 0) (double (56 / 1000000)) m := by
  obtain ⟨bnd, e, m, h1, h2, -, -, -, -, -, h3, h4, -⟩ := C114_boxes_partial 2500 2 (double (56 / 1000000))
    (double (-31360 / 1000000)) (by norm_num) (by norm_num) (by norm_num) (double_isDouble _) (double_pos (by norm_num))
    (by decide +kernel)
  exact ⟨bnd, e, m, h1, h2, by omega, h4 0 (by norm_num)⟩

end Verif.Props
