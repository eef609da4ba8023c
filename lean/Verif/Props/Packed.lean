import Verif.Props.Double
import Verif.Props.Values

/-!
# C115: packed locations in double precision
-/

namespace Verif.Props

open Verif.Py Verif.Model Verif.Spec Verif.Proofs

/-- The coordinate of a count in the product: the count times 0.00203128 degrees, from the lower end of the field of
view. -/
def countLocation (offset : Rat) (n : Int) : Rat := n * (203128 / 100000000) + offset

/-- A coordinate is that of a count, up to a thousandth of the distance of two counts. -/
def AtCount (offset : Rat) (n : Int) (v : Rat) : Prop := |v - countLocation offset n| ≤ 203128 / 100000000 / 1000

/-- The precision in which the attributes of the file are stored: single (24 bits) or double (53 bits). -/
def AttributeBits (p : Nat) : Prop := p = 24 ∨ p = 53

/-- C115: the latitude and longitude of every event are restored to the count that is in the file, in double precision,
whether the attributes of the file are in single or in double precision. -/
def C115_full : Prop := ∀ (p : Nat) (c : Int), AttributeBits p → 0 ≤ c → c < 65536 →
  AtCount (-6656 / 100) c (fixLocationFl double locationScaleD latOffsetD
    (decodeFl double (roundBits p (203128 / 100000000)) (roundBits p (-6656 / 100)) (asSigned 16 c))) ∧
  AtCount (-15606 / 100) c (fixLocationFl double locationScaleD lonOffsetD
    (decodeFl double (roundBits p (203128 / 100000000)) (roundBits p (-15606 / 100)) (asSigned 16 c)))

theorem atCount_unique {offset v : Rat} {m n : Int} (hm : AtCount offset m v) (hn : AtCount offset n v) : m = n := by
  unfold AtCount countLocation at hm hn
  obtain ⟨a, b⟩ := abs_le.mp hm
  obtain ⟨c, d⟩ := abs_le.mp hn
  have h1 : (m : Rat) < n + 1 := by linarith
  have h2 : (n : Rat) < m + 1 := by linarith
  have h3 : m < n + 1 := by exact_mod_cast h1
  have h4 : n < m + 1 := by exact_mod_cast h2
  omega

/-- The constants. -/
structure Constants (s o S O : Rat) : Prop where
  s_lo : 2 / 1000 ≤ s
  s_hi : s ≤ 2032 / 1000000
  o_abs : |o| ≤ 157
  S_near : |S - s| ≤ 1 / 10000000000
  O_near : |O - o| ≤ 1 / 100000

/-- The quotient that is truncated. -/
theorem unscale_close {s o S O : Rat} (h : Constants s o S O) {c : Int} (hc : |c| ≤ 32768) :
    |double (double (decodeFl double S O c - o) / s) - (c * S + O - o) / s| ≤ 1 / 2 ^ 33 := by
  have hs : 0 < s := by linarith [h.s_lo]
  have hc' : |(c : Rat)| ≤ 32768 := by exact_mod_cast hc
  obtain ⟨c1, c2⟩ := abs_le.mp hc'
  obtain ⟨o1, o2⟩ := abs_le.mp h.o_abs
  obtain ⟨S1, S2⟩ := abs_le.mp h.S_near
  obtain ⟨O1, O2⟩ := abs_le.mp h.O_near
  have hS0 : 0 ≤ S := by linarith [h.s_lo]
  have hS : S ≤ 204 / 100000 := by linarith [h.s_hi]
  have hcS : |(c : Rat) * S| ≤ 68 := by
    rw [abs_mul, abs_of_nonneg hS0]
    calc |(c : Rat)| * S ≤ 32768 * (204 / 100000) := mul_le_mul hc' hS hS0 (by norm_num)
      _ ≤ 68 := by norm_num
  obtain ⟨p1, p2⟩ := abs_le.mp hcS
  have a1 : |double ((c : Rat) * S) - c * S| ≤ 1 / 2 ^ 46 * 1 :=
    double_close (e := 0) (M := 68) one_pos (by simp) (by linarith) (by norm_num)
  have a2 : |double (double ((c : Rat) * S) + O) - (c * S + O)| ≤ 1 / 2 ^ 44 * 1 := by
    refine double_close (e := 1 / 2 ^ 46) (M := 226) one_pos ?_ ?_ (by norm_num)
    · rw [add_sub_add_right_eq_sub]; exact a1
    · rw [abs_le]; constructor <;> linarith
  have a3 : |double (decodeFl double S O c - o) - (c * S + O - o)| ≤ 1 / 2 ^ 43 * 1 := by
    refine double_close (e := 1 / 2 ^ 44) (M := 69) one_pos ?_ ?_ (by norm_num)
    · rw [sub_sub_sub_cancel_right]; exact a2
    · rw [abs_le]; constructor <;> linarith
  have hdiv : ∀ x e : Rat, |x| ≤ e → |x / s| ≤ 500 * e := by
    intro x e hx
    rw [abs_div, abs_of_pos hs, div_le_iff₀ hs]
    have he : 0 ≤ e := le_trans (abs_nonneg x) hx
    nlinarith [h.s_lo]
  have a4 : |double (decodeFl double S O c - o) / s - (c * S + O - o) / s| ≤ 1 / 2 ^ 34 * 1 := by
    rw [← sub_div]
    refine le_trans (hdiv _ _ a3) (by norm_num)
  have a5 := double_close (e := 1 / 2 ^ 34) (M := 34500) (e' := 1 / 2 ^ 33) one_pos a4 (by
    refine le_trans (hdiv (c * S + O - o) 69 ?_) (by norm_num)
    rw [abs_le]; constructor <;> linarith) (by norm_num)
  rwa [mul_one] at a5

/-- What is made of a count. -/
theorem restored_at {s o : Rat} {n : Int} {offset : Rat} (hs : |s - 203128 / 100000000| ≤ 1 / 2 ^ 53)
    (ho : |o - offset| ≤ 1 / 2 ^ 43) (ho' : |offset| ≤ 157) (hn : |n| ≤ 65536) :
    AtCount offset n (double (double ((n : Rat) * s) + o)) := by
  have hn' : |(n : Rat)| ≤ 65536 := by exact_mod_cast hn
  have h1 : |(n : Rat) * s - n * (203128 / 100000000)| ≤ 1 / 2 ^ 37 * 1 := by
    rw [← mul_sub, abs_mul]
    calc |(n : Rat)| * |s - 203128 / 100000000| ≤ 65536 * (1 / 2 ^ 53) := mul_le_mul hn' hs (abs_nonneg _) (by norm_num)
      _ ≤ _ := by norm_num
  have h2 : |(n : Rat) * (203128 / 100000000)| ≤ 134 * 1 := by
    rw [abs_mul, abs_of_pos (show (0 : Rat) < 203128 / 100000000 by norm_num)]
    calc |(n : Rat)| * (203128 / 100000000) ≤ 65536 * (203128 / 100000000) := mul_le_mul_of_nonneg_right hn' (by norm_num)
      _ ≤ _ := by norm_num
  have h3 : |double ((n : Rat) * s) - n * (203128 / 100000000)| ≤ 1 / 2 ^ 36 * 1 :=
    double_close one_pos h1 h2 (by norm_num)
  obtain ⟨a, b⟩ := abs_le.mp h3
  obtain ⟨c, d⟩ := abs_le.mp ho
  obtain ⟨e, f⟩ := abs_le.mp ho'
  obtain ⟨g, k⟩ := abs_le.mp h2
  have h4 : |double (double ((n : Rat) * s) + o) - countLocation offset n| ≤ 1 / 2 ^ 34 * 1 := by
    unfold countLocation
    refine double_close (e := 1 / 2 ^ 35) (M := 292) one_pos ?_ ?_ (by norm_num)
    · rw [abs_le]; constructor <;> linarith
    · rw [abs_le]; constructor <;> linarith
  unfold AtCount
  refine le_trans h4 (by norm_num)

/-- From the error of the quotient to the count. -/
theorem fixLocationFl_count {s o v : Rat} {offset e : Rat} {c : Int} (h0 : 0 ≤ c) (h1 : c < 65536)
    (hs : |s - 203128 / 100000000| ≤ 1 / 2 ^ 53) (ho : |o - offset| ≤ 1 / 2 ^ 43) (ho' : |offset| ≤ 157)
    (hq : double (double (v - o) / s) = (asSigned 16 c : Rat) + e) (he : -1 < e ∧ e < 1) :
    AtCount offset (if c = 65535 ∧ 0 < e then 0
       else if 0 < c ∧ c < 32768 ∧ e < 0 then c - 1
       else if 32768 ≤ c ∧ 0 < e then c + 1
       else c) (fixLocationFl double s o v) := by
  unfold fixLocationFl
  rw [hq]
  obtain ⟨k0, k1, k2⟩ := castInt_near (asSigned 16 c) e he 0
  have hsg : asSigned 16 c = if c < 32768 then c else c - 65536 := by
    unfold asSigned; norm_num
  have hn : (let n := castInt 0 (some ((asSigned 16 c : Rat) + e)); if n < 0 then n + 2 ^ 16 else n) =
      (if c = 65535 ∧ 0 < e then 0
       else if 0 < c ∧ c < 32768 ∧ e < 0 then c - 1
       else if 32768 ≤ c ∧ 0 < e then c + 1
       else c : Int) := by
    simp only
    rw [hsg] at k0 k1 k2 ⊢
    by_cases hlow : c < 32768
    · simp only [if_pos hlow] at k0 k1 k2 ⊢
      rcases Int.lt_or_le 0 c with hp | hz
      · rw [k1 hp, if_neg (c := c = 65535 ∧ 0 < e) (fun hc => by omega)]
        by_cases hneg : e < 0
        · rw [if_pos hneg, if_neg (by omega), if_pos ⟨hp, hlow, hneg⟩]
        · rw [if_neg hneg, if_neg (by omega), if_neg (fun hc => hneg hc.2.2),
            if_neg (fun hc => by omega)]
      · have : c = 0 := by omega
        subst this
        rw [k0 rfl]
        simp
    · simp only [if_neg hlow] at k0 k1 k2 ⊢
      rw [k2 (by omega)]
      by_cases hpos : 0 < e
      · rw [if_pos hpos]
        by_cases h5 : c = 65535
        · subst h5
          rw [if_pos (c := (65535 : Int) = 65535 ∧ 0 < e) ⟨rfl, hpos⟩]
          norm_num
        · rw [if_pos (by omega), if_neg (fun hc => h5 hc.1), if_neg (fun hc => hlow hc.2.1),
            if_pos ⟨by omega, hpos⟩]
          ring
      · rw [if_neg hpos, if_pos (by omega), if_neg (fun hc => hpos hc.2), if_neg (fun hc => hlow hc.2.1),
          if_neg (fun hc => hpos hc.2)]
        ring
  simp only at hn ⊢
  rw [hn]
  apply restored_at hs ho ho'
  rw [abs_le]
  split_ifs <;> constructor <;> omega

theorem asSigned_abs {c : Int} (h0 : 0 ≤ c) (h1 : c < 65536) : |asSigned 16 c| ≤ 32768 := by
  unfold asSigned
  rw [abs_le]
  split_ifs <;> norm_num at * <;> constructor <;> omega

/-- The constants of the code, as doubles. -/
theorem constants_close : |locationScaleD - 203128 / 100000000| ≤ 1 / 2 ^ 53 ∧ |latOffsetD - (-6656 / 100)| ≤ 1 / 2 ^ 43 ∧
    |lonOffsetD - (-15606 / 100)| ≤ 1 / 2 ^ 43 := by decide +kernel

theorem constants_single :
    Constants locationScaleD latOffsetD (roundBits 24 (203128 / 100000000)) (roundBits 24 (-6656 / 100)) ∧
    Constants locationScaleD lonOffsetD (roundBits 24 (203128 / 100000000)) (roundBits 24 (-15606 / 100)) :=
  ⟨⟨by decide +kernel, by decide +kernel, by decide +kernel, by decide +kernel, by decide +kernel⟩,
    ⟨by decide +kernel, by decide +kernel, by decide +kernel, by decide +kernel, by decide +kernel⟩⟩

theorem constants_double :
    Constants locationScaleD latOffsetD (roundBits 53 (203128 / 100000000)) (roundBits 53 (-6656 / 100)) ∧
    Constants locationScaleD lonOffsetD (roundBits 53 (203128 / 100000000)) (roundBits 53 (-15606 / 100)) :=
  ⟨⟨by decide +kernel, by decide +kernel, by decide +kernel, by decide +kernel, by decide +kernel⟩,
    ⟨by decide +kernel, by decide +kernel, by decide +kernel, by decide +kernel, by decide +kernel⟩⟩

/-- The error of the quotient, as a function of the count. -/
theorem quotient_error {s o S O : Rat} (h : Constants s o S O) {c : Int} (hc : |c| ≤ 32768) :
    |(double (double (decodeFl double S O c - o) / s) - c) - (c * (S - s) + (O - o)) / s| ≤ 1 / 2 ^ 33 := by
  have hs : 0 < s := by linarith [h.s_lo]
  have e : (c * S + O - o) / s - c = (c * (S - s) + (O - o)) / s := by field_simp; ring
  rw [← e]
  have := unscale_close h hc
  rwa [show double (double (decodeFl double S O c - o) / s) - (c : Rat) - ((c * S + O - o) / s - c) =
    double (double (decodeFl double S O c - o) / s) - (c * S + O - o) / s by ring]

/-- What becomes of a count if the attributes of the file are in single precision. -/
def shiftedCount (c : Int) : Int := if c < 32768 then c else if c = 65535 then 0 else c + 1

/-- C115, exactly, for attributes in single precision, as they are in the product: counts in the lower half of the field
of view are restored; counts in the upper half come out one too large, and the largest one becomes the smallest. -/
theorem C115_single (c : Int) (h0 : 0 ≤ c) (h1 : c < 65536) :
    AtCount (-6656 / 100) (shiftedCount c) (fixLocationFl double locationScaleD latOffsetD
      (decodeFl double (roundBits 24 (203128 / 100000000)) (roundBits 24 (-6656 / 100)) (asSigned 16 c))) ∧
    AtCount (-15606 / 100) (shiftedCount c) (fixLocationFl double locationScaleD lonOffsetD
      (decodeFl double (roundBits 24 (203128 / 100000000)) (roundBits 24 (-15606 / 100)) (asSigned 16 c))) := by
  obtain ⟨k1, k2, k3⟩ := constants_close
  have hsh : ∀ e : Rat, 0 < e → shiftedCount c = (if c = 65535 ∧ 0 < e then 0
       else if 0 < c ∧ c < 32768 ∧ e < 0 then c - 1
       else if 32768 ≤ c ∧ 0 < e then c + 1
       else c) := by
    intro e he
    have hne : ¬ e < 0 := not_lt.mpr (le_of_lt he)
    unfold shiftedCount
    simp only [he, hne, and_true, and_false, if_false]
    split_ifs <;> omega
  have key : ∀ s o S O offset : Rat, Constants s o S O → |s - 203128 / 100000000| ≤ 1 / 2 ^ 53 → |o - offset| ≤ 1 / 2 ^ 43 →
      |offset| ≤ 157 → 1 / 10000 ≤ (32768 * (S - s) + (O - o)) / s → 1 / 10000 ≤ (-32768 * (S - s) + (O - o)) / s →
      (32768 * (S - s) + (O - o)) / s ≤ 1 / 2 → (-32768 * (S - s) + (O - o)) / s ≤ 1 / 2 →
      AtCount offset (shiftedCount c) (fixLocationFl double s o (decodeFl double S O (asSigned 16 c))) := by
    intro s o S O offset hC hs ho ho' l1 l2 l3 l4
    have hs0 : 0 < s := by linarith [hC.s_lo]
    have hc := asSigned_abs h0 h1
    obtain ⟨q1, q2⟩ := abs_le.mp (quotient_error hC hc)
    set x : Rat := (asSigned 16 c : Rat) with hx
    have hx' : |x| ≤ 32768 := by rw [hx]; exact_mod_cast hc
    obtain ⟨x1, x2⟩ := abs_le.mp hx'
    rw [div_le_iff₀ hs0] at l3 l4
    rw [le_div_iff₀ hs0] at l1 l2
    -- the error is linear in the count
    have m1 : 1 / 10000 * s ≤ x * (S - s) + (O - o) := by
      rcases le_total 0 (S - s) with h | h <;> nlinarith
    have m2 : x * (S - s) + (O - o) ≤ 1 / 2 * s := by
      rcases le_total 0 (S - s) with h | h <;> nlinarith
    rw [← le_div_iff₀ hs0] at m1
    rw [← div_le_iff₀ hs0] at m2
    have t : (1 : Rat) / 2 ^ 33 < 1 / 10000 := by norm_num
    have he : 0 < double (double (decodeFl double S O (asSigned 16 c) - o) / s) - x ∧
        double (double (decodeFl double S O (asSigned 16 c) - o) / s) - x < 1 := by
      constructor <;> linarith
    rw [hsh _ he.1]
    exact fixLocationFl_count h0 h1 hs ho ho' (by rw [← hx]; ring) ⟨by linarith [he.1], he.2⟩
  exact ⟨key _ _ _ _ _ constants_single.1 k1 k2 (by norm_num [abs_of_neg]) (by decide +kernel) (by decide +kernel)
      (by decide +kernel) (by decide +kernel),
    key _ _ _ _ _ constants_single.2 k1 k3 (by norm_num [abs_of_neg]) (by decide +kernel) (by decide +kernel)
      (by decide +kernel) (by decide +kernel)⟩

/-- C115 for attributes in single or in double precision: every count but the largest comes out as itself or as a
neighbour; the largest may also become the smallest. -/
theorem C115_near_partial (p : Nat) (c : Int) (hp : AttributeBits p) (h0 : 0 ≤ c) (h1 : c < 65536) :
    (∃ n : Int, (|n - c| ≤ 1 ∨ c = 65535 ∧ n = 0) ∧ AtCount (-6656 / 100) n (fixLocationFl double locationScaleD latOffsetD
      (decodeFl double (roundBits p (203128 / 100000000)) (roundBits p (-6656 / 100)) (asSigned 16 c)))) ∧
    ∃ n : Int, (|n - c| ≤ 1 ∨ c = 65535 ∧ n = 0) ∧ AtCount (-15606 / 100) n (fixLocationFl double locationScaleD lonOffsetD
      (decodeFl double (roundBits p (203128 / 100000000)) (roundBits p (-15606 / 100)) (asSigned 16 c))) := by
  rcases hp with rfl | rfl
  · obtain ⟨a, b⟩ := C115_single c h0 h1
    have : |shiftedCount c - c| ≤ 1 ∨ c = 65535 ∧ shiftedCount c = 0 := by
      unfold shiftedCount
      split_ifs with h h'
      · left; simp
      · exact Or.inr ⟨h', rfl⟩
      · left; simp
    exact ⟨⟨_, this, a⟩, _, this, b⟩
  · obtain ⟨k1, k2, k3⟩ := constants_close
    have key : ∀ s o S O offset : Rat, Constants s o S O → |s - 203128 / 100000000| ≤ 1 / 2 ^ 53 → |o - offset| ≤ 1 / 2 ^ 43 →
        |offset| ≤ 157 → S = s → O = o →
        ∃ n : Int, (|n - c| ≤ 1 ∨ c = 65535 ∧ n = 0) ∧
          AtCount offset n (fixLocationFl double s o (decodeFl double S O (asSigned 16 c))) := by
      intro s o S O offset hC hs ho ho' e1 e2
      have hq := quotient_error hC (asSigned_abs h0 h1)
      rw [e1, e2, sub_self, sub_self, mul_zero, add_zero, zero_div, sub_zero] at hq
      obtain ⟨q1, q2⟩ := abs_le.mp hq
      have t : (1 : Rat) / 2 ^ 33 < 1 := by norm_num
      have := fixLocationFl_count (v := decodeFl double S O (asSigned 16 c)) (e := double (double (decodeFl double S O (asSigned 16 c) - o) / s) - (asSigned 16 c : Rat))
        h0 h1 hs ho ho' (by ring) (by rw [e1, e2]; constructor <;> linarith)
      refine ⟨_, ?_, this⟩
      split_ifs with a b d
      · exact Or.inr ⟨a.1, rfl⟩
      · left; simp
      · left; simp
      · left; simp
    exact ⟨key _ _ _ _ _ constants_double.1 k1 k2 (by norm_num [abs_of_neg]) rfl rfl,
      key _ _ _ _ _ constants_double.2 k1 k3 (by norm_num [abs_of_neg]) rfl rfl⟩

/-- C115 is violated: the count 40000 comes out as 40001. -/
theorem C115_full_false : ¬ C115_full := by
  intro h
  have h1 := (h 24 40000 (Or.inl rfl) (by norm_num) (by norm_num)).1
  have h2 := (C115_single 40000 (by norm_num) (by norm_num)).1
  have := atCount_unique h1 h2
  simp [shiftedCount] at this

/-- The upper end of the field of view: the largest count goes to the lower end, 133 degrees away. -/
example : AtCount (-6656 / 100) 0 (fixLocationFl double locationScaleD latOffsetD
      (decodeFl double (roundBits 24 (203128 / 100000000)) (roundBits 24 (-6656 / 100)) (asSigned 16 65535))) :=
  (C115_single 65535 (by norm_num) (by norm_num)).1

/-- With attributes in double precision counts are wrong as well: 3 is restored, 1 becomes 0 and 65535 becomes 0. -/
example : AtCount (-6656 / 100) 0 (fixLocationFl double locationScaleD latOffsetD
      (decodeFl double (roundBits 53 (203128 / 100000000)) (roundBits 53 (-6656 / 100)) (asSigned 16 1))) ∧
    AtCount (-6656 / 100) 0 (fixLocationFl double locationScaleD latOffsetD
      (decodeFl double (roundBits 53 (203128 / 100000000)) (roundBits 53 (-6656 / 100)) (asSigned 16 65535))) ∧
    AtCount (-6656 / 100) 3 (fixLocationFl double locationScaleD latOffsetD
      (decodeFl double (roundBits 53 (203128 / 100000000)) (roundBits 53 (-6656 / 100)) (asSigned 16 3))) := by
  unfold AtCount
  decide +kernel

end Verif.Props
