import Verif.Model.Double
import Verif.Props.Single

/-!
# Rounding to `p` significant bits
-/

namespace Verif.Proofs

open Verif.Py Verif.Model Verif.Props

variable {p : Nat}

theorem npAround_neg (q : Rat) : npAround (-q) = - npAround q := by
  have key : ∀ q : Rat, ∀ n : Int, (|(n : Rat) - q| < 1 / 2 ∨ (|(n : Rat) - q| = 1 / 2 ∧ n % 2 = 0)) → npAround q = n := by
    intro q n h
    have h1 := Int.floor_le q
    have h2 := Int.lt_floor_add_one q
    have hn : n = ⌊q⌋ ∨ n = ⌊q⌋ + 1 := by
      have hle : |(n : Rat) - q| ≤ 1 / 2 := by
        rcases h with h | h
        · exact le_of_lt h
        · exact le_of_eq h.1
      obtain ⟨a, b⟩ := abs_le.mp hle
      have c1 : (⌊q⌋ : Rat) - 1 < n := by linarith
      have c2 : (n : Rat) < ⌊q⌋ + 2 := by linarith
      have d1 : ⌊q⌋ - 1 < n := by exact_mod_cast c1
      have d2 : n < ⌊q⌋ + 2 := by exact_mod_cast c2
      omega
    unfold npAround
    simp only
    rcases hn with hn | hn
    · have e : |(n : Rat) - q| = q - ⌊q⌋ := by rw [hn, abs_sub_comm, abs_of_nonneg (by linarith)]
      rw [e] at h
      rcases h with h | ⟨h, h'⟩
      · rw [if_pos h, hn]
      · rw [if_neg (by linarith), if_neg (by linarith), if_pos (by rw [← hn]; exact h'), hn]
    · have e : |(n : Rat) - q| = ⌊q⌋ + 1 - q := by
        rw [hn]; push_cast; rw [abs_of_nonneg (by linarith)]
      rw [e] at h
      rcases h with h | ⟨h, h'⟩
      · rw [if_neg (by linarith), if_pos (by linarith), hn]
      · rw [if_neg (by linarith), if_neg (by linarith), if_neg (by omega), hn]
  have spec : |(npAround q : Rat) - q| < 1 / 2 ∨ (|(npAround q : Rat) - q| = 1 / 2 ∧ npAround q % 2 = 0) := by
    have h1 := Int.floor_le q
    have h2 := Int.lt_floor_add_one q
    unfold npAround
    simp only
    split_ifs with a b c
    · left; rw [abs_sub_comm, abs_of_nonneg (by linarith)]; exact a
    · left; push_cast; rw [abs_of_nonneg (by linarith)]; linarith
    · right; exact ⟨by rw [abs_sub_comm, abs_of_nonneg (by linarith)]; linarith, c⟩
    · right; exact ⟨by push_cast; rw [abs_of_nonneg (by linarith)]; linarith, by omega⟩
  apply key
  have e : |((-npAround q : Int) : Rat) - -q| = |(npAround q : Rat) - q| := by
    push_cast
    rw [show -(npAround q : Rat) - -q = -((npAround q : Rat) - q) by ring, abs_neg]
  rw [e]
  rcases spec with h | ⟨h, h'⟩
  · exact Or.inl h
  · exact Or.inr ⟨h, by omega⟩

theorem roundBits_zero : roundBits p 0 = 0 := by simp [roundBits]

theorem roundBits_neg (v : Rat) : roundBits p (-v) = - roundBits p v := by
  unfold roundBits
  by_cases h : v = 0
  · simp [h]
  · rw [if_neg h, if_neg (by simpa using h), abs_neg, neg_div, npAround_neg]
    push_cast
    ring

/-- A number with at most `p` significant bits is kept. -/
theorem roundBits_fixed_nonneg (hp0 : 0 < p) (m k : Int) (h0 : 0 ≤ m) (hm : m ≤ 2 ^ p) : roundBits p (m * 2 ^ k) = m * 2 ^ k := by
  unfold roundBits
  have h2 : (0 : Rat) < 2 ^ k := by positivity
  by_cases hz : m = 0
  · simp [hz]
  have hmpos : (0 : Rat) < m := by exact_mod_cast lt_of_le_of_ne h0 (Ne.symm hz)
  have hpos : (0 : Rat) < m * 2 ^ k := by positivity
  rw [if_neg (ne_of_gt hpos)]
  obtain ⟨hlo, hhi⟩ := log_abs_bounds hpos
  set e := Int.log 2 |(m : Rat) * 2 ^ k| with he
  have hp : (0 : Rat) < 2 ^ (e + 1 - p) := by positivity
  have hint : ∃ q : Int, (m : Rat) * 2 ^ k / 2 ^ (e + 1 - p) = q := by
    by_cases hle : e + 1 - p ≤ k
    · refine ⟨m * 2 ^ (k - (e + 1 - p)).toNat, ?_⟩
      have e1 : (2 : Rat) ^ (k - (e + 1 - p)) = 2 ^ (k - (e + 1 - p)).toNat := by
        rw [← zpow_natCast, Int.toNat_of_nonneg (by omega)]
      rw [mul_div_assoc, ← zpow_sub₀ (by norm_num), e1]
      push_cast
      rfl
    · have hk : k + p ≤ e := by omega
      have h1 : (2 : Rat) ^ (k + p) ≤ 2 ^ e := zpow_le_zpow_right₀ (by norm_num) hk
      have h3 : (m : Rat) ≤ 2 ^ p := by exact_mod_cast hm
      have h4 : (2 : Rat) ^ (k + p) = 2 ^ p * 2 ^ k := by
        rw [zpow_add₀ (by norm_num), zpow_natCast]; ring
      have h5 : (m : Rat) * 2 ^ k ≤ 2 ^ p * 2 ^ k := mul_le_mul_of_nonneg_right h3 (le_of_lt h2)
      have h6 : (m : Rat) * 2 ^ k = 2 ^ e := by linarith
      refine ⟨2 ^ (p - 1), ?_⟩
      rw [h6, ← zpow_sub₀ (by norm_num)]
      have : e - (e + 1 - p) = ((p - 1 : Nat) : Int) := by omega
      rw [this, zpow_natCast]
      push_cast
      rfl
  obtain ⟨q, hq⟩ := hint
  rw [hq, npAround_int, ← hq]
  field_simp

theorem roundBits_fixed (hp0 : 0 < p) (m k : Int) (hm : |m| ≤ 2 ^ p) : roundBits p (m * 2 ^ k) = m * 2 ^ k := by
  rcases le_total 0 m with h | h
  · exact roundBits_fixed_nonneg hp0 m k h (le_of_abs_le hm)
  · have := roundBits_fixed_nonneg hp0 (-m) k (by omega) (by rw [abs_of_nonpos h] at hm; exact hm)
    have e : (((-m : Int) : Rat) * 2 ^ k) = -(m * 2 ^ k) := by push_cast; ring
    rw [e, roundBits_neg] at this
    linarith

/-- The powers of the binade of a positive number, in steps. -/
theorem binade_steps (hp0 : 0 < p) (e : Int) : (2 : Rat) ^ e = 2 ^ (p - 1) * 2 ^ (e + 1 - p) ∧
    (2 : Rat) ^ (e + 1) = 2 ^ p * 2 ^ (e + 1 - p) := by
  constructor
  · rw [← zpow_natCast (2 : Rat) (p - 1), ← zpow_add₀ (by norm_num)]
    congr 1; omega
  · rw [← zpow_natCast (2 : Rat) p, ← zpow_add₀ (by norm_num)]
    congr 1; ring

/-- The rounded number lies in the same binade, or is the end of it. -/
theorem roundBits_binade (hp0 : 0 < p) {v : Rat} (hv : 0 < v) :
    (2 : Rat) ^ Int.log 2 |v| ≤ roundBits p v ∧ roundBits p v ≤ 2 ^ (Int.log 2 |v| + 1) := by
  obtain ⟨hlo, hhi⟩ := log_abs_bounds hv
  unfold roundBits
  rw [if_neg (ne_of_gt hv)]
  set e := Int.log 2 |v|
  have hp : (0 : Rat) < 2 ^ (e + 1 - p) := by positivity
  obtain ⟨e1, e2⟩ := binade_steps hp0 e
  constructor
  · have h1 : ((2 ^ (p - 1) : Int) : Rat) ≤ v / 2 ^ (e + 1 - p) := by
      rw [le_div_iff₀ hp]; push_cast; linarith
    have h2 : ((2 ^ (p - 1) : Int) : Rat) ≤ npAround (v / 2 ^ (e + 1 - p)) := by exact_mod_cast npAround_mono_int.1 h1
    rw [e1]
    refine mul_le_mul_of_nonneg_right ?_ (le_of_lt hp)
    push_cast at h2
    exact h2
  · have h1 : v / 2 ^ (e + 1 - p) ≤ ((2 ^ p : Int) : Rat) := by
      rw [div_le_iff₀ hp]; push_cast; linarith
    have h2 : (npAround (v / 2 ^ (e + 1 - p)) : Rat) ≤ ((2 ^ p : Int) : Rat) := by exact_mod_cast npAround_mono_int.2 h1
    rw [e2]
    refine mul_le_mul_of_nonneg_right ?_ (le_of_lt hp)
    push_cast at h2
    exact h2

theorem roundBits_pos (hp0 : 0 < p) {v : Rat} (hv : 0 < v) : 0 < roundBits p v :=
  lt_of_lt_of_le (by positivity) (roundBits_binade hp0 hv).1

theorem roundBits_nonneg (hp0 : 0 < p) {v : Rat} (hv : 0 ≤ v) : 0 ≤ roundBits p v := by
  rcases eq_or_lt_of_le hv with h | h
  · rw [← h, roundBits_zero]
  · exact le_of_lt (roundBits_pos hp0 h)

theorem roundBits_mono_nonneg (hp0 : 0 < p) {v w : Rat} (hv : 0 ≤ v) (h : v ≤ w) : roundBits p v ≤ roundBits p w := by
  rcases eq_or_lt_of_le hv with h0 | h0
  · rw [← h0, roundBits_zero]
    exact roundBits_nonneg hp0 (le_trans hv h)
  have hw : 0 < w := lt_of_lt_of_le h0 h
  have hlog : Int.log 2 |v| ≤ Int.log 2 |w| := by
    rw [abs_of_pos h0, abs_of_pos hw]
    exact Int.log_mono_right h0 h
  rcases eq_or_lt_of_le hlog with he | he
  · unfold roundBits
    rw [if_neg (ne_of_gt h0), if_neg (ne_of_gt hw), he]
    have hp : (0 : Rat) < 2 ^ (Int.log 2 |w| + 1 - p) := by positivity
    refine mul_le_mul_of_nonneg_right ?_ (le_of_lt hp)
    exact_mod_cast npAround_mono (div_le_div_of_nonneg_right h (le_of_lt hp))
  · have h1 := (roundBits_binade hp0 h0).2
    have h2 := (roundBits_binade hp0 hw).1
    have h3 : (2 : Rat) ^ (Int.log 2 |v| + 1) ≤ 2 ^ Int.log 2 |w| := zpow_le_zpow_right₀ (by norm_num) (by omega)
    linarith

theorem roundBits_mono (hp0 : 0 < p) {v w : Rat} (h : v ≤ w) : roundBits p v ≤ roundBits p w := by
  rcases le_total 0 v with hv | hv
  · exact roundBits_mono_nonneg hp0 hv h
  · rcases le_total 0 w with hw | hw
    · have a := roundBits_nonneg hp0 hw
      have b := roundBits_nonneg hp0 (neg_nonneg.mpr hv)
      rw [roundBits_neg] at b
      linarith
    · have := roundBits_mono_nonneg hp0 (neg_nonneg.mpr hw) (neg_le_neg h)
      rw [roundBits_neg, roundBits_neg] at this
      linarith

/-- The error is at most half a step. -/
theorem roundBits_step {v : Rat} (hv : v ≠ 0) : |roundBits p v - v| ≤ 1 / 2 * 2 ^ (Int.log 2 |v| + 1 - p) := by
  unfold roundBits
  rw [if_neg hv]
  set e := Int.log 2 |v|
  have hp : (0 : Rat) < 2 ^ (e + 1 - p) := by positivity
  obtain ⟨b1, b2⟩ := npAround_bounds (v / 2 ^ (e + 1 - p))
  have hv' : v = v / 2 ^ (e + 1 - p) * 2 ^ (e + 1 - p) := by field_simp
  have hd : |((npAround (v / 2 ^ (e + 1 - p)) : Int) : Rat) - v / 2 ^ (e + 1 - p)| ≤ 1 / 2 := abs_le.mpr ⟨by linarith, b1⟩
  have key : ((npAround (v / 2 ^ (e + 1 - p)) : Int) : Rat) * 2 ^ (e + 1 - p) - v =
      (((npAround (v / 2 ^ (e + 1 - p)) : Int) : Rat) - v / 2 ^ (e + 1 - p)) * 2 ^ (e + 1 - p) := by
    rw [sub_mul, ← hv']
  rw [key, abs_mul, abs_of_pos hp]
  exact mul_le_mul_of_nonneg_right hd (le_of_lt hp)

theorem roundBits_near (hp0 : 0 < p) (v : Rat) : |roundBits p v - v| ≤ 1 / 2 ^ p * |v| := by
  by_cases hv : v = 0
  · simp [hv, roundBits_zero]
  refine le_trans (roundBits_step hv) ?_
  have hlo := (log_abs_bounds (abs_pos.mpr hv)).1
  rw [abs_abs] at hlo
  obtain ⟨-, e2⟩ := binade_steps hp0 (Int.log 2 |v|)
  have : (2 : Rat) ^ (Int.log 2 |v| + 1) = 2 * 2 ^ Int.log 2 |v| := by
    rw [zpow_add₀ (by norm_num), zpow_one]; ring
  rw [show (1 : Rat) / 2 ^ p * |v| = |v| / 2 ^ p by ring, le_div_iff₀ (by positivity)]
  nlinarith

/-- A number with at most `p` significant bits: a whole multiple, by at most `2 ^ p`, of a power of two. -/
def HasBits (p : Nat) (x : Rat) : Prop := ∃ m k : Int, |m| ≤ 2 ^ p ∧ x = m * 2 ^ k

theorem roundBits_eq (hp0 : 0 < p) {x : Rat} (h : HasBits p x) : roundBits p x = x := by
  obtain ⟨m, k, hm, rfl⟩ := h
  exact roundBits_fixed hp0 m k hm

theorem HasBits.neg {x : Rat} (h : HasBits p x) : HasBits p (-x) := by
  obtain ⟨m, k, hm, rfl⟩ := h
  exact ⟨-m, k, by rwa [abs_neg], by push_cast; ring⟩

theorem roundBits_hasBits_pos (hp0 : 0 < p) {v : Rat} (hv : 0 < v) : HasBits p (roundBits p v) := by
  have h1 := (roundBits_binade hp0 hv).2
  have h0 := roundBits_nonneg hp0 (le_of_lt hv)
  refine ⟨npAround (v / 2 ^ (Int.log 2 |v| + 1 - p)), Int.log 2 |v| + 1 - p, ?_, ?_⟩
  · obtain ⟨-, e2⟩ := binade_steps hp0 (Int.log 2 |v|)
    rw [e2] at h1
    unfold roundBits at h1 h0
    rw [if_neg (ne_of_gt hv)] at h1 h0
    have hp : (0 : Rat) < 2 ^ (Int.log 2 |v| + 1 - p) := by positivity
    have a := le_of_mul_le_mul_right h1 hp
    have b := nonneg_of_mul_nonneg_left h0 hp
    have a' : npAround (v / 2 ^ (Int.log 2 |v| + 1 - p)) ≤ 2 ^ p := by exact_mod_cast a
    have b' : 0 ≤ npAround (v / 2 ^ (Int.log 2 |v| + 1 - p)) := by exact_mod_cast b
    rwa [abs_of_nonneg b']
  · unfold roundBits
    rw [if_neg (ne_of_gt hv)]

theorem roundBits_hasBits (hp0 : 0 < p) (v : Rat) : HasBits p (roundBits p v) := by
  rcases lt_trichotomy v 0 with h | h | h
  · have := (roundBits_hasBits_pos hp0 (neg_pos.mpr h)).neg
    rwa [roundBits_neg, neg_neg] at this
  · rw [h, roundBits_zero]
    exact ⟨0, 0, by simp, by simp⟩
  · exact roundBits_hasBits_pos hp0 h

theorem npAround_nearest (q : Rat) (n : Int) : |(npAround q : Rat) - q| ≤ |(n : Rat) - q| := by
  obtain ⟨b1, b2⟩ := npAround_bounds q
  have h : |(npAround q : Rat) - q| ≤ 1 / 2 := abs_le.mpr ⟨by linarith, b1⟩
  by_cases hn : n = npAround q
  · rw [hn]
  · have h1 : (1 : Rat) ≤ |(n : Rat) - npAround q| := by
      have : (1 : Int) ≤ |n - npAround q| := Int.one_le_abs (by omega)
      exact_mod_cast this
    have h2 := abs_sub_le (n : Rat) q (npAround q)
    rw [abs_sub_comm q] at h2
    linarith

theorem roundBits_nearest_pos (hp0 : 0 < p) {v x : Rat} (hv : 0 < v) (hx : HasBits p x) :
    |roundBits p v - v| ≤ |x - v| := by
  obtain ⟨hlo, hhi⟩ := log_abs_bounds hv
  obtain ⟨e1, e2⟩ := binade_steps hp0 (Int.log 2 |v|)
  have hp : (0 : Rat) < 2 ^ (Int.log 2 |v| + 1 - p) := by positivity
  have near : ∀ n : Int, |roundBits p v - v| ≤ |(n : Rat) * 2 ^ (Int.log 2 |v| + 1 - p) - v| := by
    intro n
    unfold roundBits
    rw [if_neg (ne_of_gt hv)]
    set st := (2 : Rat) ^ (Int.log 2 |v| + 1 - p)
    have e : ∀ r : Rat, |r * st - v| = |r - v / st| * st := by
      intro r
      have : r * st - v = (r - v / st) * st := by field_simp
      rw [this, abs_mul, abs_of_pos hp]
    rw [e, e]
    exact mul_le_mul_of_nonneg_right (npAround_nearest _ n) (le_of_lt hp)
  obtain ⟨m, k, hm, rfl⟩ := hx
  by_cases hk : Int.log 2 |v| + 1 - p ≤ k
  · have e : (m : Rat) * 2 ^ k = ((m * 2 ^ (k - (Int.log 2 |v| + 1 - p)).toNat : Int) : Rat) * 2 ^ (Int.log 2 |v| + 1 - p) := by
      push_cast
      rw [← zpow_natCast (2 : Rat), Int.toNat_of_nonneg (by omega), mul_assoc, ← zpow_add₀ (by norm_num)]
      congr 2; ring
    rw [e]
    exact near _
  · -- then the number is not above the binade
    have h1 : (m : Rat) * 2 ^ k ≤ 2 ^ Int.log 2 |v| := by
      have a : (m : Rat) ≤ 2 ^ p := by exact_mod_cast le_of_abs_le hm
      have b : (2 : Rat) ^ p * 2 ^ k ≤ 2 ^ Int.log 2 |v| := by
        rw [← zpow_natCast (2 : Rat) p, ← zpow_add₀ (by norm_num)]
        exact zpow_le_zpow_right₀ (by norm_num) (by omega)
      exact le_trans (mul_le_mul_of_nonneg_right a (by positivity)) b
    have h2 := near (2 ^ (p - 1))
    push_cast at h2
    rw [← e1] at h2
    rw [abs_sub_comm (2 ^ Int.log 2 |v|) v, abs_of_nonneg (sub_nonneg.mpr hlo)] at h2
    rw [abs_sub_comm (m * 2 ^ k : Rat) v, abs_of_nonneg (sub_nonneg.mpr (le_trans h1 hlo))]
    exact le_trans h2 (sub_le_sub_left h1 v)

/-- No number with `p` significant bits is nearer. -/
theorem roundBits_nearest (hp0 : 0 < p) (v : Rat) {x : Rat} (hx : HasBits p x) : |roundBits p v - v| ≤ |x - v| := by
  rcases lt_trichotomy v 0 with h | h | h
  · have := roundBits_nearest_pos hp0 (neg_pos.mpr h) hx.neg
    rw [roundBits_neg] at this
    have e : ∀ a b : Rat, |(-a) - (-b)| = |a - b| := fun a b => by
      rw [show -a - -b = -(a - b) by ring, abs_neg]
    rwa [e, e] at this
  · simp [h, roundBits_zero]
  · exact roundBits_nearest_pos hp0 h hx

end Verif.Proofs
