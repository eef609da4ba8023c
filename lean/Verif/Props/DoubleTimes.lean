import Verif.Model.DoubleTimes
import Verif.Props.Double
import Verif.Props.Meta
import Verif.Props.Aggregate
import Verif.Props.Session

/-!
# C116: times and whole quotients in double precision
-/

namespace Verif.Props

open Verif.Py Verif.Model Verif.Spec Verif.Proofs

theorem double_neg (x : Rat) : double (-x) = -double x := by
  unfold double; exact roundBits_neg x

/-- Comparing the rounded quotient of two whole numbers with a whole number. -/
theorem le_double_div {a k : Int} {b : Nat} (hb : 0 < b) (ha : |a| < 2 ^ 53) :
    (k : Rat) ≤ double ((a : Rat) / b) ↔ k * b ≤ a := by
  have hb' : (0 : Rat) < b := by exact_mod_cast hb
  have ha' : |(a : Rat)| < 2 ^ 53 := by exact_mod_cast ha
  have hb1 : (1 : Rat) ≤ b := by exact_mod_cast hb
  constructor
  · intro h
    by_contra hc
    push Not at hc
    have h1 : (a : Rat) + 1 ≤ k * b := by exact_mod_cast hc
    have hn := double_near ((a : Rat) / b)
    have h2 := (abs_le.mp hn).2
    have h3 : |(a : Rat) / b| / 2 ^ 53 < 1 / b := by
      rw [abs_div, abs_of_pos hb', div_div, mul_comm (b : Rat), ← div_div]
      apply div_lt_div_of_pos_right _ hb'
      rw [div_lt_one (by norm_num)]; exact ha'
    have h4 : (a : Rat) / b + 1 / b ≤ k := by
      rw [← add_div, div_le_iff₀ hb']; exact h1
    have h5 : |(a : Rat) / b| * (1 / 2 ^ 53) = |(a : Rat) / b| / 2 ^ 53 := by ring
    linarith
  · intro h
    have h0 : (k : Rat) ≤ (a : Rat) / b := by
      rw [le_div_iff₀ hb']; exact_mod_cast h
    rcases le_total (-2 ^ 53) k with hk | hk
    · have hk2 : k ≤ 2 ^ 53 := by
        have : (a : Rat) / b ≤ 2 ^ 53 := by
          rw [div_le_iff₀ hb']
          have := (abs_lt.mp ha').2
          nlinarith
        have : (k : Rat) ≤ 2 ^ 53 := le_trans h0 this
        exact_mod_cast this
      have := double_mono h0
      rwa [double_eq (isDouble_int (abs_le.mpr ⟨by simpa using hk, hk2⟩))] at this
    · have h1 : ((-2 ^ 53 : Int) : Rat) ≤ (a : Rat) / b := by
        rw [le_div_iff₀ hb']
        have := (abs_lt.mp ha').1
        push_cast
        nlinarith
      have := double_mono h1
      rw [double_eq (isDouble_int (by norm_num))] at this
      exact le_trans (by exact_mod_cast hk) this

theorem double_div_le {a k : Int} {b : Nat} (hb : 0 < b) (ha : |a| < 2 ^ 53) :
    double ((a : Rat) / b) ≤ k ↔ a ≤ k * b := by
  have h := le_double_div (a := -a) (k := -k) hb (by rwa [abs_neg])
  push_cast at h
  rw [neg_div, double_neg, neg_le_neg_iff] at h
  rw [h]
  constructor <;> intro h <;> linarith

/-- The whole part of the rounded quotient. -/
theorem pyInt_double_tdiv {a b : Int} (hb : 0 < b) (ha : |a| < 2 ^ 53) :
    pyInt (double ((a : Rat) / b)) = a.tdiv b := by
  lift b to Nat using le_of_lt hb
  have hb' : 0 < b := by exact_mod_cast hb
  rcases le_total 0 a with h | h
  · lift a to Nat using h
    rw [← Int.ofNat_tdiv]
    have := pyInt_double_div hb' (a := a) (by
      have : |(a : Int)| = a := abs_of_nonneg (by positivity)
      rw [this] at ha; exact_mod_cast ha)
    simpa using this
  · obtain ⟨n, rfl⟩ : ∃ n : Nat, a = -(n : Int) := ⟨(-a).toNat, by omega⟩
    have hn : n < 2 ^ 53 := by
      rw [abs_neg, abs_of_nonneg (by positivity)] at ha; exact_mod_cast ha
    have e := pyInt_double_div hb' hn
    have e2 : pyInt (-double ((n : Rat) / b)) = -pyInt (double ((n : Rat) / b)) := by
      have h0 : 0 ≤ double ((n : Rat) / b) := double_nonneg (by positivity)
      unfold pyInt
      rcases eq_or_lt_of_le h0 with h | h
      · rw [← h]; norm_num
      · rw [if_neg (by linarith), if_pos h0, Int.ceil_neg]
    push_cast
    rw [neg_div, double_neg, e2, e, Int.neg_tdiv, Int.ofNat_tdiv]

/-! ### Frames -/

/-- C116, frames: an event is between two whole numbers of seconds after the base date, in doubles as in nanoseconds, for
all times up to 2^53 nanoseconds (104 days) from the base date. -/
theorem C116_frame (t base : Int) (k m : Int) (h : |t - base| < 2 ^ 53) :
    ∃ s, secSinceBasedateFl double t (some base) = some s ∧
      ((k : Rat) ≤ s ∧ s < m ↔ base + k * 1000000000 ≤ t ∧ t < base + m * 1000000000) := by
  refine ⟨_, rfl, ?_⟩
  have e1 : double ((t - base : Int) : Rat) = ((t - base : Int) : Rat) := double_eq (isDouble_int (le_of_lt h))
  have e2 : double 1000000000 = ((1000000000 : Nat) : Rat) := by
    have := double_eq (isDouble_nat (n := 1000000000) (by norm_num))
    exact_mod_cast this
  simp only
  rw [e1, e2, le_double_div (by norm_num) h, ← not_le, le_double_div (by norm_num) h]
  push_cast
  constructor <;> rintro ⟨a, b⟩ <;> constructor <;> omega

/-- The order of times is kept. -/
theorem C116_order (t t' base : Int) (h : t ≤ t') :
    ∃ s s', secSinceBasedateFl double t (some base) = some s ∧ secSinceBasedateFl double t' (some base) = some s' ∧
      s ≤ s' := by
  refine ⟨_, _, rfl, rfl, double_mono ?_⟩
  apply div_le_div_of_nonneg_right _ (double_nonneg (by norm_num))
  apply double_mono
  exact_mod_cast by omega

/-- The last nanosecond of a day is in its last minute, and not in the next day. -/
example : ∃ s, secSinceBasedateFl double 86399999999999 (some 0) = some s ∧ (((86340 : Int) : Rat) ≤ s ∧ s < ((86400 : Int) : Rat)) := by
  obtain ⟨s, h1, h2⟩ := C116_frame 86399999999999 0 86340 86400 (by norm_num)
  exact ⟨s, h1, h2.mpr (by norm_num)⟩

/-- Farther from the base date the last nanosecond is in the next second. -/
example : secSinceBasedateFl double 99999999999999999 (some 0) = some 100000000 := by decide +kernel

/-! ### Microseconds -/

/-- C116, edges of frames: whole microseconds, given in seconds as a double, are restored, up to 2^51 microseconds (71
years). -/
theorem C116_timedelta (ref : DateTime) (n : Int) (h : |n| < 2 ^ 51) :
    addTimedeltaFl double ref (double ((n : Rat) / 1000000)) = ofMicro ((microOf ref : Int) + n) := by
  unfold addTimedeltaFl
  congr 2
  set s := double ((n : Rat) / 1000000) with hs
  have hn' : |(n : Rat)| < 2 ^ 51 := by exact_mod_cast h
  have h1 : |s - (n : Rat) / 1000000| ≤ |(n : Rat) / 1000000| * (1 / 2 ^ 53) := by
    have := double_near ((n : Rat) / 1000000)
    linarith
  have h1' : |s * 1000000 - n| ≤ 1 / 4 := by
    have e : s * 1000000 - n = (s - (n : Rat) / 1000000) * 1000000 := by ring
    rw [e, abs_mul, abs_of_pos (show (0 : Rat) < 1000000 by norm_num)]
    have e2 : |(n : Rat) / 1000000| = |(n : Rat)| / 1000000 := by
      rw [abs_div, abs_of_pos (show (0 : Rat) < 1000000 by norm_num)]
    rw [e2] at h1
    calc |s - (n : Rat) / 1000000| * 1000000 ≤ |(n : Rat)| / 1000000 * (1 / 2 ^ 53) * 1000000 :=
          mul_le_mul_of_nonneg_right h1 (by norm_num)
      _ = |(n : Rat)| * (1 / 2 ^ 53) := by ring
      _ ≤ 2 ^ 51 * (1 / 2 ^ 53) := mul_le_mul_of_nonneg_right (le_of_lt hn') (by norm_num)
      _ = 1 / 4 := by norm_num
  have hfrac : |s - pyInt s| ≤ 1 := by
    unfold pyInt
    split_ifs
    · rw [abs_le]; constructor
      · linarith [Int.floor_le s]
      · linarith [Int.lt_floor_add_one s]
    · rw [abs_le]; constructor
      · linarith [Int.ceil_lt_add_one s]
      · linarith [Int.le_ceil s]
  have h2 : |double (1000000 * (s - pyInt s)) - 1000000 * (s - pyInt s)| ≤ 1 / 8 := by
    have := double_near (1000000 * (s - pyInt s))
    have e : |1000000 * (s - (pyInt s : Rat))| ≤ 1000000 := by
      rw [abs_mul, abs_of_pos (show (0 : Rat) < 1000000 by norm_num)]
      linarith
    have e3 : (1000000 : Rat) * (1 / 2 ^ 53) ≤ 1 / 8 := by norm_num
    have e4 : |1000000 * (s - (pyInt s : Rat))| * (1 / 2 ^ 53) ≤ 1000000 * (1 / 2 ^ 53) :=
      mul_le_mul_of_nonneg_right e (by norm_num)
    linarith
  unfold timedeltaFl
  simp only
  obtain ⟨a, b⟩ := abs_le.mp h1'
  obtain ⟨c, d⟩ := abs_le.mp h2
  have k1 := npAround_bounds ((pyInt s : Rat) * 1000000 + double (1000000 * (s - pyInt s)))
  have k2 : (npAround ((pyInt s : Rat) * 1000000 + double (1000000 * (s - pyInt s))) : Rat) < n + 1 := by
    linarith [k1.1]
  have k3 : (n : Rat) < npAround ((pyInt s : Rat) * 1000000 + double (1000000 * (s - pyInt s))) + 1 := by
    linarith [k1.2]
  have k4 : npAround ((pyInt s : Rat) * 1000000 + double (1000000 * (s - pyInt s))) < n + 1 := by exact_mod_cast k2
  have k5 : n < npAround ((pyInt s : Rat) * 1000000 + double (1000000 * (s - pyInt s))) + 1 := by exact_mod_cast k3
  omega

/-- So the times of a frame in the file are those of the model without rounding (C111). -/
theorem addTimedeltaFl_eq (ref : DateTime) (n : Int) (h : |n| < 2 ^ 51) :
    addTimedeltaFl double ref (double ((n : Rat) / 1000000)) = addTimedelta ref ((n : Rat) / 1000000) := by
  rw [C116_timedelta ref n h]
  unfold addTimedelta
  rw [div_mul_cancel₀ _ (by norm_num), npAround_int]

/-- Half past seven and 123457 microseconds. -/
example : (addTimedeltaFl double ⟨2018, 7, 2, 0, 0, 0, 0⟩ (double (((27000123457 : Int) : Rat) / 1000000))).toOption =
    some ⟨2018, 7, 2, 7, 30, 0, 123457⟩ := by
  rw [C116_timedelta _ _ (by norm_num)]
  decide +kernel

/-! ### Intervals of the aggregation -/

theorem binEdgesFl_eq (start : Int) {duration dt d' t' : Int} (h1 : duration = 1000 * d') (h2 : dt = 1000 * t')
    (ht : 0 < dt) (hd : |d'| < 2 ^ 53) : binEdgesFl double start duration dt = binEdges start duration dt := by
  unfold binEdgesFl binEdges
  have e : (duration : Rat) / dt = (d' : Rat) / t' := by
    rw [h1, h2]; push_cast
    rw [mul_div_mul_left _ _ (by norm_num)]
  rw [e, pyInt_double_tdiv (by omega) hd, h1, h2, Int.mul_tdiv_mul_of_pos _ _ (by norm_num)]

/-- C116, edges: they are the start and all times a whole number of intervals later that are not after the end, for
whole microseconds (here in nanoseconds) and durations below 2^53 microseconds (285 years). -/
theorem C116_edges (start duration dt : Int) (hdt : 0 < dt) (h0 : 0 ≤ duration) (hus : 1000 ∣ duration ∧ 1000 ∣ dt)
    (hlong : duration < 1000 * 2 ^ 53) (t : Int) :
    t ∈ binEdgesFl double start duration dt ↔ ∃ i : Nat, t = start + i * dt ∧ t ≤ start + duration := by
  obtain ⟨⟨d', h1⟩, t', h2⟩ := hus
  rw [binEdgesFl_eq start h1 h2 hdt (by rw [abs_lt]; constructor <;> omega)]
  unfold binEdges
  have hq : 0 ≤ duration.tdiv dt := Int.tdiv_nonneg h0 (le_of_lt hdt)
  rw [Int.tdiv_eq_ediv_of_nonneg h0] at hq ⊢
  simp only [List.mem_map, List.mem_range]
  constructor
  · rintro ⟨i, hi, rfl⟩
    refine ⟨i, by ring, ?_⟩
    have : (i : Int) ≤ duration / dt := by omega
    have := (Int.le_ediv_iff_mul_le hdt).mp this
    linarith [mul_comm (i : Int) dt]
  · rintro ⟨i, rfl, hi⟩
    refine ⟨i, ?_, by ring⟩
    have : (i : Int) ≤ duration / dt := (Int.le_ediv_iff_mul_le hdt).mpr (by linarith)
    omega

/-- A day in intervals of seven minutes: the last edge is at 23:55. -/
example : (86100 * 1000000000 : Int) ∈ binEdgesFl double 0 (86400 * 1000000000) (420 * 1000000000) :=
  (C116_edges _ _ _ (by norm_num) (by norm_num) (by norm_num) (by norm_num) _).mpr ⟨205, by norm_num, by norm_num⟩

/-- A time within 73 years of 1970, in nanoseconds, that is a whole number of microseconds. -/
def PlainTime (t : Int) : Prop := |t| ≤ 2 ^ 61 ∧ ∃ m, t = 1000 * m

/-- C116, intervals: the aggregated series in doubles is that of the whole numbers, if all times are within 73 years of
1970 and the intervals not longer than 2^25 minutes. -/
theorem C116_aggregate (glm : TimeSeries) (minutes : Nat) (startEnd : Option (Int × Int)) (hm : minutes ≤ 2 ^ 25)
    (ht : ∀ f ∈ glm.frames, |f.time| ≤ 2 ^ 61 - 1000)
    (hse : ∀ se, startEnd = some se → PlainTime se.1 ∧ PlainTime se.2) :
    aggregateFl double glm minutes startEnd = aggregate glm minutes startEnd := by
  have key : ∀ se : Int × Int, (∃ m, se.1 = 1000 * m) → (∃ m, se.2 = 1000 * m) →
      |se.2 - se.1| < 1000 * 2 ^ 53 → 0 < minutes →
      binEdgesFl double se.1 (se.2 - se.1) (oneMinute * minutes) = binEdges se.1 (se.2 - se.1) (oneMinute * minutes) := by
    rintro se ⟨m1, h1⟩ ⟨m2, h2⟩ h hp
    apply binEdgesFl_eq (d' := m2 - m1) (t' := 60000000 * minutes)
    · rw [h1, h2]; ring
    · unfold oneMinute; ring
    · unfold oneMinute; positivity
    · rw [h1, h2, ← mul_sub, abs_mul] at h
      norm_num at h ⊢
      linarith
  have body : ∀ se : Int × Int, (∃ m, se.1 = 1000 * m) → (∃ m, se.2 = 1000 * m) →
      |se.2 - se.1| < 1000 * 2 ^ 53 → aggregateFl double glm minutes (some se) = aggregate glm minutes (some se) := by
    intro se h1 h2 h3
    rcases Nat.eq_zero_or_pos minutes with h0 | h0
    · subst h0
      unfold aggregateFl aggregate
      simp only [Nat.cast_zero, mul_zero, if_true]
      simp only [bind, Except.bind]
    · unfold aggregateFl aggregate
      simp only [bind, Except.bind, pure, Except.pure]
      rw [key se h1 h2 h3 h0]
  cases startEnd with
  | some se =>
    obtain ⟨⟨a1, a2⟩, b1, b2⟩ := hse se rfl
    refine body se a2 b2 ?_
    obtain ⟨c1, c2⟩ := abs_le.mp a1
    obtain ⟨d1, d2⟩ := abs_le.mp b1
    rw [abs_lt]
    constructor <;> norm_num at * <;> linarith
  | none =>
    cases ha : pyMin (glm.frames.map (·.time)) with
    | error e =>
      unfold aggregateFl aggregate
      simp only [bind, Except.bind, ha]
    | ok first =>
      cases hb : pyMax (glm.frames.map (·.time)) with
      | error e =>
        unfold aggregateFl aggregate
        simp only [bind, Except.bind, ha, hb]
      | ok last =>
        have e1 : aggregateFl double glm minutes none =
            aggregateFl double glm minutes (some (toPydatetime first, toPydatetime last + oneMinute * minutes)) := by
          unfold aggregateFl
          simp only [bind, Except.bind, pure, Except.pure, ha, hb]
        have e2 : aggregate glm minutes none =
            aggregate glm minutes (some (toPydatetime first, toPydatetime last + oneMinute * minutes)) := by
          unfold aggregate
          simp only [bind, Except.bind, pure, Except.pure, ha, hb]
        rw [e1, e2]
        have hbound : ∀ t ∈ glm.frames.map (·.time), |t| ≤ 2 ^ 61 - 1000 := by
          intro t h
          obtain ⟨f, hf, rfl⟩ := List.mem_map.mp h
          exact ht f hf
        obtain ⟨c1, c2⟩ := abs_le.mp (hbound _ (pyMin_isMin ha).1)
        obtain ⟨d1, d2⟩ := abs_le.mp (hbound _ (pyMax_isMax hb).1)
        have hm' : (minutes : Int) ≤ 2 ^ 25 := by exact_mod_cast hm
        refine body _ ⟨first / 1000, ?_⟩ ⟨last / 1000 + 60000000 * minutes, ?_⟩ ?_
        · simp only [toPydatetime]; ring
        · simp only [toPydatetime, oneMinute]; ring
        · simp only [toPydatetime, oneMinute]
          rw [abs_lt]
          norm_num at c1 c2 d1 d2 hm' ⊢
          constructor <;> omega

/-- Three frames, one minute apart. -/
example : aggregateFl double (sampleSeries 100 5 20 8) 1 none = aggregate (sampleSeries 100 5 20 8) 1 none :=
  C116_aggregate _ _ _ (by norm_num) (by decide) (by simp)

/-! ### Chunks -/

/-- C116, chunks: the flashes of a file are read in the same chunks in doubles as in whole numbers, for less than 2^53
flashes. -/
theorem C116_chunks (order : List Int → List Int) (d : GFile) (c : Criteria) (chunkSize : Nat) (hc : 0 < chunkSize)
    (hd : anyCriterion c = true → ∀ d', subsetFlashes order d c true = .ok d' → d'.flashes.length < 2 ^ 53)
    (hd' : d.flashes.length < 2 ^ 53) :
    readFlashesChunksFl double order d c chunkSize = readFlashesChunks order d c chunkSize := by
  have key : ∀ n : Nat, n < 2 ^ 53 → (max (pyInt (double ((n : Rat) / chunkSize))) 1).toNat = max (n / chunkSize) 1 := by
    intro n hn
    rw [pyInt_double_div hc hn]
    omega
  unfold readFlashesChunksFl readFlashesChunks
  by_cases hcr : anyCriterion c
  · simp only [hcr, if_true]
    cases hs : subsetFlashes order d c true with
    | error e => rfl
    | ok d' =>
      simp only [bind, Except.bind]
      rw [key _ (by simpa using hd hcr d' hs)]
  · simp only [hcr]
    simp only [bind, Except.bind, pure, Except.pure, Bool.false_eq_true, if_false]
    rw [key _ (by simpa using hd')]

/-- The flashes of a small file, in chunks of two. -/
example : readFlashesChunksFl double id nearSample {} 2 = readFlashesChunks id nearSample {} 2 :=
  C116_chunks _ _ _ _ (by norm_num) (fun h => by cases h) (by decide)

/-- Without rounding these are the definitions of the other parts of the model. -/
theorem times_id : secSinceBasedateFl id = secSinceBasedate ∧
    (∀ ref s, addTimedeltaFl id ref s = addTimedelta ref s) := by
  refine ⟨rfl, fun ref s => ?_⟩
  unfold addTimedeltaFl addTimedelta timedeltaFl
  simp only [id]
  congr 3
  ring

end Verif.Props
