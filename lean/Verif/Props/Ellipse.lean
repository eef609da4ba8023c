import Verif.Model.Ellipse
import Mathlib.Tactic.FieldSimp
import Mathlib.Tactic.Linarith
import Mathlib.Tactic.Ring
import Mathlib.Tactic.NormNum
import Mathlib.Tactic.Positivity
import Mathlib.Tactic.LinearCombination

/-!
# C55-C57, C80: the lightning ellipsoid and fixed grid navigation
-/

namespace Verif.Props

open Verif.Py Verif.Model

/-! ## C55, C56 -/

/-- A time before 15 October 2018, 0 h. -/
def BeforeSwitch (t : DateTime) : Prop :=
  t.year < 2018 ∨ t.year = 2018 ∧ (t.month < 10 ∨ t.month = 10 ∧ t.day < 15)

instance (t : DateTime) : Decidable (BeforeSwitch t) := inferInstanceAs (Decidable (_ ∨ _))

theorem before_iff (t : DateTime) :
    t.before ⟨2018, 10, 15, 0, 0, 0, 0⟩ = true ↔ BeforeSwitch t := by
  obtain ⟨y, mo, d, h, mi, s, us⟩ := t
  unfold DateTime.before BeforeSwitch
  rw [decide_eq_true_eq]
  simp only [List.cons_lt_cons_iff, List.not_lt_nil, Nat.not_lt_zero, or_false, and_false]

/-- C55: the revision changes once, on 15 October 2018. -/
theorem C55_switch (t : DateTime) :
    ltgEllpseRev t = if BeforeSwitch t then 0 else 1 := by
  unfold ltgEllpseRev
  by_cases h : BeforeSwitch t
  · rw [if_pos h, if_pos ((before_iff t).mpr h)]
  · rw [if_neg h, if_neg (fun hc => h ((before_iff t).mp hc))]

/-- C55: the revision for a date is always accepted by the navigation; the only revisions are 0 and 1. -/
theorem C55_valid (points : List (ℝ × ℝ)) (satLon : ℝ) :
    (∀ t, ∃ out, lonLatToFixedGrid points satLon (ltgEllpseRev t) = .ok out ∧
      out.length = points.length) ∧
    (∀ rev : Int, rev ≠ 0 → rev ≠ 1 → lonLatToFixedGrid points satLon rev = .error .keyError) := by
  have h0 : ∃ out, lonLatToFixedGrid points satLon 0 = .ok out ∧ out.length = points.length :=
    ⟨_, rfl, List.length_map ..⟩
  have h1 : ∃ out, lonLatToFixedGrid points satLon 1 = .ok out ∧ out.length = points.length :=
    ⟨_, rfl, List.length_map ..⟩
  constructor
  · intro t
    rw [C55_switch]
    split
    · exact h0
    · exact h1
  · intro rev hr0 hr1
    have : ellipseRadii rev = .error .keyError := by
      unfold ellipseRadii lightningEllipseRev
      simp [List.lookup, beq_eq_false_iff_ne.mpr hr0, beq_eq_false_iff_ne.mpr hr1]
    unfold lonLatToFixedGrid
    rw [this]

/-- C55: opening a file uses the revision of its time unless one is given. -/
theorem C55_revisionFor (rev : Int) (t : DateTime) :
    (rev < 0 → revisionFor rev t = if BeforeSwitch t then 0 else 1) ∧
    (0 ≤ rev → revisionFor rev t = rev) := by
  unfold revisionFor
  constructor
  · intro h; rw [if_pos h, C55_switch]
  · intro h; rw [if_neg (not_lt.mpr h)]

example : ltgEllpseRev ⟨2018, 10, 14, 23, 59, 59, 999999⟩ = 0 := by decide
example : ltgEllpseRev ⟨2018, 10, 15, 0, 0, 0, 0⟩ = 1 := by decide
example : ltgEllpseRev ⟨2017, 12, 31, 0, 0, 0, 0⟩ = 0 := by decide

/-- C56: the radii of a date. -/
def C56_full : Prop := ∀ t : DateTime, ltgEllpsRadii t =
  .ok (if BeforeSwitch t then (6394140, 6362755) else (6392137, 6362755))

/-- C56, exactly: the call fails for every date, as the function it calls has another name. -/
theorem C56_exact (t : DateTime) : ltgEllpsRadii t = .error .nameError := rfl

theorem C56_full_false : ¬ C56_full := by
  intro h
  have := h ⟨2018, 1, 1, 0, 0, 0, 0⟩
  rw [C56_exact] at this
  cases this

/-- C56, the part that holds: the table has the radii for the revision of each date. -/
theorem C56_partial (t : DateTime) : ellipseRadii (ltgEllpseRev t) =
    .ok (if BeforeSwitch t then (6394140, 6362755) else (6392137, 6362755)) := by
  rw [C55_switch]
  split
  · rfl
  · show Except.ok _ = Except.ok _
    norm_num

/-! ## C57 -/

/-- A point of space is the place on the ellipsoid with radii `re`, `rp` for a longitude relative to
the satellite and a geodetic latitude (both in degrees) with respect to the ellipsoid of the Earth. -/
structure IsPlace (re rp reGrs rpGrs dlon lat : ℝ) (P : ℝ × ℝ × ℝ) : Prop where
  onEllipsoid : (P.1 ^ 2 + P.2.1 ^ 2) / re ^ 2 + P.2.2 ^ 2 / rp ^ 2 = 1
  direction : ∃ ρ > 0, P.1 = ρ * Real.cos (dlon * Real.pi / 180) ∧
    P.2.1 = ρ * Real.sin (dlon * Real.pi / 180) ∧
    P.2.2 = ρ * ((rpGrs / reGrs) ^ 2 * Real.tan (lat * Real.pi / 180))

/-- The place is unique. -/
theorem place_unique {re rp reGrs rpGrs dlon lat : ℝ} (hre : 0 < re) (hrp : 0 < rp) {P Q : ℝ × ℝ × ℝ}
    (hP : IsPlace re rp reGrs rpGrs dlon lat P) (hQ : IsPlace re rp reGrs rpGrs dlon lat Q) : P = Q := by
  obtain ⟨e1, ρ, hρ, a1, a2, a3⟩ := hP
  obtain ⟨e2, σ, hσ, b1, b2, b3⟩ := hQ
  have hcs := Real.cos_sq_add_sin_sq (dlon * Real.pi / 180)
  set c := Real.cos (dlon * Real.pi / 180)
  set s := Real.sin (dlon * Real.pi / 180)
  set t := (rpGrs / reGrs) ^ 2 * Real.tan (lat * Real.pi / 180)
  have key : ∀ (x y z r : ℝ), x = r * c → y = r * s → z = r * t →
      (x ^ 2 + y ^ 2) / re ^ 2 + z ^ 2 / rp ^ 2 = r ^ 2 * (1 / re ^ 2 + t ^ 2 / rp ^ 2) := by
    intro x y z r hx hy hz
    subst hx hy hz
    have : (r * c) ^ 2 + (r * s) ^ 2 = r ^ 2 := by
      have : (r * c) ^ 2 + (r * s) ^ 2 = r ^ 2 * (c ^ 2 + s ^ 2) := by ring
      rw [this, hcs, mul_one]
    rw [this]
    ring
  rw [key _ _ _ ρ a1 a2 a3] at e1
  rw [key _ _ _ σ b1 b2 b3] at e2
  have hk : 0 < 1 / re ^ 2 + t ^ 2 / rp ^ 2 := by positivity
  have hsq : ρ ^ 2 = σ ^ 2 := by
    have := e1.trans e2.symm
    exact mul_right_cancel₀ (ne_of_gt hk) this
  have hrs : ρ = σ := by
    rcases sq_eq_sq_iff_eq_or_eq_neg.mp hsq with h | h
    · exact h
    · linarith
  subst hrs
  obtain ⟨p1, p2, p3⟩ := P
  obtain ⟨q1, q2, q3⟩ := Q
  simp only at a1 a2 a3 b1 b2 b3
  rw [a1, a2, a3, b1, b2, b3]

theorem wrap_period (d : ℝ) : ∃ k : ℤ, wrapLon d = d + k * 360 := by
  unfold wrapLon
  simp only
  split_ifs
  · exact ⟨0, by push_cast; ring⟩
  · exact ⟨1, by push_cast; ring⟩
  · exact ⟨-1, by push_cast; ring⟩
  · exact ⟨0, by push_cast; ring⟩

theorem cos_wrap (d : ℝ) :
    Real.cos (wrapLon d * Real.pi / 180) = Real.cos (d * Real.pi / 180) ∧
    Real.sin (wrapLon d * Real.pi / 180) = Real.sin (d * Real.pi / 180) := by
  obtain ⟨k, hk⟩ := wrap_period d
  have : wrapLon d * Real.pi / 180 = d * Real.pi / 180 + k * (2 * Real.pi) := by rw [hk]; ring
  rw [this, Real.cos_add_int_mul_two_pi, Real.sin_add_int_mul_two_pi]
  exact ⟨rfl, rfl⟩

/-- Radii and height as for the satellites: the Earth is inside the orbit. -/
structure Physical (re rp reGrs rpGrs height : ℝ) : Prop where
  re_pos : 0 < re
  rp_pos : 0 < rp
  reGrs_pos : 0 < reGrs
  rpGrs_pos : 0 < rpGrs
  outside : re < height + reGrs

theorem physical_defaults {rev : Int} {re rp : Rat} (h : ellipseRadii rev = .ok (re, rp)) :
    Physical re rp 6378137 (635675231414 / 100000) 35786023 := by
  by_cases h0 : rev = 0
  · subst h0
    cases h
    constructor <;> norm_num
  · by_cases h1 : rev = 1
    · subst h1
      cases h
      constructor <;> norm_num
    · exfalso
      unfold ellipseRadii lightningEllipseRev at h
      simp [List.lookup, beq_eq_false_iff_ne.mpr h0, beq_eq_false_iff_ne.mpr h1] at h

/-- The vector that is computed leads from the satellite to the place. -/
theorem lookVector_place {re rp reGrs rpGrs height : ℝ} (hp : Physical re rp reGrs rpGrs height)
    (lon lat satLon : ℝ) :
    ∃ P, IsPlace re rp reGrs rpGrs (lon - satLon) lat P ∧
      lookVector re rp reGrs rpGrs height lon lat satLon = (P.1 - (height + reGrs), P.2.1, P.2.2) := by
  obtain ⟨hre, hrp, hreG, hrpG, -⟩ := hp
  unfold lookVector
  simp only [(cos_wrap (lon - satLon)).1, (cos_wrap (lon - satLon)).2]
  have hfG : 1 - (reGrs - rpGrs) / reGrs = rpGrs / reGrs := by field_simp; ring
  have hf : 1 - (re - rp) / re = rp / re := by field_simp; ring
  rw [hfG]
  set t := (rpGrs / reGrs) ^ 2 * Real.tan (lat * Real.pi / 180) with ht
  have hc : 0 < Real.cos (Real.arctan t) := Real.cos_arctan_pos t
  have hs : Real.sin (Real.arctan t) = t * Real.cos (Real.arctan t) := by
    have := Real.tan_arctan t
    rw [Real.tan_eq_sin_div_cos, div_eq_iff (ne_of_gt hc)] at this
    exact this
  have hcs := Real.cos_sq_add_sin_sq (Real.arctan t)
  set c := Real.cos (Real.arctan t)
  set s := Real.sin (Real.arctan t)
  have hcs' := Real.cos_sq_add_sin_sq ((lon - satLon) * Real.pi / 180)
  set a := Real.cos ((lon - satLon) * Real.pi / 180)
  set b := Real.sin ((lon - satLon) * Real.pi / 180)
  have hq : 1 - (re - rp) / re * (2 - (re - rp) / re) * c * c = (rp / re) ^ 2 * c ^ 2 + s ^ 2 := by
    have e1 : (re - rp) / re * (2 - (re - rp) / re) = 1 - (rp / re) ^ 2 := by field_simp; ring
    rw [e1]
    linear_combination (-1 : ℝ) * hcs
  have hqpos : 0 < (rp / re) ^ 2 * c ^ 2 + s ^ 2 := by
    have : 0 < (rp / re) ^ 2 * c ^ 2 := by positivity
    have := sq_nonneg s
    linarith
  rw [hq, hf]
  set q := (rp / re) ^ 2 * c ^ 2 + s ^ 2 with hqdef
  have hsqrt : 0 < Real.sqrt q := Real.sqrt_pos.mpr hqpos
  have hR : re * (rp / re) = rp := by field_simp
  rw [hR]
  set r := rp / Real.sqrt q with hr
  have hrpos : 0 < r := by positivity
  have hr2 : r ^ 2 * q = rp ^ 2 := by
    rw [hr, div_pow, Real.sq_sqrt hqpos.le]
    field_simp
  refine ⟨(r * c * a, r * c * b, r * s), ⟨?_, r * c, by positivity, rfl, rfl, ?_⟩, rfl⟩
  · simp only
    have e1 : (r * c * a) ^ 2 + (r * c * b) ^ 2 = r ^ 2 * c ^ 2 := by
      linear_combination (r ^ 2 * c ^ 2) * hcs'
    rw [e1]
    have e2 : r ^ 2 * c ^ 2 / re ^ 2 + (r * s) ^ 2 / rp ^ 2 = r ^ 2 * q / rp ^ 2 := by
      rw [hqdef]; field_simp
    rw [e2, hr2]
    field_simp
  · simp only
    rw [hs]; ring

/-- The angles describe the direction of the vector, if it points towards the Earth. -/
theorem scanAngles_direction (v : ℝ × ℝ × ℝ) (hv : v.1 < 0) :
    ∃ m > 0, v.1 = -(m * Real.cos (scanAngles v).1 * Real.cos (scanAngles v).2) ∧
      v.2.1 = m * Real.sin (scanAngles v).1 ∧
      v.2.2 = m * Real.cos (scanAngles v).1 * Real.sin (scanAngles v).2 ∧
      |(scanAngles v).1| < Real.pi / 2 ∧ |(scanAngles v).2| < Real.pi / 2 := by
  obtain ⟨x, y, z⟩ := v
  simp only at hv
  unfold scanAngles
  simp only
  have hsum : 0 < x * x + y * y + z * z := by nlinarith [mul_pos_of_neg_of_neg hv hv, mul_self_nonneg y, mul_self_nonneg z]
  set m := Real.sqrt (x * x + y * y + z * z) with hm
  have hmpos : 0 < m := Real.sqrt_pos.mpr hsum
  have hm2 : m ^ 2 = x * x + y * y + z * z := Real.sq_sqrt hsum.le
  have hxz : 0 < x * x + z * z := by nlinarith [mul_pos_of_neg_of_neg hv hv, mul_self_nonneg z]
  have hylt : |y| < m := by
    apply abs_lt_of_sq_lt_sq _ hmpos.le
    rw [hm2]; nlinarith
  have hy1 : -1 < y / m ∧ y / m < 1 := by
    rw [abs_lt] at hylt
    constructor
    · rw [lt_div_iff₀ hmpos]; linarith
    · rw [div_lt_iff₀ hmpos]; linarith
  have hneg : -Real.arcsin (y / -m) = Real.arcsin (y / m) := by
    rw [div_neg, Real.arcsin_neg, neg_neg]
  rw [hneg]
  have hsin : Real.sin (Real.arcsin (y / m)) = y / m := Real.sin_arcsin hy1.1.le hy1.2.le
  have hcos : Real.cos (Real.arcsin (y / m)) = Real.sqrt (x * x + z * z) / m := by
    rw [Real.cos_arcsin]
    have : 1 - (y / m) ^ 2 = (x * x + z * z) / m ^ 2 := by
      rw [div_pow]
      field_simp
      rw [hm2]; ring
    rw [this, Real.sqrt_div hxz.le, Real.sqrt_sq hmpos.le]
  set w := Real.sqrt (x * x + z * z) with hw
  have hwpos : 0 < w := Real.sqrt_pos.mpr hxz
  have hw2 : w ^ 2 = x * x + z * z := Real.sq_sqrt hxz.le
  have hratio : z / m / (x / -m) = z / (-x) := by
    have : x ≠ 0 := ne_of_lt hv
    field_simp
  rw [hratio]
  have hq : Real.sqrt (1 + (z / -x) ^ 2) = w / (-x) := by
    have : 1 + (z / -x) ^ 2 = (x * x + z * z) / (-x) ^ 2 := by
      have : x ≠ 0 := ne_of_lt hv
      field_simp
    rw [this, Real.sqrt_div hxz.le, Real.sqrt_sq (by linarith)]
  have hca : Real.cos (Real.arctan (z / -x)) = -x / w := by
    rw [Real.cos_arctan, hq, one_div_div]
  have hsa : Real.sin (Real.arctan (z / -x)) = z / w := by
    rw [Real.sin_arctan, hq]
    have : x ≠ 0 := ne_of_lt hv
    field_simp
  refine ⟨m, hmpos, ?_, ?_, ?_, ?_, ?_⟩
  · rw [hcos, hca]; field_simp
  · rw [hsin]; field_simp
  · rw [hcos, hsa]; field_simp
  · rw [abs_lt]
    exact ⟨Real.neg_pi_div_two_lt_arcsin.mpr hy1.1, Real.arcsin_lt_pi_div_two.mpr hy1.2⟩
  · rw [abs_lt]
    exact ⟨Real.neg_pi_div_two_lt_arctan _, Real.arctan_lt_pi_div_two _⟩

/-- Every place on the ellipsoid is on this side of the satellite. -/
theorem place_inside {re rp reGrs rpGrs height dlon lat : ℝ} (hp : Physical re rp reGrs rpGrs height)
    {P : ℝ × ℝ × ℝ} (h : IsPlace re rp reGrs rpGrs dlon lat P) : P.1 - (height + reGrs) < 0 := by
  obtain ⟨hre, hrp, -, -, hout⟩ := hp
  have h1 := h.onEllipsoid
  have h2 : P.1 ^ 2 / re ^ 2 ≤ 1 := by
    have a : 0 ≤ P.2.1 ^ 2 / re ^ 2 := by positivity
    have b : 0 ≤ P.2.2 ^ 2 / rp ^ 2 := by positivity
    have c : (P.1 ^ 2 + P.2.1 ^ 2) / re ^ 2 = P.1 ^ 2 / re ^ 2 + P.2.1 ^ 2 / re ^ 2 := add_div ..
    linarith
  rw [div_le_one (by positivity)] at h2
  have := abs_le_of_sq_le_sq' h2 hre.le
  linarith [this.2]

/-- C57: the coordinates are the direction, as seen from the satellite, of the place on the lightning
ellipsoid.  The satellite is on the first axis, at its height above the equator; the second axis points
east and the third north. -/
theorem C57_direction (rev : Int) (re rp : Rat) (hr : ellipseRadii rev = .ok (re, rp)) (lon lat satLon : ℝ)
    (P : ℝ × ℝ × ℝ)
    (_hlat : |lat| < 90) (hP : IsPlace re rp 6378137 6356752.31414 (lon - satLon) lat P) :
    ∃ x y : ℝ, lonLatToFixedGrid [(lon, lat)] satLon rev = .ok [(x, y)] ∧
      |x| < Real.pi / 2 ∧ |y| < Real.pi / 2 ∧
      ∃ distance > 0, P.1 - 42164160 = -(distance * Real.cos x * Real.cos y) ∧
        P.2.1 = distance * Real.sin x ∧ P.2.2 = distance * Real.cos x * Real.sin y := by
  have hph := physical_defaults hr
  have hconst : (6356752.31414 : ℝ) = 635675231414 / 100000 := by norm_num
  rw [hconst] at hP
  obtain ⟨Q, hQ, hv⟩ := lookVector_place hph lon lat satLon
  have hPQ := place_unique hph.re_pos hph.rp_pos hP hQ
  subst hPQ
  have hneg := place_inside hph hP
  obtain ⟨m, hm, e1, e2, e3, b1, b2⟩ := scanAngles_direction _ (show
    (lookVector re rp 6378137 (635675231414 / 100000) 35786023 lon lat satLon).1 < 0 by
      rw [hv]; exact hneg)
  refine ⟨_, _, ?_, b1, b2, m, hm, ?_, ?_, ?_⟩
  · unfold lonLatToFixedGrid
    rw [hr]
    rfl
  · rw [← e1, hv]; norm_num
  · rw [← e2, hv]
  · rw [← e3, hv]

/-- There is such a place for every longitude and latitude. -/
theorem C57_place_exists (rev : Int) (re rp : Rat) (hr : ellipseRadii rev = .ok (re, rp))
    (dlon lat : ℝ) : ∃ P, IsPlace re rp 6378137 6356752.31414 dlon lat P := by
  have hph := physical_defaults hr
  have hconst : (6356752.31414 : ℝ) = 635675231414 / 100000 := by norm_num
  rw [hconst]
  obtain ⟨P, hP, -⟩ := lookVector_place hph dlon lat 0
  rw [sub_zero] at hP
  exact ⟨P, hP⟩

/-- The coordinates of one point, for the symmetries below. -/
theorem navigate_one (points : List (ℝ × ℝ)) (satLon : ℝ) (rev : Int) {re rp : Rat}
    (hr : ellipseRadii rev = .ok (re, rp)) :
    lonLatToFixedGrid points satLon rev = .ok (points.map fun p =>
      scanAngles (lookVector re rp 6378137 (635675231414 / 100000) 35786023 p.1 p.2 satLon)) := by
  unfold lonLatToFixedGrid
  rw [hr]

theorem lookVector_lat (re rp reGrs rpGrs height lon lat satLon : ℝ) :
    lookVector re rp reGrs rpGrs height lon (-lat) satLon =
      ((lookVector re rp reGrs rpGrs height lon lat satLon).1,
        (lookVector re rp reGrs rpGrs height lon lat satLon).2.1,
        -(lookVector re rp reGrs rpGrs height lon lat satLon).2.2) := by
  unfold lookVector
  have : -lat * Real.pi / 180 = -(lat * Real.pi / 180) := by ring
  simp only [this, Real.tan_neg, mul_neg, Real.arctan_neg, Real.cos_neg, Real.sin_neg]

theorem lookVector_lon (re rp reGrs rpGrs height lon lat satLon : ℝ) :
    lookVector re rp reGrs rpGrs height (2 * satLon - lon) lat satLon =
      ((lookVector re rp reGrs rpGrs height lon lat satLon).1,
        -(lookVector re rp reGrs rpGrs height lon lat satLon).2.1,
        (lookVector re rp reGrs rpGrs height lon lat satLon).2.2) := by
  unfold lookVector
  simp only [(cos_wrap _).1, (cos_wrap _).2]
  have : (2 * satLon - lon - satLon) * Real.pi / 180 = -((lon - satLon) * Real.pi / 180) := by ring
  simp only [this, Real.cos_neg, Real.sin_neg, mul_neg]

theorem lookVector_turn (re rp reGrs rpGrs height lon lat satLon : ℝ) (k : ℤ) :
    lookVector re rp reGrs rpGrs height (lon + 360 * k) lat satLon =
      lookVector re rp reGrs rpGrs height lon lat satLon := by
  unfold lookVector
  simp only [(cos_wrap _).1, (cos_wrap _).2]
  have : (lon + 360 * k - satLon) * Real.pi / 180 = (lon - satLon) * Real.pi / 180 + k * (2 * Real.pi) := by
    ring
  simp only [this, Real.cos_add_int_mul_two_pi, Real.sin_add_int_mul_two_pi]

/-- C57: the symmetries, for all points of an array. -/
theorem C57_symmetry (rev : Int) (satLon : ℝ) (points out : List (ℝ × ℝ))
    (h : lonLatToFixedGrid points satLon rev = .ok out) :
    lonLatToFixedGrid (points.map fun p => (p.1, -p.2)) satLon rev =
      .ok (out.map fun q => (q.1, -q.2)) ∧
    lonLatToFixedGrid (points.map fun p => (2 * satLon - p.1, p.2)) satLon rev =
      .ok (out.map fun q => (-q.1, q.2)) ∧
    (∀ k : ℤ, lonLatToFixedGrid (points.map fun p => (p.1 + 360 * k, p.2)) satLon rev = .ok out) := by
  cases hr : ellipseRadii rev with
  | error e => unfold lonLatToFixedGrid at h; rw [hr] at h; cases h
  | ok r =>
    obtain ⟨re, rp⟩ := r
    rw [navigate_one _ _ _ hr] at h
    have h : out = _ := (Except.ok.inj h).symm
    subst h
    have s1 : ∀ v : ℝ × ℝ × ℝ, scanAngles (v.1, v.2.1, -v.2.2) = ((scanAngles v).1, -(scanAngles v).2) := by
      intro v
      unfold scanAngles
      simp only [neg_mul_neg, neg_div, Real.arctan_neg]
    have s2 : ∀ v : ℝ × ℝ × ℝ, scanAngles (v.1, -v.2.1, v.2.2) = (-(scanAngles v).1, (scanAngles v).2) := by
      intro v
      unfold scanAngles
      simp only [neg_mul_neg, neg_div, Real.arcsin_neg]
    refine ⟨?_, ?_, ?_⟩
    · rw [navigate_one _ _ _ hr, List.map_map, List.map_map]
      congr 1
      apply List.map_congr_left
      intro p _
      simp only [Function.comp, lookVector_lat, s1]
    · rw [navigate_one _ _ _ hr, List.map_map, List.map_map]
      congr 1
      apply List.map_congr_left
      intro p _
      simp only [Function.comp, lookVector_lon, s2]
    · intro k
      rw [navigate_one _ _ _ hr, List.map_map]
      congr 1
      apply List.map_congr_left
      intro p _
      simp only [Function.comp, lookVector_turn]

/-- C57: the point below the satellite. -/
theorem C57_nadir (rev : Int) (satLon : ℝ) (h : rev = 0 ∨ rev = 1) :
    lonLatToFixedGrid [(satLon, 0)] satLon rev = .ok [(0, 0)] := by
  have hr : ∃ re rp, ellipseRadii rev = .ok (re, rp) := by
    rcases h with rfl | rfl
    · exact ⟨_, _, rfl⟩
    · exact ⟨_, _, rfl⟩
  obtain ⟨re, rp, hr⟩ := hr
  rw [navigate_one _ _ _ hr]
  congr 1
  rw [List.map_cons, List.map_nil]
  congr 1
  unfold scanAngles lookVector
  simp only [(cos_wrap _).1, (cos_wrap _).2, sub_self, zero_mul, zero_div, Real.tan_zero, mul_zero,
    Real.arctan_zero, Real.sin_zero, Real.arcsin_zero, neg_zero]

/-- C57: x is positive to the east of the satellite and y to the north of the equator. -/
theorem C57_orientation (rev : Int) (satLon lon lat x y : ℝ) (h1 : |lat| < 90)
    (h : lonLatToFixedGrid [(lon, lat)] satLon rev = .ok [(x, y)]) :
    (0 < lon - satLon → lon - satLon < 180 → 0 < x) ∧ (0 < lat → 0 < y) := by
  cases hr : ellipseRadii rev with
  | error e => unfold lonLatToFixedGrid at h; rw [hr] at h; cases h
  | ok r =>
    obtain ⟨re, rp⟩ := r
    have hph := physical_defaults hr
    obtain ⟨P, hP⟩ := C57_place_exists rev re rp hr (lon - satLon) lat
    obtain ⟨x', y', h', bx, bye, m, hm, e1, e2, e3⟩ := C57_direction rev re rp hr lon lat satLon P h1 hP
    rw [h] at h'
    simp only [Except.ok.injEq, List.cons.injEq, Prod.mk.injEq, and_true] at h'
    obtain ⟨rfl, rfl⟩ := h'
    rw [abs_lt] at bx bye
    have hcx : 0 < Real.cos x := Real.cos_pos_of_mem_Ioo ⟨bx.1, bx.2⟩
    obtain ⟨ρ, hρ, d1, d2, d3⟩ := hP.direction
    have hpi := Real.pi_pos
    constructor
    · intro h0 h2
      have hs : 0 < Real.sin ((lon - satLon) * Real.pi / 180) :=
        Real.sin_pos_of_pos_of_lt_pi (by positivity) (by
          rw [div_lt_iff₀ (by norm_num)]; nlinarith)
      have : 0 < m * Real.sin x := by rw [← e2, d2]; positivity
      have hsx : 0 < Real.sin x := by
        rcases pos_and_pos_or_neg_and_neg_of_mul_pos this with h | h
        · exact h.2
        · linarith [h.1]
      by_contra hc
      have := Real.sin_nonpos_of_nonpos_of_neg_pi_le (not_lt.mp hc) (by linarith)
      linarith
    · intro h0
      have h2 := (abs_lt.mp h1).2
      have ht : 0 < Real.tan (lat * Real.pi / 180) :=
        Real.tan_pos_of_pos_of_lt_pi_div_two (by positivity) (by
          rw [div_lt_div_iff₀ (by norm_num) (by norm_num)]; nlinarith)
      have : 0 < m * Real.cos x * Real.sin y := by rw [← e3, d3]; positivity
      have hsy : 0 < Real.sin y := by
        rcases pos_and_pos_or_neg_and_neg_of_mul_pos this with h | h
        · exact h.2
        · have : 0 < m * Real.cos x := by positivity
          linarith [h.1]
      by_contra hc
      have := Real.sin_nonpos_of_nonpos_of_neg_pi_le (not_lt.mp hc) (by linarith)
      linarith

/-! ## C80 -/

/-- The point of the ellipsoid faces the satellite: the outward normal there points to its side. -/
def Visible (re rp satH : ℝ) (P : ℝ × ℝ × ℝ) : Prop :=
  0 < P.1 / re ^ 2 * (satH - P.1) + P.2.1 / re ^ 2 * (0 - P.2.1) + P.2.2 / rp ^ 2 * (0 - P.2.2)

/-- Two visible points in the same direction are the same. -/
theorem visible_unique {re rp satH a b c m n : ℝ} (hre : 0 < re) (hrp : 0 < rp)
    (hm : 0 < m) (hn : 0 < n)
    (e1 : ((satH + m * a) ^ 2 + (m * b) ^ 2) / re ^ 2 + (m * c) ^ 2 / rp ^ 2 = 1)
    (e2 : ((satH + n * a) ^ 2 + (n * b) ^ 2) / re ^ 2 + (n * c) ^ 2 / rp ^ 2 = 1)
    (v1 : Visible re rp satH (satH + m * a, m * b, m * c))
    (v2 : Visible re rp satH (satH + n * a, n * b, n * c)) : m = n := by
  unfold Visible at v1 v2
  simp only at v1 v2
  set i := 1 / re ^ 2 with hi
  set j := 1 / rp ^ 2 with hj
  have hipos : 0 < i := by positivity
  have hjpos : 0 < j := by positivity
  have dv : ∀ t : ℝ, t / re ^ 2 = t * i := fun t => by rw [hi]; ring
  have dw : ∀ t : ℝ, t / rp ^ 2 = t * j := fun t => by rw [hj]; ring
  simp only [dv, dw] at e1 e2 v1 v2
  set A := (a ^ 2 + b ^ 2) * i + c ^ 2 * j with hA
  set B := satH * a * i with hB
  have p1 : 0 < -m * (m * A + B) := by rw [hA, hB]; linarith
  have p2 : 0 < -n * (n * A + B) := by rw [hA, hB]; linarith
  have q1 : m * A + B < 0 := by
    by_contra hc
    have := mul_nonneg hm.le (not_lt.mp hc)
    linarith
  have q2 : n * A + B < 0 := by
    by_contra hc
    have := mul_nonneg hn.le (not_lt.mp hc)
    linarith
  have hd : (m - n) * ((m * A + B) + (n * A + B)) = 0 := by
    rw [hA, hB]
    linear_combination e1 - e2
  rcases mul_eq_zero.mp hd with h | h
  · linarith
  · linarith

/-- C80: places that face the satellite and have the same coordinates are the same: their latitudes
are equal, and their longitudes up to full turns. -/
theorem C80_injective (rev : Int) (re rp : Rat) (hr : ellipseRadii rev = .ok (re, rp))
    (satLon lon lat lon' lat' : ℝ) (P P' : ℝ × ℝ × ℝ)
    (hP : IsPlace re rp 6378137 6356752.31414 (lon - satLon) lat P)
    (hP' : IsPlace re rp 6378137 6356752.31414 (lon' - satLon) lat' P')
    (hv : Visible re rp 42164160 P) (hv' : Visible re rp 42164160 P')
    (h1 : |lat| < 90) (h2 : |lat'| < 90)
    (h : lonLatToFixedGrid [(lon, lat)] satLon rev = lonLatToFixedGrid [(lon', lat')] satLon rev) :
    P = P' ∧ lat = lat' ∧ ∃ k : ℤ, lon = lon' + 360 * k := by
  have hph := physical_defaults hr
  obtain ⟨x, y, g, -, -, m, hm, a1, a2, a3⟩ := C57_direction rev re rp hr lon lat satLon P h1 hP
  obtain ⟨x', y', g', -, -, n, hn, b1, b2, b3⟩ := C57_direction rev re rp hr lon' lat' satLon P' h2 hP'
  rw [g, g'] at h
  simp only [Except.ok.injEq, List.cons.injEq, Prod.mk.injEq, and_true] at h
  obtain ⟨rfl, rfl⟩ := h
  have f1 : P = (42164160 + m * -(Real.cos x * Real.cos y), m * Real.sin x,
      m * (Real.cos x * Real.sin y)) := by
    obtain ⟨p1, p2, p3⟩ := P
    simp only at a1 a2 a3
    rw [Prod.mk.injEq, Prod.mk.injEq]
    exact ⟨by linarith, a2, by rw [a3]; ring⟩
  have f2 : P' = (42164160 + n * -(Real.cos x * Real.cos y), n * Real.sin x,
      n * (Real.cos x * Real.sin y)) := by
    obtain ⟨p1, p2, p3⟩ := P'
    simp only at b1 b2 b3
    rw [Prod.mk.injEq, Prod.mk.injEq]
    exact ⟨by linarith, b2, by rw [b3]; ring⟩
  have o1 := hP.onEllipsoid
  have o2 := hP'.onEllipsoid
  rw [f1] at hv o1
  rw [f2] at hv' o2
  have hmn := visible_unique hph.re_pos hph.rp_pos hm hn o1 o2 hv hv'
  subst hmn
  have hPP : P = P' := by rw [f1, f2]
  refine ⟨hPP, ?_⟩
  subst hPP
  obtain ⟨ρ, hρ, d1, d2, d3⟩ := hP.direction
  obtain ⟨σ, hσ, d1', d2', d3'⟩ := hP'.direction
  have hρσ : ρ = σ := by
    have t1 := Real.cos_sq_add_sin_sq ((lon - satLon) * Real.pi / 180)
    have t2 := Real.cos_sq_add_sin_sq ((lon' - satLon) * Real.pi / 180)
    have r1 : ρ ^ 2 = P.1 ^ 2 + P.2.1 ^ 2 := by rw [d1, d2]; linear_combination (-ρ ^ 2) * t1
    have r2 : σ ^ 2 = P.1 ^ 2 + P.2.1 ^ 2 := by rw [d1', d2']; linear_combination (-σ ^ 2) * t2
    rcases sq_eq_sq_iff_eq_or_eq_neg.mp (r1.trans r2.symm) with h | h
    · exact h
    · linarith
  subst hρσ
  have hpi := Real.pi_pos
  have hrad : ∀ l : ℝ, |l| < 90 → -(Real.pi / 2) < l * Real.pi / 180 ∧ l * Real.pi / 180 < Real.pi / 2 := by
    intro l hl
    rw [abs_lt] at hl
    constructor <;> nlinarith
  constructor
  · have ht : Real.tan (lat * Real.pi / 180) = Real.tan (lat' * Real.pi / 180) := by
      have := d3.symm.trans d3'
      have hk : (ρ * (6356752.31414 / 6378137 : ℝ) ^ 2) ≠ 0 := by positivity
      apply mul_left_cancel₀ hk
      linarith
    have := Real.injOn_tan ⟨(hrad lat h1).1, (hrad lat h1).2⟩ ⟨(hrad lat' h2).1, (hrad lat' h2).2⟩ ht
    have : lat * Real.pi = lat' * Real.pi := by linarith
    exact mul_right_cancel₀ (ne_of_gt hpi) this
  · have hc : Real.cos ((lon - satLon) * Real.pi / 180) = Real.cos ((lon' - satLon) * Real.pi / 180) :=
      mul_left_cancel₀ (ne_of_gt hρ) (d1.symm.trans d1')
    have hs : Real.sin ((lon - satLon) * Real.pi / 180) = Real.sin ((lon' - satLon) * Real.pi / 180) :=
      mul_left_cancel₀ (ne_of_gt hρ) (d2.symm.trans d2')
    have hone : Real.cos ((lon - satLon) * Real.pi / 180 - (lon' - satLon) * Real.pi / 180) = 1 := by
      rw [Real.cos_sub, hc, hs]
      have := Real.cos_sq_add_sin_sq ((lon' - satLon) * Real.pi / 180)
      linarith [sq (Real.cos ((lon' - satLon) * Real.pi / 180)),
        sq (Real.sin ((lon' - satLon) * Real.pi / 180))]
    obtain ⟨k, hk⟩ := (Real.cos_eq_one_iff _).mp hone
    refine ⟨k, ?_⟩
    have : (lon - lon' - 360 * k) * Real.pi = 0 := by linarith
    rcases mul_eq_zero.mp this with h | h
    · linarith
    · exact absurd h (ne_of_gt hpi)

/-- A case that meets the hypotheses: the point below the satellite is visible. -/
example : IsPlace (6394140 : ℝ) 6362755 6378137 6356752.31414 0 0 (6394140, 0, 0) ∧
    Visible 6394140 6362755 42164160 (6394140, 0, 0) := by
  refine ⟨⟨by norm_num, 6394140, by norm_num, by simp, by simp, by simp⟩, ?_⟩
  unfold Visible
  norm_num

/-- Another one: the point on the equator 60 degrees to the east is visible too. -/
example : IsPlace (6394140 : ℝ) 6362755 6378137 6356752.31414 60 0 (3197070, 3197070 * Real.sqrt 3, 0) ∧
    Visible 6394140 6362755 42164160 (3197070, 3197070 * Real.sqrt 3, 0) := by
  have h3 : Real.sqrt 3 ^ 2 = 3 := Real.sq_sqrt (by norm_num)
  have h60 : (60 : ℝ) * Real.pi / 180 = Real.pi / 3 := by ring
  refine ⟨⟨?_, 6394140, by norm_num, ?_, ?_, by simp⟩, ?_⟩
  · simp only [mul_pow, h3]
    norm_num
  · rw [h60, Real.cos_pi_div_three]; norm_num
  · rw [h60, Real.sin_pi_div_three]; ring
  · unfold Visible
    simp only
    have : (3197070 * Real.sqrt 3) / 6394140 ^ 2 * (0 - 3197070 * Real.sqrt 3) =
        -(3197070 ^ 2 * Real.sqrt 3 ^ 2 / 6394140 ^ 2) := by ring
    rw [this, h3]
    norm_num

end Verif.Props
