import Verif.Model.Labels
import Verif.Props.Double
import Verif.Props.Imagery

/-!
# C117: the units of the densities
-/

namespace Verif.Props

open Verif.Py Verif.Model Verif.Spec Verif.Proofs

/-- A number of microradians as the program has it: a decimal number of radians as a double. -/
def microradians (k : Nat) : Rat := double ((k : Rat) / 1000000)

/-- The label for boxes of a number of square microradians and frames of a number of minutes. -/
def IsLabel (area : Nat) (minutes : Nat) (s : String) : Prop :=
  ∃ blanks : Nat, s = "Count per nominal " ++ String.ofList (List.replicate blanks ' ') ++ toString area ++
    " microradian^2 pixel per " ++ toString minutes ++ ".0 min"

/-- C117: the units of all densities on the fixed grid name the area of a box and the length of a frame, for boxes of
whole microradians and frames of whole minutes. -/
def C117_full : Prop := ∀ k m minutes : Nat, 0 < k → 0 < m → k * m < 2 ^ 50 → minutes < 2 ^ 40 →
  ∀ field unit, (field, unit) ∈ List.zip
      (gridderOutputSetup double "geos" (microradians k) (microradians m) 1 ((60 * minutes : Nat) : Rat)).names
      (gridderOutputSetup double "geos" (microradians k) (microradians m) 1 ((60 * minutes : Nat) : Rat)).units →
    field ∈ ["flash_extent_density", "flash_centroid_density", "group_extent_density", "group_centroid_density"] →
    IsLabel (k * m) minutes unit

theorem formatTenths_nat (n : Nat) : String.ofList (formatTenths n) = toString n ++ ".0" := by
  unfold formatTenths
  have e : npAround (10 * (n : Rat)) = 10 * n := by
    have := npAround_int (10 * n : Int)
    push_cast at this
    exact this
  rw [e]
  simp only [decimal]
  have e1 : (10 * (n : Int)) / 10 = n := by omega
  have e2 : (10 * (n : Int)) % 10 = 0 := by omega
  rw [e1, e2]
  have e3 : toString (n : Int) = toString n := rfl
  rw [e3]
  simp [String.ofList_append]
  rfl

/-- What the label says. -/
theorem label_eq (k m minutes : Nat) (hmin : minutes < 2 ^ 40) (N : Nat)
    (hN : pyInt (double (double (microradians k * microradians m) * 1000000000000)) = N) :
    IsLabel N minutes (String.ofList (densityLabel double "geos" (microradians k) (microradians m) 1
      ((60 * minutes : Nat) : Rat))) := by
  unfold densityLabel densityUnits
  rw [if_neg (by decide), if_pos rfl, hN]
  have e : double ((((60 * minutes : Nat) : Rat)) / 60) = minutes := by
    have : (((60 * minutes : Nat) : Rat)) / 60 = minutes := by push_cast; field_simp
    rw [this]
    exact double_eq (isDouble_nat (by omega))
  rw [e]
  unfold formatWidth7
  refine ⟨7 - (decimal N).length, ?_⟩
  have e4 : String.ofList (decimal (N : Int)) = toString N := by
    simp [decimal]; rfl
  simp only [String.ofList_append, formatTenths_nat, e4, String.append_assoc]
  rfl

theorem densities_label (label : String) (field unit : String)
    (h : (field, unit) ∈ List.zip (lutOutputSetup label).names (lutOutputSetup label).units)
    (hf : field ∈ ["flash_extent_density", "flash_centroid_density", "group_extent_density", "group_centroid_density"]) :
    unit = label := by
  simp only [lutOutputSetup, outputSetup, List.zip_cons_cons, List.zip_nil_right, List.mem_cons, Prod.mk.injEq,
    List.not_mem_nil, or_false] at h hf
  rcases hf with rfl | rfl | rfl | rfl <;> simp_all

theorem densities_exist (label : String) :
    ("flash_extent_density", label) ∈ List.zip (lutOutputSetup label).names (lutOutputSetup label).units := by
  simp [lutOutputSetup, outputSetup]

/-- The product of the rounded spacings. -/
theorem area_close (k m : Nat) :
    |double (double (microradians k * microradians m) * 1000000000000) - ((k * m : Nat) : Rat)| ≤
      5 / 2 ^ 53 * ((k * m : Nat) : Rat) := by
  rcases Nat.eq_zero_or_pos (k * m) with h0 | h0
  · have : microradians k * microradians m = 0 := by
      unfold microradians
      rcases Nat.mul_eq_zero.mp h0 with h | h <;> subst h <;> simp [double_zero]
    rw [this, double_zero, zero_mul, double_zero, h0]; simp
  have hd : (0 : Rat) < ((k * m : Nat) : Rat) := by exact_mod_cast h0
  have hk := double_near ((k : Rat) / 1000000)
  have hm := double_near ((m : Rat) / 1000000)
  rw [abs_of_nonneg (by positivity : (0 : Rat) ≤ (k : Rat) / 1000000)] at hk
  rw [abs_of_nonneg (by positivity : (0 : Rat) ≤ (m : Rat) / 1000000)] at hm
  have h1 : |microradians k * microradians m - ((k * m : Nat) : Rat) / 1000000000000| ≤
      9 / 4 / 2 ^ 53 * (((k * m : Nat) : Rat) / 1000000000000) := by
    unfold microradians
    set x := (k : Rat) / 1000000 with hx
    set y := (m : Rat) / 1000000 with hy
    have hx0 : 0 ≤ x := by positivity
    have hy0 : 0 ≤ y := by positivity
    have exy : ((k * m : Nat) : Rat) / 1000000000000 = x * y := by rw [hx, hy]; push_cast; ring
    rw [exy]
    have e : double x * double y - x * y = (double x - x) * (double y - y) + (double x - x) * y + x * (double y - y) := by
      ring
    rw [e]
    refine le_trans (abs_add_le _ _) ?_
    have a1 : |(double x - x) * (double y - y) + (double x - x) * y| ≤
        |(double x - x) * (double y - y)| + |(double x - x) * y| := abs_add_le _ _
    have a2 : |(double x - x) * (double y - y)| ≤ (1 / 2 ^ 53 * x) * (1 / 2 ^ 53 * y) := by
      rw [abs_mul]; exact mul_le_mul hk hm (abs_nonneg _) (by positivity)
    have a3 : |(double x - x) * y| ≤ 1 / 2 ^ 53 * x * y := by
      rw [abs_mul, abs_of_nonneg hy0]; exact mul_le_mul_of_nonneg_right hk hy0
    have a4 : |x * (double y - y)| ≤ x * (1 / 2 ^ 53 * y) := by
      rw [abs_mul, abs_of_nonneg hx0]; exact mul_le_mul_of_nonneg_left hm hx0
    have hxy : 0 ≤ x * y := mul_nonneg hx0 hy0
    have a5 : (1 / 2 ^ 53 * x) * (1 / 2 ^ 53 * y) ≤ 1 / 4 / 2 ^ 53 * (x * y) := by
      rw [show (1 / 2 ^ 53 * x) * (1 / 2 ^ 53 * y) = (1 / 2 ^ 53 * (1 / 2 ^ 53)) * (x * y) by ring]
      exact mul_le_mul_of_nonneg_right (by norm_num) hxy
    have a6 : 9 / 4 / 2 ^ 53 * (x * y) = 1 / 4 / 2 ^ 53 * (x * y) + 1 / 2 ^ 53 * x * y + x * (1 / 2 ^ 53 * y) := by ring
    rw [a6]
    exact add_le_add (le_trans a1 (add_le_add (le_trans a2 a5) a3)) a4
  have h2 := double_close (M := 1) (e' := 7 / 2 / 2 ^ 53) (by positivity) h1
    (by rw [abs_of_nonneg (by positivity)]; linarith) (by norm_num)
  have h3 : |double (microradians k * microradians m) * 1000000000000 - ((k * m : Nat) : Rat)| ≤
      7 / 2 / 2 ^ 53 * ((k * m : Nat) : Rat) := by
    have e : double (microradians k * microradians m) * 1000000000000 - ((k * m : Nat) : Rat) =
        (double (microradians k * microradians m) - ((k * m : Nat) : Rat) / 1000000000000) * 1000000000000 := by ring
    rw [e, abs_mul, abs_of_pos (show (0 : Rat) < 1000000000000 by norm_num)]
    calc _ ≤ 7 / 2 / 2 ^ 53 * (((k * m : Nat) : Rat) / 1000000000000) * 1000000000000 :=
          mul_le_mul_of_nonneg_right h2 (by norm_num)
      _ = _ := by ring
  exact double_close (M := 1) hd h3 (by rw [abs_of_nonneg (by positivity)]; linarith) (by norm_num)

/-- C117 but for the last digit of the area: it is right or one too small. -/
theorem C117_area_partial (k m minutes : Nat) (hkm : k * m < 2 ^ 50) (hmin : minutes < 2 ^ 40)
    (field unit : String) (h : (field, unit) ∈ List.zip
      (gridderOutputSetup double "geos" (microradians k) (microradians m) 1 ((60 * minutes : Nat) : Rat)).names
      (gridderOutputSetup double "geos" (microradians k) (microradians m) 1 ((60 * minutes : Nat) : Rat)).units)
    (hf : field ∈ ["flash_extent_density", "flash_centroid_density", "group_extent_density", "group_centroid_density"]) :
    IsLabel (k * m) minutes unit ∨ IsLabel (k * m - 1) minutes unit := by
  have hu := densities_label _ field unit h hf
  rw [hu]
  obtain ⟨a, b⟩ := abs_le.mp (area_close k m)
  set v := double (double (microradians k * microradians m) * 1000000000000) with hv
  have hv0 : 0 ≤ v := by
    rw [hv]
    apply double_nonneg
    apply mul_nonneg _ (by norm_num)
    apply double_nonneg
    exact mul_nonneg (double_nonneg (by positivity)) (double_nonneg (by positivity))
  have hlt : ((k * m : Nat) : Rat) < 2 ^ 50 := by exact_mod_cast hkm
  have hlt2 : 5 / 2 ^ 53 * ((k * m : Nat) : Rat) < 1 := by
    calc 5 / 2 ^ 53 * ((k * m : Nat) : Rat) ≤ 5 / 2 ^ 53 * 2 ^ 50 :=
          mul_le_mul_of_nonneg_left (le_of_lt hlt) (by norm_num)
      _ < 1 := by norm_num
  have hfl : pyInt v = ⌊v⌋ := pyInt_of_nonneg hv0
  rcases le_or_gt ((k * m : Nat) : Rat) v with hc | hc
  · left
    apply label_eq k m minutes hmin
    rw [← hv, hfl, Int.floor_eq_iff]
    constructor
    · exact_mod_cast hc
    · push_cast at *; linarith
  · right
    have hpos : 0 < k * m := by
      by_contra h0
      have : k * m = 0 := by omega
      rw [this] at hc
      simp at hc
      linarith
    apply label_eq k m minutes hmin
    rw [← hv, hfl, Int.floor_eq_iff]
    have e : (((k * m - 1 : Nat) : Int) : Rat) = ((k * m : Nat) : Rat) - 1 := by
      rw [Int.cast_natCast, Nat.cast_sub (by omega)]; simp
    rw [e]
    constructor <;> linarith

theorem label_nines {area minutes : Nat} {s : String} (h : IsLabel area minutes s) :
    s.toList.count '9' = (toString area).toList.count '9' + (toString minutes).toList.count '9' := by
  obtain ⟨b, rfl⟩ := h
  simp only [String.toList_append, List.count_append, String.toList_ofList]
  have : (List.replicate b ' ').count '9' = 0 := by
    rw [List.count_replicate]; rfl
  rw [this]
  have e1 : "Count per nominal ".toList.count '9' = 0 := by decide
  have e2 : " microradian^2 pixel per ".toList.count '9' = 0 := by decide
  have e3 : ".0 min".toList.count '9' = 0 := by decide
  omega

/-- The boxes of a 10 km grid are 280 microradians wide: 78400 square microradians, but the label says 78399. -/
theorem C117_full_false : ¬ C117_full := by
  intro h
  have h1 := h 280 280 1 (by norm_num) (by norm_num) (by norm_num) (by norm_num) "flash_extent_density" _
    (densities_exist _) (by simp)
  have h2 := label_eq 280 280 1 (by norm_num) 78399 (by decide +kernel)
  have h3 := label_nines h1
  have h4 := label_nines h2
  rw [h4] at h3
  revert h3
  decide

/-- The label is right for the grids of 0.5, 1, 2, 4 and 8 km; here for 2 km and frames of one minute. -/
example : densityLabel double "geos" (microradians 56) (microradians 56) 1 60 =
    "Count per nominal    3136 microradian^2 pixel per 1.0 min".toList := by decide +kernel
example : ∀ k ∈ [14, 28, 56, 112, 224], pyInt (double (double (microradians k * microradians k) * 1000000000000)) =
    (k * k : Nat) := by decide +kernel
example : densityLabel double "geos" (microradians 280) (microradians 280) 1 60 =
    "Count per nominal   78399 microradian^2 pixel per 1.0 min".toList := by decide +kernel

/-- The length of a frame is given to a tenth of a minute, rounded. -/
theorem C117_minutes (v : Rat) (hv : 0 ≤ v) : ∃ n d : Nat, d < 10 ∧
    String.ofList (formatTenths (double (v / 60))) = toString n ++ "." ++ toString d ∧
    |((n : Rat) + d / 10) - v / 60| ≤ 1 / 20 + v / 60 / 2 ^ 53 := by
  have h0 : 0 ≤ v / 60 := by positivity
  have hn := double_near (v / 60)
  rw [abs_of_nonneg h0] at hn
  obtain ⟨b1, b2⟩ := npAround_bounds (10 * double (v / 60))
  have hnn : 0 ≤ npAround (10 * double (v / 60)) := by
    apply npAround_mono_int.1
    have := double_nonneg h0
    push_cast; linarith
  obtain ⟨N, hN⟩ : ∃ N : Nat, npAround (10 * double (v / 60)) = N := ⟨_, (Int.toNat_of_nonneg hnn).symm⟩
  rw [hN] at b1 b2
  refine ⟨N / 10, N % 10, Nat.mod_lt _ (by norm_num), ?_, ?_⟩
  · unfold formatTenths
    simp only [hN, decimal]
    have e1 : (N : Int) / 10 = ((N / 10 : Nat) : Int) := by omega
    have e2 : (N : Int) % 10 = ((N % 10 : Nat) : Int) := by omega
    rw [e1, e2, String.ofList_append, String.ofList_append, String.ofList_toList, String.ofList_toList]
    rfl
  · have e : ((N / 10 : Nat) : Rat) + ((N % 10 : Nat) : Rat) / 10 = (N : Rat) / 10 := by
      have h1 : 10 * (N / 10) + N % 10 = N := Nat.div_add_mod N 10
      have h2 : (10 : Rat) * ((N / 10 : Nat) : Rat) + ((N % 10 : Nat) : Rat) = N := by exact_mod_cast h1
      linarith
    rw [e]
    push_cast at b1 b2
    obtain ⟨c1, c2⟩ := abs_le.mp hn
    rw [abs_le]
    have e2 : v / 60 / 2 ^ 53 = 1 / 2 ^ 53 * (v / 60) := by ring
    rw [e2]
    constructor <;> linarith

/-- Frames of twenty seconds. -/
example : formatTenths (double (20 / 60)) = "0.3".toList := by decide +kernel

end Verif.Props
