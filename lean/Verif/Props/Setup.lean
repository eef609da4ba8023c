import Verif.Model.Setup
import Verif.Props.Names
import Verif.Props.Call
import Verif.Props.Values
import Mathlib.Tactic.Linarith
import Mathlib.Tactic.Ring
import Mathlib.Tactic.FieldSimp

/-!
# C62, C81, C82: the command line program
-/

namespace Verif.Props

open Verif.Py Verif.Model Verif.Spec Verif.Proofs

/-! ## C62: resolution -/

theorem nearestOf_spec (dx : Rat) (l : List (Rat × String)) (h : l ≠ []) :
    ∃ p ∈ l, nearestOf dx l = some p ∧ ∀ q ∈ l, |p.1 - dx| ≤ |q.1 - dx| := by
  induction l with
  | nil => exact absurd rfl h
  | cons o rest ih =>
    cases rest with
    | nil => exact ⟨o, by simp, rfl, by simp⟩
    | cons o' rest' =>
      obtain ⟨p, hp, h1, h2⟩ := ih (by simp)
      rw [nearestOf, h1]
      by_cases hlt : |p.1 - dx| < |o.1 - dx|
      · refine ⟨p, by simp [hp], by simp [hlt], ?_⟩
        intro q hq
        rcases List.mem_cons.mp hq with rfl | hq
        · exact hlt.le
        · exact h2 q hq
      · refine ⟨o, by simp, by simp [hlt], ?_⟩
        intro q hq
        rcases List.mem_cons.mp hq with rfl | hq
        · exact le_refl _
        · exact (not_lt.mp hlt).trans (h2 q hq)

/-- C62: the resolution is one of the supported ones, and no other is nearer. -/
theorem C62_resolution (dx : Rat) : ∃ km,
    (km, nearestResolution dx) ∈ [((1 / 2 : Rat), "0.5km"), (1, "1.0km"), (2, "2.0km"), (4, "4.0km"),
      (8, "8.0km"), (10, "10.0km")] ∧
    ∀ km' ∈ [(1 / 2 : Rat), 1, 2, 4, 8, 10], |km - dx| ≤ |km' - dx| := by
  obtain ⟨p, hp, h1, h2⟩ := nearestOf_spec dx reslnOptions (by simp [reslnOptions])
  refine ⟨p.1, ?_, ?_⟩
  · unfold nearestResolution
    rw [h1]
    exact hp
  · intro km' hk
    have : km' ∈ reslnOptions.map Prod.fst := hk
    obtain ⟨q, hq, rfl⟩ := List.mem_map.mp this
    exact h2 q hq

/-! ## C62: bounds -/

theorem foldl_min_eq (l : List Rat) (a m : Rat) (ha : m ≤ a) (h : ∀ x ∈ l, m ≤ x) (hm : a = m ∨ m ∈ l) :
    l.foldl min a = m := by
  induction l generalizing a with
  | nil => rcases hm with rfl | hm
           · rfl
           · cases hm
  | cons x xs ih =>
    rw [List.foldl_cons]
    refine ih _ (le_min ha (h x (by simp))) (fun y hy => h y (by simp [hy])) ?_
    rcases hm with rfl | hm
    · exact Or.inl (min_eq_left (h x (by simp)))
    · rcases List.mem_cons.mp hm with rfl | hm
      · exact Or.inl (min_eq_right ha)
      · exact Or.inr hm

theorem foldl_max_eq (l : List Rat) (a m : Rat) (ha : a ≤ m) (h : ∀ x ∈ l, x ≤ m) (hm : a = m ∨ m ∈ l) :
    l.foldl max a = m := by
  induction l generalizing a with
  | nil => rcases hm with rfl | hm
           · rfl
           · cases hm
  | cons x xs ih =>
    rw [List.foldl_cons]
    refine ih _ (max_le ha (h x (by simp))) (fun y hy => h y (by simp [hy])) ?_
    rcases hm with rfl | hm
    · exact Or.inl (max_eq_left (h x (by simp)))
    · rcases List.mem_cons.mp hm with rfl | hm
      · exact Or.inl (max_eq_right ha)
      · exact Or.inr hm

theorem axisBounds_eq (n : Nat) (d ctr : Rat) (hd : 0 ≤ d) :
    axisBounds n d ctr = .ok (ctr - n * d / 2, ctr + n * d / 2) := by
  unfold axisBounds
  have h1 : ((n : Int) + 1).toNat = n + 1 := by omega
  simp only [h1]
  have hform : ∀ i : Nat, ((i : Rat) - (((n : Int) + 1 : Int) : Rat) / 2) * d + ctr + 1 / 2 * d =
      ctr - n * d / 2 + i * d := by
    intro i; push_cast; ring
  simp only [hform]
  rw [List.range_succ_eq_map, List.map_cons]
  simp only [Except.ok.injEq, Prod.mk.injEq]
  have hmem : ∀ x ∈ (List.map Nat.succ (List.range n)).map (fun i : Nat => ctr - n * d / 2 + i * d),
      ctr - n * d / 2 ≤ x ∧ x ≤ ctr + n * d / 2 := by
    intro x hx
    obtain ⟨i, hi, rfl⟩ := List.mem_map.mp hx
    obtain ⟨j, hj, rfl⟩ := List.mem_map.mp hi
    have hj : j + 1 ≤ n := List.mem_range.mp hj
    have h2 : ((j + 1 : Nat) : Rat) ≤ n := by exact_mod_cast hj
    have h3 : (0 : Rat) ≤ ((j + 1 : Nat) : Rat) := by positivity
    have h4 := mul_le_mul_of_nonneg_right h2 hd
    have h5 := mul_nonneg h3 hd
    constructor
    · show _ ≤ _ + ((j + 1 : Nat) : Rat) * d
      linarith
    · show _ + ((j + 1 : Nat) : Rat) * d ≤ _
      linarith
  have h0 : ctr - n * d / 2 + ((0 : Nat) : Rat) * d = ctr - n * d / 2 := by simp
  rw [h0]
  have hn : (0 : Rat) ≤ n * d := by positivity
  constructor
  · exact foldl_min_eq _ _ _ (le_refl _) (fun x hx => (hmem x hx).1) (Or.inl rfl)
  · refine foldl_max_eq _ _ _ (by linarith) (fun x hx => (hmem x hx).2) ?_
    cases n with
    | zero => left; simp
    | succ m =>
      right
      refine List.mem_map.mpr ⟨m + 1, List.mem_map.mpr ⟨m, by simp, rfl⟩, ?_⟩
      ring

theorem cellCount_eq {width dx : Rat} {n : Nat} (hdx : 0 < dx) (h1 : n * dx ≤ width)
    (h2 : width < (n + 1) * dx) : cellCount width dx = .ok n := by
  unfold cellCount
  rw [if_neg (ne_of_gt hdx)]
  congr 1
  unfold pyInt
  have h0 : 0 ≤ width / dx := div_nonneg ((by positivity : (0 : Rat) ≤ n * dx).trans h1) hdx.le
  rw [if_pos h0]
  apply Int.floor_eq_iff.mpr
  constructor
  · rw [le_div_iff₀ hdx]; exact_mod_cast h1
  · rw [div_lt_iff₀ hdx]; exact_mod_cast h2

/-- C62: a grid of custom size has the requested centre, spacing and number of boxes, where spacing is
converted with the spacing of the grid of one kilometre. -/
theorem C62_custom (lib : Lmatools) (a : Args) (view : View) (lon lat : Rat) (nx ny : Nat)
    (hf : a.fixedGrid = true) (hp : a.goesPosition ≠ "none") (hs : a.goesSector = "none")
    (hlon : a.ctrLon = some lon) (hlat : a.ctrLat = some lat)
    (hview : lib.grid a.goesPosition "full" "1.0km" = .ok view) (hres : 0 ≤ view.resolution)
    (hdx : 0 < a.dx) (hdy : 0 < a.dy)
    (hw : nx * a.dx ≤ a.width ∧ a.width < (nx + 1) * a.dx)
    (hh : ny * a.dy ≤ a.height ∧ a.height < (ny + 1) * a.dy) :
    ∃ t, targetGrid lib a = .ok t ∧ t.nadirLon = some view.nadirLon ∧
      t.dx = a.dx * view.resolution ∧ t.dy = a.dy * view.resolution ∧
      (∃ cx cy, lib.toFixedGrid view.nadirLon lon lat = (cx, cy) ∧
        t.xBnd = (cx - nx * t.dx / 2, cx + nx * t.dx / 2) ∧
        t.yBnd = (cy - ny * t.dy / 2, cy + ny * t.dy / 2) ∧
        (t.ctrLon, t.ctrLat) = lib.toLonLat view.nadirLon cx cy) := by
  have hspec : fixedGridSpec lib a = .ok (view.nadirLon, (a.dx * view.resolution, a.dy * view.resolution),
      lib.toFixedGrid view.nadirLon lon lat, (nx : Int), (ny : Int)) := by
    unfold fixedGridSpec
    rw [if_neg (fun h => h.2 hs), if_pos ⟨hp, hs⟩, hview, hlon, hlat, cellCount_eq hdx hw.1 hw.2,
      cellCount_eq hdy hh.1 hh.2]
    rfl
  unfold targetGrid
  rw [if_pos hf, hspec]
  simp only [bind, Except.bind, axisBounds_eq nx _ _ (mul_nonneg hdx.le hres),
    axisBounds_eq ny _ _ (mul_nonneg hdy.le hres)]
  exact ⟨_, rfl, rfl, rfl, rfl, _, _, rfl, rfl, rfl, rfl⟩

/-- C62: the grid of a sector has the size and spacing of the view at the nearest resolution, around
its centre or, if it has none and is a mesoscale sector, around the centre that was given. -/
theorem C62_sector (lib : Lmatools) (a : Args) (view : View) (nx ny : Nat) (cx cy : Rat)
    (hf : a.fixedGrid = true) (hp : a.goesPosition ≠ "none") (hs : a.goesSector ≠ "none")
    (hview : lib.grid a.goesPosition a.goesSector (nearestResolution a.dx) = .ok view)
    (hres : 0 ≤ view.resolution) (hnx : view.pixelsEW = nx) (hny : view.pixelsNS = ny)
    (hc : view.center = some (cx, cy) ∨ view.center = none ∧ a.goesSector = "meso" ∧
      ∃ lon lat, a.ctrLon = some lon ∧ a.ctrLat = some lat ∧
        lib.toFixedGrid view.nadirLon lon lat = (cx, cy)) :
    ∃ t, targetGrid lib a = .ok t ∧ t.nadirLon = some view.nadirLon ∧
      t.dx = view.resolution ∧ t.dy = view.resolution ∧
      t.xBnd = (cx - nx * t.dx / 2, cx + nx * t.dx / 2) ∧
      t.yBnd = (cy - ny * t.dy / 2, cy + ny * t.dy / 2) ∧
      (t.ctrLon, t.ctrLat) = lib.toLonLat view.nadirLon cx cy := by
  have hspec : fixedGridSpec lib a = .ok (view.nadirLon, (view.resolution, view.resolution),
      (cx, cy), (nx : Int), (ny : Int)) := by
    unfold fixedGridSpec
    rw [if_pos ⟨hp, hs⟩, hview]
    simp only [bind, Except.bind]
    rcases hc with hc | ⟨hc, hm, lon, lat, h1, h2, h3⟩
    · rw [hc, hnx, hny]; rfl
    · rw [hc, hnx, hny]
      simp only [hm, if_true, h1, h2, needNumber, h3]
      rfl
  unfold targetGrid
  rw [if_pos hf, hspec]
  simp only [bind, Except.bind, axisBounds_eq nx _ _ hres, axisBounds_eq ny _ _ hres]
  exact ⟨_, rfl, rfl, rfl, rfl, rfl, rfl, rfl⟩

/-- C62: without the fixed grid the sizes are in metres, the domain is as far to the left of the given centre as to the
right, as far below as above, and as wide and high as requested; the library converts it to degrees. -/
theorem C62_lonlat (lib : Lmatools) (a : Args) (lon lat : Rat) (hf : a.fixedGrid = false)
    (hlon : a.ctrLon = some lon) (hlat : a.ctrLat = some lat) :
    ∃ t left right bottom top, targetGrid lib a = .ok t ∧ t.ctrLon = lon ∧ t.ctrLat = lat ∧ t.nadirLon = none ∧
      (t.dx, t.dy, t.xBnd, t.yBnd) = lib.dlonlat lat lon (a.dx * 1000) (a.dy * 1000) (left, right) (bottom, top) ∧
      left + right = 0 ∧ bottom + top = 0 ∧ right - left = a.width * 1000 ∧ top - bottom = a.height * 1000 := by
  refine ⟨_, _, _, _, _, by
    unfold targetGrid
    rw [hf, if_neg (by decide), hlon, hlat]
    rfl, rfl, rfl, rfl, rfl, ?_, ?_, ?_, ?_⟩ <;> ring

/-- C62: without the fixed grid there is no default centre, the program stops if one of its coordinates is not given. -/
theorem C62_centre_needed (lib : Lmatools) (a : Args) (hf : a.fixedGrid = false)
    (h : a.ctrLon = none ∨ a.ctrLat = none) : targetGrid lib a = .error .typeError := by
  unfold targetGrid
  rw [hf, if_neg (by decide)]
  cases hlat : a.ctrLat with
  | none => rfl
  | some lat =>
    rcases h with h | h
    · rw [h]; rfl
    · rw [h] at hlat; cases hlat

/-! ## C62: times -/

/-- The number of a day, counted through all years. -/
def dayNumber (y m d : Nat) : Nat := ((List.range y).map daysInYear).sum + yearDay y m d

/-- A time in microseconds. -/
def instant (t : DateTime) : Nat :=
  (((dayNumber t.year t.month t.day * 24 + t.hour) * 60 + t.minute) * 60 + t.second) * 1000000 +
    t.microsecond

theorem sum_range_mono (f : Nat → Nat) {a b : Nat} (h : a ≤ b) :
    ((List.range a).map f).sum ≤ ((List.range b).map f).sum := by
  induction b with
  | zero => simp [Nat.le_zero.mp h]
  | succ n ih =>
    rw [List.range_succ, List.map_append, List.sum_append]
    rcases Nat.lt_or_ge a (n + 1) with h' | h'
    · have := ih (by omega); omega
    · have : a = n + 1 := by omega
      subst this
      rw [List.range_succ, List.map_append, List.sum_append]

theorem sum_range_succ' (f : Nat → Nat) (n : Nat) :
    ((List.range (n + 1)).map f).sum = ((List.range n).map f).sum + f n := by
  rw [List.range_succ, List.map_append, List.sum_append]; simp

/-- The order of days. -/
theorem dayNumber_lt {y m d y' m' d' : Nat} (hm : 1 ≤ m ∧ m ≤ 12) (hd : 1 ≤ d ∧ d ≤ daysIn y m)
    (hd' : 1 ≤ d')
    (h : y < y' ∨ y = y' ∧ (m < m' ∨ m = m' ∧ d < d')) : dayNumber y m d < dayNumber y' m' d' := by
  unfold dayNumber
  rcases h with h | ⟨rfl, h | ⟨rfl, h⟩⟩
  · have h1 := (yearDay_le y m d hm hd).2
    have h2 := sum_range_mono daysInYear (show y + 1 ≤ y' from h)
    rw [sum_range_succ'] at h2
    have h3 : d' ≤ yearDay y' m' d' := by unfold yearDay; omega
    omega
  · have h2 := sum_range_mono (daysIn y) (show m + 1 ≤ m' from h)
    rw [sum_range_succ'] at h2
    unfold yearDay
    omega
  · unfold yearDay; omega

theorem before_lex (t t' : DateTime) : t.before t' = true ↔
    t.year < t'.year ∨ t.year = t'.year ∧ (t.month < t'.month ∨ t.month = t'.month ∧
    (t.day < t'.day ∨ t.day = t'.day ∧ (t.hour < t'.hour ∨ t.hour = t'.hour ∧
    (t.minute < t'.minute ∨ t.minute = t'.minute ∧ (t.second < t'.second ∨ t.second = t'.second ∧
    t.microsecond < t'.microsecond))))) := by
  unfold DateTime.before
  rw [decide_eq_true_eq]
  simp only [List.cons_lt_cons_iff, List.not_lt_nil, or_false, and_false]

theorem instant_lt_of_before {t t' : DateTime} (h : ValidTime t) (h' : ValidTime t')
    (hb : t.before t' = true) : instant t < instant t' := by
  rw [before_lex] at hb
  have e1 := h.hour
  have e2 := h.minute
  have e3 := h.second
  have e4 := h.microsecond
  have key : (dayNumber t.year t.month t.day < dayNumber t'.year t'.month t'.day) ∨
      (dayNumber t.year t.month t.day = dayNumber t'.year t'.month t'.day ∧
      (t.hour < t'.hour ∨ t.hour = t'.hour ∧
    (t.minute < t'.minute ∨ t.minute = t'.minute ∧ (t.second < t'.second ∨ t.second = t'.second ∧
    t.microsecond < t'.microsecond)))) := by
    rcases hb with hb | ⟨e, hb | ⟨f, hb | ⟨g, hb⟩⟩⟩
    · exact Or.inl (dayNumber_lt h.month h.day h'.day.1 (Or.inl hb))
    · exact Or.inl (dayNumber_lt h.month h.day h'.day.1 (Or.inr ⟨e, Or.inl hb⟩))
    · exact Or.inl (dayNumber_lt h.month h.day h'.day.1 (Or.inr ⟨e, Or.inr ⟨f, hb⟩⟩))
    · exact Or.inr ⟨by rw [e, f, g], hb⟩
  unfold instant
  omega

theorem before_total (t t' : DateTime) : t.before t' = true ∨ t = t' ∨ t'.before t = true := by
  rw [before_lex, before_lex]
  by_cases h : t = t'
  · exact Or.inr (Or.inl h)
  · have : ¬ (t.year = t'.year ∧ t.month = t'.month ∧ t.day = t'.day ∧ t.hour = t'.hour ∧
        t.minute = t'.minute ∧ t.second = t'.second ∧ t.microsecond = t'.microsecond) := by
      intro hc
      apply h
      obtain ⟨a, b, c, d, e, f, g⟩ := t
      obtain ⟨a', b', c', d', e', f', g'⟩ := t'
      simp only at hc
      simp only [hc]
    omega

/-- `<` of times is the order of time. -/
theorem before_iff_instant {t t' : DateTime} (h : ValidTime t) (h' : ValidTime t') :
    t.before t' = true ↔ instant t < instant t' := by
  constructor
  · exact instant_lt_of_before h h'
  · intro hlt
    rcases before_total t t' with hb | rfl | hb
    · exact hb
    · exact absurd hlt (lt_irrefl _)
    · exact absurd (instant_lt_of_before h' h hb) (by omega)

theorem monthLength_eq (y m : Nat) (h : 1 ≤ m ∧ m ≤ 12) : monthLength y m = daysIn y m := by
  unfold monthLength
  rw [monthLengths_eq]
  obtain ⟨h1, h2⟩ := h
  interval_cases m <;> rfl

theorem nextDay_spec {t t' : DateTime} (h : ValidTime t) (hn : nextDay t = .ok t') :
    dayNumber t'.year t'.month t'.day = dayNumber t.year t.month t.day + 1 ∧
    1 ≤ t'.year ∧ t'.year ≤ 9999 ∧ 1 ≤ t'.month ∧ t'.month ≤ 12 ∧ 1 ≤ t'.day ∧
    t'.day ≤ daysIn t'.year t'.month ∧ t'.microsecond = t.microsecond := by
  have hm := h.month
  have hd := h.day
  have hy := h.year
  unfold nextDay at hn
  rw [monthLength_eq _ _ hm] at hn
  have hpos : ∀ y m, 1 ≤ m → m ≤ 12 → 1 ≤ daysIn y m := by
    intro y m h1 h2
    interval_cases m <;> simp [daysIn]
    split <;> omega
  split_ifs at hn with h1 h2 h3
  · cases hn
    simp only
    refine ⟨?_, hy.1, hy.2, hm.1, hm.2, by omega, by omega, trivial⟩
    unfold dayNumber yearDay
    omega
  · cases hn
    simp only
    refine ⟨?_, hy.1, hy.2, by omega, by omega, le_refl _, hpos _ _ (by omega) (by omega), trivial⟩
    unfold dayNumber yearDay
    rw [sum_range_succ']
    omega
  · cases hn
    simp only
    have hm12 : t.month = 12 := by omega
    refine ⟨?_, by omega, by omega, le_refl _, by omega, le_refl _, hpos _ _ (by omega) (by omega),
      trivial⟩
    unfold dayNumber
    rw [sum_range_succ']
    have e1 : yearDay (t.year + 1) 1 1 = 1 := rfl
    have e2 : yearDay t.year t.month t.day = daysInYear t.year := by
      unfold yearDay daysInYear
      rw [sum_range_succ' _ 12, hm12]
      rw [hm12] at h1 hd
      omega
    rw [e1, e2]

/-- Adding seconds. -/
theorem addSeconds_spec {t t' : DateTime} {n : Nat} (h : ValidTime t) (hn : n < 86400)
    (ha : addSeconds t n = .ok t') : ValidTime t' ∧ instant t' = instant t + n * 1000000 := by
  have e1 := h.hour
  have e2 := h.minute
  have e3 := h.second
  have e4 := h.microsecond
  unfold addSeconds at ha
  simp only at ha
  split_ifs at ha with h1
  · cases ha
    refine ⟨⟨h.year, h.month, h.day, ?_, ?_, ?_, h.microsecond⟩, ?_⟩
    · simp only; omega
    · simp only; omega
    · simp only; omega
    · unfold instant
      simp only
      omega
  · cases hnd : nextDay t with
    | error e => rw [hnd] at ha; cases ha
    | ok t1 =>
      rw [hnd] at ha
      cases ha
      obtain ⟨d1, d2, d3, d4, d5, d6, d7, d8⟩ := nextDay_spec h hnd
      refine ⟨⟨⟨d2, d3⟩, ⟨d4, d5⟩, ⟨d6, d7⟩, ?_, ?_, ?_, ?_⟩, ?_⟩
      · simp only; omega
      · simp only; omega
      · simp only; omega
      · simp only [d8]; exact e4
      · unfold instant
        simp only [d1, d8]
        omega

/-- Seconds can be added except on the last day of the last year. -/
theorem addSeconds_ok {t : DateTime} {n : Nat} (hy : t.year < 9999) :
    ∃ t', addSeconds t n = .ok t' := by
  unfold addSeconds
  simp only
  split_ifs
  · exact ⟨_, rfl⟩
  · have : ∃ t1, nextDay t = .ok t1 := by
      unfold nextDay
      split_ifs
      · exact ⟨_, rfl⟩
      · exact ⟨_, rfl⟩
      · exact ⟨_, rfl⟩
    obtain ⟨t1, h1⟩ := this
    rw [h1]
    exact ⟨_, rfl⟩

theorem minTime_spec (l : List DateTime) (hv : ∀ t ∈ l, ValidTime t) {m : DateTime}
    (h : minTime l = .ok m) : m ∈ l ∧ ∀ t ∈ l, instant m ≤ instant t := by
  cases l with
  | nil => cases h
  | cons a l =>
    simp only [minTime, Except.ok.injEq] at h
    subst h
    have ha := hv a (by simp)
    have hl := fun t ht => hv t (List.mem_cons_of_mem a ht)
    clear hv
    induction l generalizing a with
    | nil => simp
    | cons b l ih =>
      rw [List.foldl_cons]
      have hb := hl b (by simp)
      have hl' := fun t ht => hl t (List.mem_cons_of_mem b ht)
      by_cases hlt : b.before a = true
      · rw [if_pos hlt]
        obtain ⟨i1, i2⟩ := ih b hb hl'
        refine ⟨List.mem_cons_of_mem a i1, ?_⟩
        intro t ht
        rcases List.mem_cons.mp ht with rfl | ht
        · have := (before_iff_instant hb ha).mp hlt
          have := i2 b (by simp)
          omega
        · exact i2 t ht
      · rw [if_neg hlt]
        obtain ⟨i1, i2⟩ := ih a ha hl'
        refine ⟨?_, ?_⟩
        · rcases List.mem_cons.mp i1 with h | h
          · rw [h]; simp
          · exact List.mem_cons_of_mem _ (List.mem_cons_of_mem _ h)
        · intro t ht
          rcases List.mem_cons.mp ht with rfl | ht
          · exact i2 t (by simp)
          · rcases List.mem_cons.mp ht with rfl | ht
            · have h1 : ¬ instant t < instant a := fun hc => hlt ((before_iff_instant hb ha).mpr hc)
              have := i2 a (by simp)
              omega
            · exact i2 t (by simp [ht])

theorem maxTime_spec (l : List DateTime) (hv : ∀ t ∈ l, ValidTime t) {m : DateTime}
    (h : maxTime l = .ok m) : m ∈ l ∧ ∀ t ∈ l, instant t ≤ instant m := by
  cases l with
  | nil => cases h
  | cons a l =>
    simp only [maxTime, Except.ok.injEq] at h
    subst h
    have ha := hv a (by simp)
    have hl := fun t ht => hv t (List.mem_cons_of_mem a ht)
    clear hv
    induction l generalizing a with
    | nil => simp
    | cons b l ih =>
      rw [List.foldl_cons]
      have hb := hl b (by simp)
      have hl' := fun t ht => hl t (List.mem_cons_of_mem b ht)
      by_cases hlt : a.before b = true
      · rw [if_pos hlt]
        obtain ⟨i1, i2⟩ := ih b hb hl'
        refine ⟨List.mem_cons_of_mem a i1, ?_⟩
        intro t ht
        rcases List.mem_cons.mp ht with rfl | ht
        · have := (before_iff_instant ha hb).mp hlt
          have := i2 b (by simp)
          omega
        · exact i2 t ht
      · rw [if_neg hlt]
        obtain ⟨i1, i2⟩ := ih a ha hl'
        refine ⟨?_, ?_⟩
        · rcases List.mem_cons.mp i1 with h | h
          · rw [h]; simp
          · exact List.mem_cons_of_mem _ (List.mem_cons_of_mem _ h)
        · intro t ht
          rcases List.mem_cons.mp ht with rfl | ht
          · exact i2 t (by simp)
          · rcases List.mem_cons.mp ht with rfl | ht
            · have h1 : ¬ instant a < instant t := fun hc => hlt ((before_iff_instant ha hb).mpr hc)
              have := i2 a (by simp)
              omega
            · exact i2 t (by simp [ht])

/-- The path of a file of level 2 data that starts at a time: a directory, three words, and the stamps
of start, end and time of creation. -/
def LcfaPath (path : Text) (t : DateTime) : Prop :=
  ∃ (dir ops alg plat s e c : Text) (t' t'' : DateTime) (n n' n'' : Nat),
    path = dir ++ (ops ++ '_' :: (alg ++ '_' :: (plat ++ '_' :: (s ++ '_' :: (e ++ '_' :: c))))) ++
      ".nc".toList ∧
    (dir = [] ∨ ∃ d, dir = d ++ ['/']) ∧
    (∀ w ∈ [ops, alg, plat], '/' ∉ w ∧ '_' ∉ w ∧ '.' ∉ w) ∧
    (ValidTime t ∧ t.microsecond = n * 100000 ∧
      IsStamp 's' t.year (yearDay t.year t.month t.day) t.hour t.minute t.second n s) ∧
    (ValidTime t' ∧ t'.microsecond = n' * 100000 ∧
      IsStamp 'e' t'.year (yearDay t'.year t'.month t'.day) t'.hour t'.minute t'.second n' e) ∧
    (ValidTime t'' ∧ t''.microsecond = n'' * 100000 ∧
      IsStamp 'c' t''.year (yearDay t''.year t''.month t''.day) t''.hour t''.minute t''.second n'' c)

theorem isStamp_chars {l : Char} {y j h m s n : Nat} {text : Text} (hs : IsStamp l y j h m s n text) :
    ∀ c ∈ text, c = l ∨ '0' ≤ c ∧ c ≤ '9' := by
  obtain ⟨ty, tj, th, tm, ts, tt, a1, a2, a3, a4, a5, a6, rfl⟩ := hs
  intro c hc
  simp only [List.mem_cons, List.mem_append] at hc
  rcases hc with h | ((((h | h) | h) | h) | h) | h
  · exact Or.inl h
  · exact Or.inr (a1.2.1 c h)
  · exact Or.inr (a2.2.1 c h)
  · exact Or.inr (a3.2.1 c h)
  · exact Or.inr (a4.2.1 c h)
  · exact Or.inr (a5.2.1 c h)
  · exact Or.inr (a6.2.1 c h)

theorem basename_append (dir w : Text) (hd : dir = [] ∨ ∃ d, dir = d ++ ['/']) (hw : '/' ∉ w) :
    basename (dir ++ w) = w := by
  unfold basename
  rw [List.reverse_append]
  have h1 : ∀ c ∈ w.reverse, decide (c ≠ '/') = true := by
    intro c hc
    rw [decide_eq_true_eq]
    rintro rfl
    exact hw (List.mem_reverse.mp hc)
  rw [List.takeWhile_append_of_pos h1]
  rcases hd with rfl | ⟨d, rfl⟩
  · simp
  · simp

theorem lcfaPath_parse {path : Text} {t : DateTime} (h : LcfaPath path t) :
    ValidTime t ∧ ∃ info, parseGlmFilename (basename path) = .ok info ∧ info.start = t := by
  obtain ⟨dir, ops, alg, plat, s, e, c, t', t'', n, n', n'', rfl, hd, hw, ⟨v1, u1, s1⟩, ⟨v2, u2, s2⟩,
    ⟨v3, u3, s3⟩⟩ := h
  have no : ∀ x : Char, ¬ ('0' ≤ x ∧ x ≤ '9') → x ≠ 's' → x ≠ 'e' → x ≠ 'c' →
      x ∉ s ∧ x ∉ e ∧ x ∉ c := by
    intro x h0 h1 h2 h3
    refine ⟨fun hx => ?_, fun hx => ?_, fun hx => ?_⟩
    · exact (isStamp_chars s1 x hx).elim h1 h0
    · exact (isStamp_chars s2 x hx).elim h2 h0
    · exact (isStamp_chars s3 x hx).elim h3 h0
  have w1 := hw ops (by simp)
  have w2 := hw alg (by simp)
  have w3 := hw plat (by simp)
  have n1 := no '/' (by decide) (by decide) (by decide) (by decide)
  have n2 := no '_' (by decide) (by decide) (by decide) (by decide)
  have n3 := no '.' (by decide) (by decide) (by decide) (by decide)
  rw [List.append_assoc dir, basename_append _ _ hd (by
    simp only [List.mem_append, List.mem_cons, not_or]
    exact ⟨⟨w1.1, by decide, w2.1, by decide, w3.1, by decide, n1.1, by decide, n1.2.1, by decide,
      n1.2.2⟩, by decide⟩)]
  have hparts : splitUnderscore (removeNc ((ops ++ '_' :: (alg ++ '_' :: (plat ++ '_' ::
      (s ++ '_' :: (e ++ '_' :: c))))) ++ ".nc".toList)) = [ops, alg, plat, s, e, c] := by
    rw [removeNc_append (by
      simp only [List.mem_append, List.mem_cons, not_or]
      exact ⟨w1.2.2, by decide, w2.2.2, by decide, w3.2.2, by decide, n3.1, by decide, n3.2.1,
        by decide, n3.2.2⟩)]
    have e3 : removeNc ".nc".toList = [] := by decide
    rw [e3, List.append_nil, split_append w1.2.1, split_append w2.2.1, split_append w3.2.1,
      split_append n2.1, split_append n2.2.1, split_word n2.2.2]
  refine ⟨v1, ?_⟩
  unfold parseGlmFilename
  rw [hparts]
  simp only [List.getElem?_cons_zero, List.getElem?_cons_succ, bind, Except.bind, pure, Except.pure,
    C46_stamps t v1 n u1 's' s s1, C46_stamps t' v2 n' u2 'e' e s2, C46_stamps t'' v3 n'' u3 'c' c s3]
  exact ⟨_, rfl, rfl⟩

theorem filenameStarts_eq {paths : List Text} {times : List DateTime}
    (h : List.Forall₂ LcfaPath paths times) : filenameStarts paths = .ok (some times) := by
  have : ∃ infos, (paths.mapM fun f => parseGlmFilename (basename f)) = .ok infos ∧
      infos.map ParsedName.start = times := by
    induction h with
    | nil => exact ⟨[], rfl, rfl⟩
    | cons h _ ih =>
      obtain ⟨-, i, h1, h2⟩ := lcfaPath_parse h
      obtain ⟨is, h3, h4⟩ := ih
      refine ⟨i :: is, ?_, by rw [List.map_cons, h2, h4]⟩
      rw [List.mapM_cons, h1, h3]
      rfl
  obtain ⟨infos, h1, h2⟩ := this
  unfold filenameStarts
  rw [h1]
  simp only [h2]

/-- C62: without `--start` and `--end`, the time span goes from the first start of a file to 20 s after
the last start, so that it covers the 20 s of every file. -/
theorem C62_times (paths : List Text) (times : List DateTime) (h : List.Forall₂ LcfaPath paths times)
    (hne : paths ≠ []) (hy : ∀ t ∈ times, t.year < 9999) :
    ∃ start stop, timeSpan paths none none = .ok (start, stop) ∧ ValidTime start ∧ ValidTime stop ∧
      (∀ t ∈ times, instant start ≤ instant t ∧ instant t + 20 * 1000000 ≤ instant stop) ∧
      start ∈ times ∧ ∃ t ∈ times, instant stop = instant t + 20 * 1000000 := by
  have hv : ∀ t ∈ times, ValidTime t := by
    intro t ht
    obtain ⟨p, -, hp⟩ := mem_of_forall₂_right h ht
    exact (lcfaPath_parse hp).1
  have hne' : times ≠ [] := by
    rintro rfl
    cases h
    exact hne rfl
  obtain ⟨t0, ts, rfl⟩ := List.exists_cons_of_ne_nil hne'
  obtain ⟨start, h1⟩ : ∃ m, minTime (t0 :: ts) = .ok m := ⟨_, rfl⟩
  obtain ⟨last, h2⟩ : ∃ m, maxTime (t0 :: ts) = .ok m := ⟨_, rfl⟩
  obtain ⟨a1, a2⟩ := minTime_spec _ hv h1
  obtain ⟨b1, b2⟩ := maxTime_spec _ hv h2
  obtain ⟨stop, h3⟩ := addSeconds_ok (n := 20) (hy last b1)
  obtain ⟨c1, c2⟩ := addSeconds_spec (hv last b1) (by decide) h3
  refine ⟨start, stop, ?_, hv _ a1, c1, ?_, a1, last, b1, c2⟩
  · unfold timeSpan
    rw [filenameStarts_eq h]
    simp only [bind, Except.bind, pure, Except.pure, h1, h2, h3]
  · intro t ht
    have := a2 t ht
    have := b2 t ht
    omega

/-! ## C62: times given as text -/

/-- A time as `yyyy-mm-ddThh:mm:ss`, followed by anything. -/
def IsIso (t : DateTime) (text : Text) : Prop :=
  ∃ ty tmo td th tmi ts rest : Text, IsDecimal 4 t.year ty ∧ IsDecimal 2 t.month tmo ∧
    IsDecimal 2 t.day td ∧ IsDecimal 2 t.hour th ∧ IsDecimal 2 t.minute tmi ∧ IsDecimal 2 t.second ts ∧
    text = ty ++ '-' :: (tmo ++ '-' :: (td ++ 'T' :: (th ++ ':' :: (tmi ++ ':' :: (ts ++ rest)))))

theorem matchFormat_number {alts : List Alternative} {rest : List FormatPart} {s : Text}
    {p : Nat × Nat} {q : List Nat × Text} (h1 : (matches_ alts s).head? = some p)
    (h2 : (matchFormat rest (s.drop p.2)).head? = some q) :
    (matchFormat (.number alts :: rest) s).head? = some (p.1 :: q.1, q.2) := by
  unfold matchFormat
  cases hm : matches_ alts s with
  | nil => rw [hm] at h1; cases h1
  | cons p' l =>
    rw [hm] at h1
    cases h1
    rw [List.flatMap_cons]
    cases hr : matchFormat rest (s.drop p.2) with
    | nil => rw [hr] at h2; cases h2
    | cons q' l' =>
      rw [hr] at h2
      cases h2
      rfl

theorem matchFormat_literal (c : Char) (rest : List FormatPart) (s : Text) :
    matchFormat (.literal c :: rest) (c :: s) = matchFormat rest s := by
  rw [matchFormat]
  exact if_pos rfl

theorem head_mo : ∀ n < 100, 1 ≤ n ∧ n ≤ 12 → (matches_ altMonth (two n)).head? = some (n, 2) := by
  decide +kernel
theorem head_d : ∀ n < 100, 1 ≤ n ∧ n ≤ 31 → (matches_ altDay (two n)).head? = some (n, 2) := by
  decide +kernel

theorem daysIn_le (y m : Nat) : daysIn y m ≤ 31 := by
  unfold daysIn
  split <;> first | omega | (split_ifs <;> omega)

theorem strptimeIso_eq (y mo d h m s : Nat) (hy : 1 ≤ y ∧ y ≤ 9999) (hmo : 1 ≤ mo ∧ mo ≤ 12)
    (hd : 1 ≤ d ∧ d ≤ daysIn y mo) (hh : h < 24) (hm : m < 60) (hs : s < 60) :
    strptimeIso (four y ++ '-' :: (two mo ++ '-' :: (two d ++ 'T' :: (two h ++ ':' ::
      (two m ++ ':' :: two s))))) = .ok ⟨y, mo, d, h, m, s, 0⟩ := by
  have hd31 := daysIn_le y mo
  have g1 := head_mo mo (by omega) hmo
  have g2 := head_d d (by omega) ⟨hd.1, by omega⟩
  have g3 := head_h h (by omega)
  have g4 := head_m m (by omega)
  have g5 := head_s s (by omega)
  rw [if_pos hh] at g3
  rw [if_pos hm] at g4
  rw [if_pos (by omega)] at g5
  have m6 : (matchFormat [.number altS] (two s)).head? = some ([s], []) :=
    matchFormat_number (p := (s, 2)) (q := ([], [])) g5 rfl
  have m5 : (matchFormat [.number altM, .literal ':', .number altS] (two m ++ ':' :: two s)).head? =
      some ([m, s], []) :=
    matchFormat_number (p := (m, 2)) (q := ([s], [])) g4 ((congrArg List.head?
      (matchFormat_literal ':' _ _)).trans m6)
  have m4 : (matchFormat [.number altH, .literal ':', .number altM, .literal ':', .number altS]
      (two h ++ ':' :: (two m ++ ':' :: two s))).head? = some ([h, m, s], []) :=
    matchFormat_number (p := (h, 2)) (q := ([m, s], [])) g3 ((congrArg List.head?
      (matchFormat_literal ':' _ _)).trans m5)
  have m3 : (matchFormat [.number altDay, .literal 'T', .number altH, .literal ':', .number altM,
      .literal ':', .number altS]
      (two d ++ 'T' :: (two h ++ ':' :: (two m ++ ':' :: two s)))).head? = some ([d, h, m, s], []) :=
    matchFormat_number (p := (d, 2)) (q := ([h, m, s], [])) g2 ((congrArg List.head?
      (matchFormat_literal 'T' _ _)).trans m4)
  have m2 : (matchFormat [.number altMonth, .literal '-', .number altDay, .literal 'T', .number altH,
      .literal ':', .number altM, .literal ':', .number altS]
      (two mo ++ '-' :: (two d ++ 'T' :: (two h ++ ':' :: (two m ++ ':' :: two s))))).head? =
      some ([mo, d, h, m, s], []) :=
    matchFormat_number (p := (mo, 2)) (q := ([d, h, m, s], [])) g1 ((congrArg List.head?
      (matchFormat_literal '-' _ _)).trans m3)
  have m1 : (matchFormat isoFormat (four y ++ '-' :: (two mo ++ '-' :: (two d ++ 'T' ::
      (two h ++ ':' :: (two m ++ ':' :: two s)))))).head? = some ([y, mo, d, h, m, s], []) :=
    matchFormat_number (p := (y, 4)) (q := ([mo, d, h, m, s], [])) (head_y y (by omega))
      ((congrArg List.head? (matchFormat_literal '-' _ _)).trans m2)
  unfold strptimeIso
  rw [m1]
  simp only
  rw [if_neg (by omega), if_neg (by omega), monthLength_eq _ _ hmo, if_pos hd.2]

theorem strptimeIso_ok {t : DateTime} {text : Text} (ht : ValidTime t) (hi : IsIso t text) :
    strptimeIso (text.take 19) = .ok (wholeSecond t) := by
  obtain ⟨ty, tmo, td, th, tmi, ts, rest, a1, a2, a3, a4, a5, a6, rfl⟩ := hi
  obtain ⟨rfl, b1⟩ := decimal_four a1
  obtain ⟨rfl, b2⟩ := decimal_two a2
  obtain ⟨rfl, b3⟩ := decimal_two a3
  obtain ⟨rfl, b4⟩ := decimal_two a4
  obtain ⟨rfl, b5⟩ := decimal_two a5
  obtain ⟨rfl, b6⟩ := decimal_two a6
  have : (four t.year ++ '-' :: (two t.month ++ '-' :: (two t.day ++ 'T' :: (two t.hour ++ ':' ::
      (two t.minute ++ ':' :: (two t.second ++ rest)))))).take 19 =
      four t.year ++ '-' :: (two t.month ++ '-' :: (two t.day ++ 'T' :: (two t.hour ++ ':' ::
      (two t.minute ++ ':' :: two t.second)))) := rfl
  rw [this]
  exact strptimeIso_eq _ _ _ _ _ _ ht.year ht.month ht.day ht.hour ht.minute ht.second

/-- C62: times that are given are used, to the second, each independently of the other. -/
theorem C62_given (paths : List Text) (times : List DateTime) (h : List.Forall₂ LcfaPath paths times)
    (hne : paths ≠ []) (hy : ∀ t ∈ times, t.year < 9999)
    (t t' : DateTime) (ht : ValidTime t) (ht' : ValidTime t') (text text' : Text) (hi : IsIso t text)
    (hi' : IsIso t' text') :
    ∃ start stop, timeSpan paths none none = .ok (start, stop) ∧
      timeSpan paths (some text) none = .ok (wholeSecond t, stop) ∧
      timeSpan paths none (some text') = .ok (start, wholeSecond t') ∧
      timeSpan paths (some text) (some text') = .ok (wholeSecond t, wholeSecond t') := by
  obtain ⟨start, stop, h0, -⟩ := C62_times paths times h hne hy
  refine ⟨start, stop, h0, ?_⟩
  unfold timeSpan at h0 ⊢
  rw [filenameStarts_eq h] at h0 ⊢
  simp only [bind, Except.bind, pure, Except.pure, strptimeIso_ok ht hi, strptimeIso_ok ht' hi'] at h0 ⊢
  cases h1 : minTime times with
  | error e => rw [h1] at h0; cases h0
  | ok m =>
    rw [h1] at h0
    simp only at h0
    cases h2 : maxTime times with
    | error e => rw [h2] at h0; cases h0
    | ok M =>
      rw [h2] at h0
      simp only at h0
      cases h3 : addSeconds M 20 with
      | error e => rw [h3] at h0; cases h0
      | ok M' =>
        rw [h3] at h0
        cases h0
        simp only [h3, and_self]

/-! ### A concrete case -/

def samplePaths : List Text :=
  ["data/OR_GLM-L2-LCFA_G16_s20183652359400_e20190010000000_c20190010000026.nc".toList,
   "data/OR_GLM-L2-LCFA_G16_s20183652359200_e20183652359400_c20183652359426.nc".toList]

/-- A text is a stamp if its parts are. -/
theorem isStamp_of {l : Char} {y j h m s n : Nat} (ty tj th tm ts tt : Text)
    (a1 : IsDecimal 4 y ty) (a2 : IsDecimal 3 j tj) (a3 : IsDecimal 2 h th)
    (a4 : IsDecimal 2 m tm) (a5 : IsDecimal 2 s ts) (a6 : IsDecimal 1 n tt) :
    IsStamp l y j h m s n (l :: (ty ++ tj ++ th ++ tm ++ ts ++ tt)) :=
  ⟨ty, tj, th, tm, ts, tt, a1, a2, a3, a4, a5, a6, rfl⟩

theorem sample_paths : List.Forall₂ LcfaPath samplePaths
    [⟨2018, 12, 31, 23, 59, 40, 0⟩, ⟨2018, 12, 31, 23, 59, 20, 0⟩] := by
  refine .cons ?_ (.cons ?_ .nil)
  · exact ⟨"data/".toList, "OR".toList, "GLM-L2-LCFA".toList, "G16".toList, "s20183652359400".toList,
      "e20190010000000".toList, "c20190010000026".toList, ⟨2019, 1, 1, 0, 0, 0, 0⟩,
      ⟨2019, 1, 1, 0, 0, 2, 600000⟩, 0, 0, 6, rfl, Or.inr ⟨"data".toList, rfl⟩, by decide,
      ⟨by constructor <;> decide, rfl, isStamp_of "2018".toList "365".toList "23".toList "59".toList
        "40".toList "0".toList (by unfold IsDecimal; decide) (by unfold IsDecimal; decide)
        (by unfold IsDecimal; decide) (by unfold IsDecimal; decide) (by unfold IsDecimal; decide)
        (by unfold IsDecimal; decide)⟩,
      ⟨by constructor <;> decide, rfl, isStamp_of "2019".toList "001".toList "00".toList "00".toList
        "00".toList "0".toList (by unfold IsDecimal; decide) (by unfold IsDecimal; decide)
        (by unfold IsDecimal; decide) (by unfold IsDecimal; decide) (by unfold IsDecimal; decide)
        (by unfold IsDecimal; decide)⟩,
      ⟨by constructor <;> decide, rfl, isStamp_of "2019".toList "001".toList "00".toList "00".toList
        "02".toList "6".toList (by unfold IsDecimal; decide) (by unfold IsDecimal; decide)
        (by unfold IsDecimal; decide) (by unfold IsDecimal; decide) (by unfold IsDecimal; decide)
        (by unfold IsDecimal; decide)⟩⟩
  · exact ⟨"data/".toList, "OR".toList, "GLM-L2-LCFA".toList, "G16".toList, "s20183652359200".toList,
      "e20183652359400".toList, "c20183652359426".toList, ⟨2018, 12, 31, 23, 59, 40, 0⟩,
      ⟨2018, 12, 31, 23, 59, 42, 600000⟩, 0, 0, 6, rfl, Or.inr ⟨"data".toList, rfl⟩, by decide,
      ⟨by constructor <;> decide, rfl, isStamp_of "2018".toList "365".toList "23".toList "59".toList
        "20".toList "0".toList (by unfold IsDecimal; decide) (by unfold IsDecimal; decide)
        (by unfold IsDecimal; decide) (by unfold IsDecimal; decide) (by unfold IsDecimal; decide)
        (by unfold IsDecimal; decide)⟩,
      ⟨by constructor <;> decide, rfl, isStamp_of "2018".toList "365".toList "23".toList "59".toList
        "40".toList "0".toList (by unfold IsDecimal; decide) (by unfold IsDecimal; decide)
        (by unfold IsDecimal; decide) (by unfold IsDecimal; decide) (by unfold IsDecimal; decide)
        (by unfold IsDecimal; decide)⟩,
      ⟨by constructor <;> decide, rfl, isStamp_of "2018".toList "365".toList "23".toList "59".toList
        "42".toList "6".toList (by unfold IsDecimal; decide) (by unfold IsDecimal; decide)
        (by unfold IsDecimal; decide) (by unfold IsDecimal; decide) (by unfold IsDecimal; decide)
        (by unfold IsDecimal; decide)⟩⟩

/-- The end of the span is in the next year. -/
example : timeSpan samplePaths none none =
    .ok (⟨2018, 12, 31, 23, 59, 20, 0⟩, ⟨2019, 1, 1, 0, 0, 0, 0⟩) := by decide +kernel

example : IsIso ⟨2020, 2, 29, 8, 5, 0, 0⟩ "2020-02-29T08:05:00Z".toList :=
  ⟨"2020".toList, "02".toList, "29".toList, "08".toList, "05".toList, "00".toList, "Z".toList,
    by unfold IsDecimal; decide, by unfold IsDecimal; decide, by unfold IsDecimal; decide,
    by unfold IsDecimal; decide, by unfold IsDecimal; decide, by unfold IsDecimal; decide, rfl⟩

/-- A library with a view of 1000 by 600 pixels around its centre. -/
def toyLib : Lmatools where
  grid position view resolution :=
    if position ∈ ["east", "west", "test"] then
      .ok { nadirLon := -75, resolution := if resolution = "1.0km" then 28/1000000 else 56/1000000,
            pixelsEW := 1000, pixelsNS := 600, center := if view = "meso" then none else some (-1/20, 1/20) }
    else .error .keyError
  toFixedGrid _ lon lat := (lon / 1000, lat / 1000)
  toLonLat _ x y := (x * 1000, y * 1000)
  dlonlat _ _ dx dy x y := (dx / 100000, dy / 100000, (x.1 / 100000, x.2 / 100000),
    (y.1 / 100000, y.2 / 100000))

def toyArgs : Args :=
  { filenames := samplePaths, outdir := "./{dataset_name}", ctrLat := some 33, ctrLon := some (-101),
    start := none, stop := none, dx := 3, dy := 4, dt := 60, width := 400, height := 400,
    minEvents := 1, minGroups := 1, fixedGrid := true, subdivide := 1, goesPosition := "east",
    goesSector := "none", splitEvents := true, ellipseRev := -1, scaleAndOffset := true }

/-- C62_custom applies: 133 boxes of 3 km in 400 km, 100 of 4 km. -/
example : ∃ t, targetGrid toyLib toyArgs = .ok t ∧ t.xBnd.2 - t.xBnd.1 = 133 * t.dx ∧
    t.yBnd.2 - t.yBnd.1 = 100 * t.dy ∧ (t.xBnd.1 + t.xBnd.2) / 2 = -101 / 1000 := by
  obtain ⟨t, h1, -, -, -, cx, cy, h2, h3, h4, -⟩ := C62_custom toyLib toyArgs
    ⟨-75, 28/1000000, 1000, 600, some (-1/20, 1/20)⟩ (-101) 33 133 100 rfl (by decide) rfl rfl rfl
    (by decide +kernel) (by norm_num) (by norm_num [toyArgs]) (by norm_num [toyArgs])
    (by norm_num [toyArgs]) (by norm_num [toyArgs])
  have : cx = -101 / 1000 := by
    have := congrArg Prod.fst h2
    simpa [toyLib] using this.symm
  refine ⟨t, h1, ?_, ?_, ?_⟩
  · rw [h3]; push_cast; ring
  · rw [h4]; push_cast; ring
  · rw [h3, this]; push_cast; ring

/-- C62_sector applies to a sector with a centre and to a mesoscale sector. -/
example : targetGrid toyLib { toyArgs with fixedGrid := false, ctrLat := none } = .error .typeError :=
  C62_centre_needed _ _ rfl (Or.inr rfl)

example : ∃ t, targetGrid toyLib { toyArgs with goesSector := "conus" } = .ok t ∧
    (t.xBnd.1 + t.xBnd.2) / 2 = -1 / 20 := by
  obtain ⟨t, h1, -, -, -, h3, -⟩ := C62_sector toyLib { toyArgs with goesSector := "conus" }
    ⟨-75, 56/1000000, 1000, 600, some (-1/20, 1/20)⟩ 1000 600 (-1/20) (1/20) rfl (by decide)
    (by decide) (by decide +kernel) (by norm_num) rfl rfl (Or.inl rfl)
  exact ⟨t, h1, by rw [h3]; push_cast; ring⟩

example : ∃ t, targetGrid toyLib { toyArgs with goesSector := "meso" } = .ok t ∧
    (t.xBnd.1 + t.xBnd.2) / 2 = -101 / 1000 := by
  obtain ⟨t, h1, -, -, -, h3, -⟩ := C62_sector toyLib { toyArgs with goesSector := "meso" }
    ⟨-75, 56/1000000, 1000, 600, none⟩ 1000 600 (-101/1000) (33/1000) rfl (by decide)
    (by decide) (by decide +kernel) (by norm_num) rfl rfl
    (Or.inr ⟨rfl, rfl, -101, 33, rfl, rfl, by norm_num [toyLib]⟩)
  exact ⟨t, h1, by rw [h3]; push_cast; ring⟩

/-! ## C81 -/

/-- C81: if the start and the end are given, files can have any names. -/
def C81_full : Prop := ∀ (paths : List Text) (t t' : DateTime) (text text' : Text),
  ValidTime t → ValidTime t' → IsIso t text → IsIso t' text' →
  timeSpan paths (some text) (some text') = .ok (wholeSecond t, wholeSecond t')

theorem parseTime_error {text : Text} {e : Err} (h : parseGlmFilenameTime text = .error e) :
    e = .valueError := by
  unfold parseGlmFilenameTime at h
  simp only [bind, Except.bind, pure, Except.pure] at h
  cases h1 : strptime ((text.drop 1).dropLast) with
  | error e1 =>
    rw [h1] at h
    cases h
    unfold strptime at h1
    split at h1
    · simp only [bind, Except.bind, pure, Except.pure] at h1
      split at h1
      · rename_i hf
        cases h1
        exact fromYday_error hf
      · split at h1
        · cases h1; rfl
        · cases h1
    · cases h1; rfl
  | ok t =>
    rw [h1] at h
    simp only at h
    cases h2 : text.getLast? with
    | none =>
      have : text = [] := List.getLast?_eq_none_iff.mp h2
      subst this
      have : strptime ((([] : Text).drop 1).dropLast) = .error .valueError := by decide +kernel
      rw [this] at h1
      cases h1
    | some c =>
      rw [h2] at h
      simp only at h
      unfold intOfChar at h
      split at h
      · rename_i h3
        split at h3
        · cases h3
        · cases h3; cases h; rfl
      · cases h

/-- The words of a name, between underscores. -/
def words (path : Text) : List Text := splitUnderscore (removeNc (basename path))

/-- A name that is broken off: it has less than six words, and those that are stamps can be read. -/
def BrokenOff (path : Text) : Prop :=
  (words path).length < 6 ∧ ∀ w ∈ (words path).drop 3, ∃ t, parseGlmFilenameTime w = .ok t

theorem parse_indexError (path : Text) :
    parseGlmFilename (basename path) = .error .indexError ↔ BrokenOff path := by
  unfold parseGlmFilename BrokenOff
  show _ ↔ (words path).length < 6 ∧ _
  have : splitUnderscore (removeNc (basename path)) = words path := rfl
  rw [this]
  have hcase : ∀ w : Text, (∃ t, parseGlmFilenameTime w = .ok t) ∨
      parseGlmFilenameTime w = .error .valueError := by
    intro w
    cases h : parseGlmFilenameTime w with
    | ok t => exact Or.inl ⟨t, rfl⟩
    | error e => rw [parseTime_error h]; exact Or.inr rfl
  match words path with
  | [] => simp [bind, Except.bind]
  | [_] => simp [bind, Except.bind]
  | [_, _] => simp [bind, Except.bind]
  | [_, _, _] => simp [bind, Except.bind]
  | [_, _, _, s] =>
    rcases hcase s with ⟨t, h⟩ | h
    · simp [bind, Except.bind, h]
    · simp [bind, Except.bind, h]
  | [_, _, _, s, e] =>
    rcases hcase s with ⟨t, h⟩ | h
    · rcases hcase e with ⟨t', h'⟩ | h'
      · simp [bind, Except.bind, h, h']
      · simp [bind, Except.bind, h, h']
    · simp [bind, Except.bind, h]
  | _ :: _ :: _ :: s :: e :: c :: rest =>
    rcases hcase s with ⟨t, h⟩ | h
    · rcases hcase e with ⟨t', h'⟩ | h'
      · rcases hcase c with ⟨t'', h''⟩ | h''
        · simp [bind, Except.bind, h, h', h'', pure, Except.pure]
        · simp [bind, Except.bind, h, h', h'']
      · simp [bind, Except.bind, h, h']
    · simp [bind, Except.bind, h]

theorem parse_error_cases (path : Text) {e : Err} (h : parseGlmFilename (basename path) = .error e) :
    e = .valueError ∨ e = .indexError := by
  unfold parseGlmFilename at h
  have hcase : ∀ w : Text, (∃ t, parseGlmFilenameTime w = .ok t) ∨
      parseGlmFilenameTime w = .error .valueError := by
    intro w
    cases h : parseGlmFilenameTime w with
    | ok t => exact Or.inl ⟨t, rfl⟩
    | error e => rw [parseTime_error h]; exact Or.inr rfl
  have : splitUnderscore (removeNc (basename path)) = words path := rfl
  rw [this] at h
  match hw : words path with
  | [] => rw [hw] at h; simp [bind, Except.bind] at h; exact Or.inr h.symm
  | [_] => rw [hw] at h; simp [bind, Except.bind] at h; exact Or.inr h.symm
  | [_, _] => rw [hw] at h; simp [bind, Except.bind] at h; exact Or.inr h.symm
  | [_, _, _] => rw [hw] at h; simp [bind, Except.bind] at h; exact Or.inr h.symm
  | [_, _, _, s] =>
    rw [hw] at h
    rcases hcase s with ⟨t, h1⟩ | h1
    · simp [bind, Except.bind, h1] at h; exact Or.inr h.symm
    · simp [bind, Except.bind, h1] at h; exact Or.inl h.symm
  | [_, _, _, s, e'] =>
    rw [hw] at h
    rcases hcase s with ⟨t, h1⟩ | h1
    · rcases hcase e' with ⟨t', h'⟩ | h'
      · simp [bind, Except.bind, h1, h'] at h; exact Or.inr h.symm
      · simp [bind, Except.bind, h1, h'] at h; exact Or.inl h.symm
    · simp [bind, Except.bind, h1] at h; exact Or.inl h.symm
  | _ :: _ :: _ :: s :: e' :: c :: rest =>
    rw [hw] at h
    rcases hcase s with ⟨t, h1⟩ | h1
    · rcases hcase e' with ⟨t', h'⟩ | h'
      · rcases hcase c with ⟨t'', h''⟩ | h''
        · simp [bind, Except.bind, h1, h', h'', pure, Except.pure] at h
        · simp [bind, Except.bind, h1, h', h''] at h; exact Or.inl h.symm
      · simp [bind, Except.bind, h1, h'] at h; exact Or.inl h.symm
    · simp [bind, Except.bind, h1] at h; exact Or.inl h.symm

theorem mapM_error_first {α β : Type} (f : α → Except Err β) (l : List α) (e : Err) :
    l.mapM f = .error e ↔ ∃ pre x post, l = pre ++ x :: post ∧ (∀ y ∈ pre, ∃ b, f y = .ok b) ∧
      f x = .error e := by
  induction l with
  | nil =>
    constructor
    · intro h; cases h
    · rintro ⟨pre, x, post, h, -⟩; simp at h
  | cons a l ih =>
    rw [List.mapM_cons]
    simp only [bind, Except.bind, pure, Except.pure]
    cases ha : f a with
    | error e' =>
      simp only
      constructor
      · intro h
        cases h
        exact ⟨[], a, l, rfl, by simp, ha⟩
      · rintro ⟨pre, x, post, h, hp, hx⟩
        cases pre with
        | nil =>
          simp only [List.nil_append, List.cons.injEq] at h
          rw [← h.1, ha] at hx
          cases hx
          rfl
        | cons b pre =>
          simp only [List.cons_append, List.cons.injEq] at h
          obtain ⟨b', hb⟩ := hp b (by simp)
          rw [← h.1, ha] at hb
          cases hb
    | ok b =>
      simp only
      constructor
      · intro h
        cases hl : l.mapM f with
        | ok bs => rw [hl] at h; cases h
        | error e' =>
          rw [hl] at h
          cases h
          obtain ⟨pre, x, post, rfl, hp, hx⟩ := ih.mp hl
          refine ⟨a :: pre, x, post, rfl, ?_, hx⟩
          intro y hy
          rcases List.mem_cons.mp hy with rfl | hy
          · exact ⟨b, ha⟩
          · exact hp y hy
      · rintro ⟨pre, x, post, h, hp, hx⟩
        cases pre with
        | nil =>
          simp only [List.nil_append, List.cons.injEq] at h
          rw [← h.1, ha] at hx
          cases hx
        | cons c pre =>
          simp only [List.cons_append, List.cons.injEq] at h
          rw [ih.mpr ⟨pre, x, post, h.2, fun y hy => hp y (by simp [hy]), hx⟩]

/-- The first name that cannot be read is one that is broken off. -/
def FirstBrokenOff (paths : List Text) : Prop :=
  ∃ pre path post, paths = pre ++ path :: post ∧ BrokenOff path ∧
    ∀ p ∈ pre, ∃ info, parseGlmFilename (basename p) = .ok info

/-- C81, exactly: the program fails if and only if the first name that cannot be read is one that is
broken off. -/
theorem C81_exact (paths : List Text) (t t' : DateTime) (text text' : Text) (ht : ValidTime t)
    (ht' : ValidTime t') (hi : IsIso t text) (hi' : IsIso t' text') :
    (FirstBrokenOff paths → timeSpan paths (some text) (some text') = .error .indexError) ∧
    (¬ FirstBrokenOff paths →
      timeSpan paths (some text) (some text') = .ok (wholeSecond t, wholeSecond t')) := by
  have key : FirstBrokenOff paths ↔
      (paths.mapM fun f => parseGlmFilename (basename f)) = .error .indexError := by
    rw [mapM_error_first]
    constructor
    · rintro ⟨pre, path, post, h1, h2, h3⟩
      exact ⟨pre, path, post, h1, h3, (parse_indexError path).mpr h2⟩
    · rintro ⟨pre, path, post, h1, h3, h2⟩
      exact ⟨pre, path, post, h1, (parse_indexError path).mp h2, h3⟩
  rw [key]
  unfold timeSpan filenameStarts
  simp only [bind, Except.bind, pure, Except.pure, strptimeIso_ok ht hi, strptimeIso_ok ht' hi']
  cases h : paths.mapM fun f => parseGlmFilename (basename f) with
  | ok infos => exact ⟨fun h => (by cases h), fun _ => rfl⟩
  | error e =>
    obtain ⟨pre, path, post, h1, h2, h3⟩ := (mapM_error_first _ _ _).mp h
    rcases parse_error_cases path h3 with rfl | rfl
    · exact ⟨fun h => (by cases h), fun _ => rfl⟩
    · exact ⟨fun _ => rfl, fun h => absurd rfl h⟩

example : FirstBrokenOff ["OR_GLM-L2-LCFA_G16_s20183652359400_e20190010000000.nc".toList,
    "OR_GLM.nc".toList] :=
  ⟨[], _, _, rfl, (parse_indexError _).mp (by decide +kernel), by simp⟩

theorem isoSample : IsIso ⟨2020, 2, 29, 8, 5, 0, 0⟩ "2020-02-29T08:05:00".toList :=
  ⟨"2020".toList, "02".toList, "29".toList, "08".toList, "05".toList, "00".toList, [],
    by unfold IsDecimal; decide, by unfold IsDecimal; decide, by unfold IsDecimal; decide,
    by unfold IsDecimal; decide, by unfold IsDecimal; decide, by unfold IsDecimal; decide, rfl⟩

/-- C81 is violated: a name without underscores is an error, in spite of the message. -/
theorem C81_full_false : ¬ C81_full := by
  intro h
  have hv : ValidTime ⟨2020, 2, 29, 8, 5, 0, 0⟩ := by constructor <;> decide
  have h1 := h ["glm.nc".toList] _ _ _ _ hv hv isoSample isoSample
  have h2 : timeSpan ["glm.nc".toList] (some "2020-02-29T08:05:00".toList)
      (some "2020-02-29T08:05:00".toList) = .error .indexError := by decide +kernel
  rw [h2] at h1
  cases h1

theorem split_length (w : Text) : (splitUnderscore w).length = w.count '_' + 1 := by
  induction w with
  | nil => rfl
  | cons c w ih =>
    unfold splitUnderscore
    by_cases h : c = '_'
    · subst h
      simp [ih]
    · rw [if_neg h, List.count_cons_of_ne (by simpa using h)]
      cases hs : splitUnderscore w with
      | nil => rw [hs] at ih; simp at ih
      | cons x xs => rw [hs] at ih; simpa using ih

/-- C81, the part that holds: names with at least five underscores, whatever else they are. -/
theorem C81_partial (paths : List Text) (t t' : DateTime) (text text' : Text) (ht : ValidTime t)
    (ht' : ValidTime t') (hi : IsIso t text) (hi' : IsIso t' text')
    (h : ∀ p ∈ paths, 5 ≤ (removeNc (basename p)).count '_') :
    timeSpan paths (some text) (some text') = .ok (wholeSecond t, wholeSecond t') := by
  refine (C81_exact paths t t' text text' ht ht' hi hi').2 ?_
  rintro ⟨pre, path, post, rfl, h2, -⟩
  have h1 := h path (by simp)
  have h3 := h2.1
  unfold words at h3
  rw [split_length] at h3
  omega

example : 5 ≤ (removeNc (basename "dir/my_glm_file_with_odd_name_1.nc".toList)).count '_' := by decide

/-! ## C82 -/

/-- The options ask for a grid with boxes and for at least one tile. -/
structure Requested (a : Args) (t : Target) : Prop where
  dx : t.dx ≠ 0
  dy : t.dy ≠ 0
  subdivide : 0 < a.subdivide

/-- C82: the program runs for every target grid, whether events are split or not. -/
def C82_full : Prop := ∀ (σ ι : Type) (lib : Lmatools) (G : DateTime → DateTime → Gridder σ ι)
  (read : Text → GFile) (a : Args) (span : DateTime × DateTime) (t : Target), Works (G span.1 span.2) (a.filenames.map read) →
  timeSpan a.filenames a.start a.stop = .ok span → targetGrid lib a = .ok t → Requested a t →
  ∃ out, mainProgram lib G read a = .ok out

theorem gridKwargs_given (a : Args) (date : DateTime) (t : Target) (h : Requested a t) :
    GridGiven (gridKwargs a date t) := by
  unfold gridKwargs
  refine ⟨⟨_, by simp only [List.cons_append, Dict.get_cons, if_true]; rfl⟩,
    ⟨t.xBnd.1, t.xBnd.2, ?_⟩, ⟨t.yBnd.1, t.yBnd.2, ?_⟩, ⟨t.dx, ?_, h.dx⟩, ⟨t.dy, ?_, h.dy⟩,
    Or.inr ⟨a.subdivide, ?_, h.subdivide⟩⟩ <;>
  simp [Dict.get_cons]

theorem Dict.has_append (d d' : Dict) (k : String) : Dict.has (d ++ d') k = (d.has k || Dict.has d' k) := by
  unfold Dict.has
  rw [List.any_append]

theorem gridKwargs_has (a : Args) (date : DateTime) (t : Target) :
    (gridKwargs a date t).has "clip_events" = a.splitEvents ∧
    (gridKwargs a date t).has "ellipse_rev" = true ∧
    (FixedGridCall (gridKwargs a date t) → (gridKwargs a date t).has "nadir_lon" = true ∧
      (gridKwargs a date t).has "output_filename_prefix" = true ∧
      (gridKwargs a date t).has "output_writer" = true) := by
  refine ⟨?_, ?_, fun hf => ⟨?_, ?_, ?_⟩⟩
  · unfold gridKwargs
    simp only [Dict.has_append]
    cases hn : t.nadirLon <;> cases a.splitEvents <;> cases a.fixedGrid <;>
      cases threshold a.minGroups <;> rfl
  · unfold gridKwargs
    simp only [Dict.has_append]
    simp [Dict.has]
  · have := hf.2
    unfold gridKwargs at this ⊢
    simp only [Dict.has_append] at this ⊢
    cases hn : t.nadirLon with
    | some n => simp [Dict.has]
    | none =>
      rw [hn] at this
      exfalso
      revert this
      cases a.splitEvents <;> cases a.fixedGrid <;> cases threshold a.minGroups <;> simp [Dict.has]
  · unfold gridKwargs
    simp only [Dict.has_append]
    simp [Dict.has]
  · unfold gridKwargs
    simp only [Dict.has_append]
    simp [Dict.has]

/-- C82, exactly: the program runs if and only if events are split. -/
theorem C82_exact {σ ι : Type} (lib : Lmatools) (G : DateTime → DateTime → Gridder σ ι) (read : Text → GFile) (a : Args)
    (span : DateTime × DateTime) (t : Target) (hw : Works (G span.1 span.2) (a.filenames.map read))
    (hs : timeSpan a.filenames a.start a.stop = .ok span) (ht : targetGrid lib a = .ok t)
    (hr : Requested a t) :
    (∃ out, mainProgram lib G read a = .ok out) ↔ a.splitEvents = true := by
  unfold mainProgram gridSetup
  rw [hs]
  simp only [bind, Except.bind, pure, Except.pure, ht]
  rw [C72_exact _ _ _ _ hw (gridKwargs_given a _ t hr)]
  obtain ⟨h1, h2, h3⟩ := gridKwargs_has a
    ⟨span.1.year, span.1.month, span.1.day, 0, 0, 0, 0⟩ t
  rw [h1]
  exact ⟨fun h => h.1, fun h => ⟨h, h2, h3⟩⟩

/-- C82, the part that holds. -/
theorem C82_partial {σ ι : Type} (lib : Lmatools) (G : DateTime → DateTime → Gridder σ ι) (read : Text → GFile) (a : Args)
    (span : DateTime × DateTime) (t : Target) (hw : Works (G span.1 span.2) (a.filenames.map read))
    (hs : timeSpan a.filenames a.start a.stop = .ok span) (ht : targetGrid lib a = .ok t)
    (hr : Requested a t) (hsplit : a.splitEvents = true) : ∃ out, mainProgram lib G read a = .ok out :=
  (C82_exact lib G read a span t hw hs ht hr).mpr hsplit

theorem toy_requested : ∃ span t, timeSpan toyArgs.filenames toyArgs.start toyArgs.stop = .ok span ∧
    targetGrid toyLib toyArgs = .ok t ∧ Requested toyArgs t := by
  obtain ⟨t, h1, -, h3, h4, -⟩ := C62_custom toyLib toyArgs
    ⟨-75, 28/1000000, 1000, 600, some (-1/20, 1/20)⟩ (-101) 33 133 100 rfl (by decide) rfl rfl rfl
    (by decide +kernel) (by norm_num) (by norm_num [toyArgs]) (by norm_num [toyArgs])
    (by norm_num [toyArgs]) (by norm_num [toyArgs])
  refine ⟨_, t, (by decide +kernel : timeSpan samplePaths none none =
    .ok (⟨2018, 12, 31, 23, 59, 20, 0⟩, ⟨2019, 1, 1, 0, 0, 0, 0⟩)), h1, ?_, ?_, by decide⟩
  · rw [h3]; norm_num [toyArgs]
  · rw [h4]; norm_num [toyArgs]

theorem works_twice {σ ι : Type} {G : Gridder σ ι} {f : GFile} (h : Works G [f]) : Works G [f, f] := by
  obtain ⟨h1, h2, h4⟩ := h
  refine ⟨fun g hg => h1 g (by simpa using hg), ?_, h4⟩
  obtain ⟨g, hg, h3⟩ := h2
  exact ⟨g, by simp at hg; simp [hg], h3⟩

example : ∃ out, mainProgram toyLib (fun _ _ => toyGridder) (fun _ => sampleFile) toyArgs = .ok out := by
  obtain ⟨span, t, h1, h2, h3⟩ := toy_requested
  exact C82_partial toyLib (fun _ _ => toyGridder) _ toyArgs span t (works_twice toy_works) h1 h2 h3 rfl

theorem targetGrid_split (lib : Lmatools) (a : Args) (b : Bool) :
    targetGrid lib { a with splitEvents := b } = targetGrid lib a := rfl

/-- C82 is violated: without `--split_events` there is an error. -/
theorem C82_full_false : ¬ C82_full := by
  intro h
  obtain ⟨span, t, h1, h2, h3⟩ := toy_requested
  have hw : Works toyGridder (toyArgs.filenames.map fun _ => sampleFile) := works_twice toy_works
  generalize toyArgs = a at hw h1 h2 h3
  have h2' : targetGrid toyLib { a with splitEvents := false } = .ok t :=
    (targetGrid_split toyLib a false).trans h2
  have h3' : Requested { a with splitEvents := false } t := ⟨h3.dx, h3.dy, h3.subdivide⟩
  have h4 := (C82_exact toyLib (fun _ _ => toyGridder) _ { a with splitEvents := false } span t hw h1 h2' h3').mp
    (h Nat Nat toyLib (fun _ _ => toyGridder) (fun _ => sampleFile) { a with splitEvents := false } span t hw h1 h2' h3')
  cases h4

end Verif.Props
