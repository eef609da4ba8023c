import Verif.Model.Names
import Mathlib.Data.List.TakeWhile
import Mathlib.Tactic.IntervalCases
import Mathlib.Tactic.Linarith

/-!
# C45, C46, C75-C77: file names and the times in them
-/

namespace Verif.Props

open Verif.Py Verif.Model

/-! ## Specification of dates -/

/-- The number of days of a month in the Gregorian calendar; month 0 does not exist. -/
def daysIn (y m : Nat) : Nat :=
  match m with
  | 1 | 3 | 5 | 7 | 8 | 10 | 12 => 31
  | 4 | 6 | 9 | 11 => 30
  | 2 => if y % 4 = 0 ∧ (y % 100 ≠ 0 ∨ y % 400 = 0) then 29 else 28
  | _ => 0

/-- The number of a day in its year, from 1. -/
def yearDay (y m d : Nat) : Nat := ((List.range m).map (daysIn y)).sum + d

/-- The number of days of a year. -/
def daysInYear (y : Nat) : Nat := ((List.range 13).map (daysIn y)).sum

/-- A date of the years 1 to 9999 and a time of the day. -/
structure ValidTime (t : DateTime) : Prop where
  year : 1 ≤ t.year ∧ t.year ≤ 9999
  month : 1 ≤ t.month ∧ t.month ≤ 12
  day : 1 ≤ t.day ∧ t.day ≤ daysIn t.year t.month
  hour : t.hour < 24
  minute : t.minute < 60
  second : t.second < 60
  microsecond : t.microsecond < 1000000

/-! ## Dates -/

theorem isLeap_iff (y : Nat) : isLeap y = true ↔ y % 4 = 0 ∧ (y % 100 ≠ 0 ∨ y % 400 = 0) := by
  simp [isLeap]

theorem monthLengths_eq (y : Nat) : monthLengths y = (List.range' 1 12).map (daysIn y) := by
  unfold monthLengths
  simp only [isLeap_iff]
  rfl

theorem dayOfYear_eq (y m d : Nat) (h : 1 ≤ m ∧ m ≤ 12) : dayOfYear y m d = yearDay y m d := by
  unfold dayOfYear yearDay
  rw [monthLengths_eq]
  obtain ⟨h1, h2⟩ := h
  congr 1
  interval_cases m <;> simp [List.range', List.range_succ, daysIn]

theorem walkMonths_spec (lens : List Nat) : ∀ (m0 i d : Nat) (hi : i < lens.length), 1 ≤ d →
    d ≤ lens[i] → walkMonths lens m0 ((lens.take i).sum + d - 1) = some (m0 + i, d) := by
  induction lens with
  | nil => intro m0 i d hi; simp at hi
  | cons len rest ih =>
    intro m0 i d hi h1 h2
    cases i with
    | zero =>
      simp only [List.take_zero, List.sum_nil, List.getElem_cons_zero] at h2 ⊢
      unfold walkMonths
      rw [if_pos (by omega)]
      congr 2
      omega
    | succ i =>
      simp only [List.take_succ_cons, List.sum_cons, List.getElem_cons_succ] at h2 ⊢
      unfold walkMonths
      rw [if_neg (by omega)]
      have := ih (m0 + 1) i d (by simpa using hi) h1 h2
      have e : len + (rest.take i).sum + d - 1 - len = (rest.take i).sum + d - 1 := by omega
      rw [e, this]
      congr 2
      omega

theorem walkMonths_none (lens : List Nat) : ∀ (m0 n : Nat), lens.sum ≤ n →
    walkMonths lens m0 n = none := by
  induction lens with
  | nil => intro m0 n _; rfl
  | cons len rest ih =>
    intro m0 n h
    rw [List.sum_cons] at h
    unfold walkMonths
    rw [if_neg (by omega)]
    exact ih _ _ (by omega)

theorem walkMonths_some (lens : List Nat) : ∀ (m0 n : Nat), n < lens.sum →
    ∃ i, ∃ hi : i < lens.length, ∃ d, 1 ≤ d ∧ d ≤ lens[i] ∧ n = (lens.take i).sum + d - 1 := by
  induction lens with
  | nil => intro m0 n h; simp at h
  | cons len rest ih =>
    intro m0 n h
    rw [List.sum_cons] at h
    by_cases hn : n < len
    · exact ⟨0, by simp, n + 1, by omega, by simp only [List.getElem_cons_zero]; omega, by simp⟩
    · obtain ⟨i, hi, d, h1, h2, h3⟩ := ih m0 (n - len) (by omega)
      refine ⟨i + 1, by simpa using hi, d, h1, by simpa using h2, ?_⟩
      simp only [List.take_succ_cons, List.sum_cons]
      omega

theorem fromYday_valid (y m d : Nat) (hy : 1 ≤ y) (hm : 1 ≤ m ∧ m ≤ 12)
    (hd : 1 ≤ d ∧ d ≤ daysIn y m) : fromYday y (yearDay y m d) = .ok (y, m, d) := by
  rw [← dayOfYear_eq y m d hm]
  unfold fromYday dayOfYear
  rw [if_neg (by omega)]
  have hlen : (monthLengths y).length = 12 := rfl
  have := walkMonths_spec (monthLengths y) 1 (m - 1) d (by rw [hlen]; omega) hd.1 (by
    have : (monthLengths y)[m - 1]'(by rw [hlen]; omega) = daysIn y m := by
      obtain ⟨h1, h2⟩ := hm
      simp only [monthLengths_eq]
      rw [List.getElem_map, List.getElem_range']
      congr 1
      omega
    rw [this]; exact hd.2)
  rw [this]
  have e : 1 + (m - 1) = m := by omega
  simp only [e]

/-- Failures are ValueErrors. -/
theorem fromYday_error {y j : Nat} {e : Err} (h : fromYday y j = .error e) : e = .valueError := by
  unfold fromYday at h
  split at h
  · cases h; rfl
  · split at h
    · cases h
    · split at h
      · split at h
        · cases h
        · cases h; rfl
      · cases h; rfl

theorem daysInYear_eq (y : Nat) : (monthLengths y).sum = daysInYear y := by
  rw [monthLengths_eq]
  unfold daysInYear
  simp [List.range', List.range_succ, daysIn]

theorem daysInYear_cases (y : Nat) : daysInYear y = 365 ∨ daysInYear y = 366 := by
  rw [← daysInYear_eq]
  unfold monthLengths
  cases isLeap y <;> simp

/-- Every number from 1 to the length of the year is a date, and only one. -/
theorem exists_date (y j : Nat) (h : 1 ≤ j ∧ j ≤ daysInYear y) :
    ∃ m d, 1 ≤ m ∧ m ≤ 12 ∧ 1 ≤ d ∧ d ≤ daysIn y m ∧ yearDay y m d = j := by
  obtain ⟨i, hi, d, h1, h2, h3⟩ := walkMonths_some (monthLengths y) 1 (j - 1)
    (by rw [daysInYear_eq]; omega)
  have hlen : (monthLengths y).length = 12 := rfl
  rw [hlen] at hi
  refine ⟨i + 1, d, by omega, by omega, h1, ?_, ?_⟩
  · have : (monthLengths y)[i]'(by rw [hlen]; exact hi) = daysIn y (i + 1) := by
      simp only [monthLengths_eq]
      rw [List.getElem_map, List.getElem_range']
      congr 1
      omega
    rw [← this]; exact h2
  · rw [← dayOfYear_eq y (i + 1) d (by omega)]
    unfold dayOfYear
    simp only [Nat.add_sub_cancel]
    omega

/-! ## Digits -/

theorem digit_toNat (n : Nat) : (digit n).toNat = 48 + n % 10 := by
  have h : ∀ k < 10, (Char.ofNat (48 + k)).toNat = 48 + k := by decide
  exact h _ (Nat.mod_lt _ (by decide))

theorem digit_inj {a b : Nat} (h : digit a = digit b) : a % 10 = b % 10 := by
  have := congrArg Char.toNat h
  rw [digit_toNat, digit_toNat] at this
  omega

/-- The first match of a sequence. -/
theorem matchSeq_head {alts : List Alternative} {rest : List (List Alternative)} {s : Text}
    {p : Nat × Nat} {q : List Nat × Text} (h1 : (matches_ alts s).head? = some p)
    (h2 : (matchSeq rest (s.drop p.2)).head? = some q) :
    (matchSeq (alts :: rest) s).head? = some (p.1 :: q.1, q.2) := by
  unfold matchSeq
  cases hm : matches_ alts s with
  | nil => rw [hm] at h1; cases h1
  | cons p' l =>
    rw [hm] at h1
    cases h1
    rw [List.flatMap_cons]
    cases hr : matchSeq rest (s.drop p.2) with
    | nil => rw [hr] at h2; cases h2
    | cons q' l' =>
      rw [hr] at h2
      cases h2
      rfl

theorem head_h : ∀ n < 100, if n < 24 then (matches_ altH (two n)).head? = some (n, 2)
    else ∀ p ∈ matches_ altH (two n), p.2 < 2 := by decide +kernel
theorem head_m : ∀ n < 100, if n < 60 then (matches_ altM (two n)).head? = some (n, 2)
    else ∀ p ∈ matches_ altM (two n), p.2 < 2 := by decide +kernel
theorem head_s : ∀ n < 100, if n < 62 then (matches_ altS (two n)).head? = some (n, 2)
    else ∀ p ∈ matches_ altS (two n), p.2 < 2 := by decide +kernel
theorem head_j : ∀ n < 1000, if 1 ≤ n ∧ n ≤ 366 then (matches_ altJ (three n)).head? = some (n, 3)
    else ∀ p ∈ matches_ altJ (three n), p.2 < 3 := by decide +kernel

theorem digitIn_digit (n : Nat) : digitIn (0, 9) (digit n) = some (n % 10) := by
  unfold digitIn
  rw [digit_toNat]
  rw [if_pos (by simp only; omega)]
  congr 1
  omega

theorem head_y (n : Nat) (h : n < 10000) : (matches_ altY (four n)).head? = some (n, 4) := by
  unfold matches_ altY four
  simp only [List.filterMap_cons, List.filterMap_nil, matchAlternative, digitIn_digit,
    Option.map_some, List.head?_cons, List.length_cons, List.length_nil, Option.some.injEq,
    Prod.mk.injEq, and_true]
  omega

/-- No match is longer than the longest alternative. -/
theorem matches_len {alts : List Alternative} {w : Nat} (h : ∀ a ∈ alts, a.length ≤ w) (s : Text) :
    ∀ p ∈ matches_ alts s, p.2 ≤ w := by
  intro p hp
  unfold matches_ at hp
  rw [List.mem_filterMap] at hp
  obtain ⟨a, ha, he⟩ := hp
  rw [Option.map_eq_some_iff] at he
  obtain ⟨v, -, rfl⟩ := he
  exact h a ha

/-- A match leaves at least what is left by the longest alternatives. -/
theorem matchSeq_len (l : List (List Alternative × Nat)) :
    (∀ p ∈ l, ∀ a ∈ p.1, a.length ≤ p.2) → ∀ s : Text, ∀ q ∈ matchSeq (l.map Prod.fst) s,
      s.length ≤ q.2.length + (l.map Prod.snd).sum := by
  induction l with
  | nil =>
    intro _ s q hq
    simp only [List.map_nil, matchSeq, List.mem_singleton] at hq
    subst hq
    simp
  | cons p l ih =>
    intro h s q hq
    simp only [List.map_cons, matchSeq, List.mem_flatMap, List.mem_map] at hq
    obtain ⟨r, hr, q', hq', rfl⟩ := hq
    have h1 := matches_len (h p List.mem_cons_self) s r hr
    have h2 := ih (fun p' hp' => h p' (List.mem_cons_of_mem _ hp')) _ q' hq'
    rw [List.length_drop] at h2
    simp only [List.map_cons, List.sum_cons]
    omega

/-- If the first number is not matched in full length, or the rest is not matched to the end, there is
no match to the end. -/
theorem matchSeq_short {alts : List Alternative} {w : Nat} (l : List (List Alternative × Nat))
    (ha : ∀ a ∈ alts, a.length ≤ w) (hl : ∀ p ∈ l, ∀ a ∈ p.1, a.length ≤ p.2) (s : Text)
    (hs : s.length = w + (l.map Prod.snd).sum)
    (h : (∀ p ∈ matches_ alts s, p.2 < w) ∨ ∀ q ∈ matchSeq (l.map Prod.fst) (s.drop w), q.2 ≠ []) :
    ∀ q ∈ matchSeq (alts :: l.map Prod.fst) s, q.2 ≠ [] := by
  intro q hq
  simp only [matchSeq, List.mem_flatMap, List.mem_map] at hq
  obtain ⟨r, hr, q', hq', rfl⟩ := hq
  have h1 := matches_len ha s r hr
  have h2 := matchSeq_len l hl _ q' hq'
  rw [List.length_drop] at h2
  by_cases hw : r.2 < w
  · intro hc
    simp only at hc
    rw [hc] at h2
    simp only [List.length_nil] at h2
    omega
  · have he : r.2 = w := by omega
    rcases h with h | h
    · exact absurd (h r hr) hw
    · rw [he] at hq'
      exact h q' hq'

/-! ## Time stamps -/

/-- Thirteen digits: year, day of the year, hour, minute, second. -/
def thirteen (y j h m s : Nat) : Text := four y ++ (three j ++ (two h ++ (two m ++ two s)))

theorem strptime_thirteen (y j h m s : Nat) (hy : y < 10000) (hj : j < 1000) (hh : h < 100)
    (hm : m < 100) (hs : s < 100) :
    strptime (thirteen y j h m s) =
      if (1 ≤ j ∧ j ≤ 366) ∧ h < 24 ∧ m < 60 ∧ s < 60 then
        (fromYday y j).map fun d => ⟨d.1, d.2.1, d.2.2, h, m, s, 0⟩
      else .error .valueError := by
  have e1 : matches_ altY (thirteen y j h m s) = matches_ altY (four y) := rfl
  have e2 : (thirteen y j h m s).drop 4 = three j ++ (two h ++ (two m ++ two s)) := rfl
  have e3 : matches_ altJ (three j ++ (two h ++ (two m ++ two s))) = matches_ altJ (three j) := rfl
  have e4 : (three j ++ (two h ++ (two m ++ two s))).drop 3 = two h ++ (two m ++ two s) := rfl
  have e5 : matches_ altH (two h ++ (two m ++ two s)) = matches_ altH (two h) := rfl
  have e6 : (two h ++ (two m ++ two s)).drop 2 = two m ++ two s := rfl
  have e7 : matches_ altM (two m ++ two s) = matches_ altM (two m) := rfl
  have e8 : (two m ++ two s).drop 2 = two s := rfl
  have e9 : (two s).drop 2 = [] := rfl
  by_cases hin : (1 ≤ j ∧ j ≤ 366) ∧ h < 24 ∧ m < 60 ∧ s < 62
  · obtain ⟨i1, i2, i3, i4⟩ := hin
    have g1 := head_j j hj
    have g2 := head_h h hh
    have g3 := head_m m hm
    have g4 := head_s s hs
    rw [if_pos i1] at g1
    rw [if_pos i2] at g2
    rw [if_pos i3] at g3
    rw [if_pos i4] at g4
    have s5 : (matchSeq [altS] (two s)).head? = some ([s], []) :=
      matchSeq_head (p := (s, 2)) (q := ([], [])) g4 (by rw [e9]; rfl)
    have s4 : (matchSeq [altM, altS] (two m ++ two s)).head? = some ([m, s], []) :=
      matchSeq_head (p := (m, 2)) (q := ([s], [])) (by rw [e7]; exact g3) (by rw [e8]; exact s5)
    have s3 : (matchSeq [altH, altM, altS] (two h ++ (two m ++ two s))).head? =
        some ([h, m, s], []) :=
      matchSeq_head (p := (h, 2)) (q := ([m, s], [])) (by rw [e5]; exact g2) (by rw [e6]; exact s4)
    have s2 : (matchSeq [altJ, altH, altM, altS] (three j ++ (two h ++ (two m ++ two s)))).head? =
        some ([j, h, m, s], []) :=
      matchSeq_head (p := (j, 3)) (q := ([h, m, s], [])) (by rw [e3]; exact g1)
        (by rw [e4]; exact s3)
    have s1 : (matchSeq [altY, altJ, altH, altM, altS] (thirteen y j h m s)).head? =
        some ([y, j, h, m, s], []) :=
      matchSeq_head (p := (y, 4)) (q := ([j, h, m, s], [])) (by rw [e1]; exact head_y y hy)
        (by rw [e2]; exact s2)
    unfold strptime
    rw [s1]
    simp only [bind, Except.bind, pure, Except.pure]
    by_cases h60 : s < 60
    · rw [if_pos ⟨i1, i2, i3, h60⟩]
      cases fromYday y j with
      | error e => rfl
      | ok d => simp only [Except.map]; rw [if_neg (by omega)]
    · rw [if_neg (fun hc => h60 hc.2.2.2)]
      cases hv : fromYday y j with
      | error e => rw [fromYday_error hv]
      | ok d =>
        simp only
        rw [if_pos (by omega)]
  · rw [if_neg (fun hc => hin ⟨hc.1, hc.2.1, hc.2.2.1, by omega⟩)]
    have wj : ∀ a ∈ altJ, a.length ≤ 3 := by decide
    have wh : ∀ a ∈ altH, a.length ≤ 2 := by decide
    have wm : ∀ a ∈ altM, a.length ≤ 2 := by decide
    have ws : ∀ a ∈ altS, a.length ≤ 2 := by decide
    have wy : ∀ a ∈ altY, a.length ≤ 4 := by decide
    have key : ∀ q ∈ matchSeq [altY, altJ, altH, altM, altS] (thirteen y j h m s), q.2 ≠ [] := by
      refine matchSeq_short [(altJ, 3), (altH, 2), (altM, 2), (altS, 2)] wy (by
        intro p hp; simp only [List.mem_cons, List.not_mem_nil, or_false] at hp
        rcases hp with rfl | rfl | rfl | rfl <;> assumption) _ rfl (Or.inr ?_)
      rw [e2]
      refine matchSeq_short [(altH, 2), (altM, 2), (altS, 2)] wj (by
        intro p hp; simp only [List.mem_cons, List.not_mem_nil, or_false] at hp
        rcases hp with rfl | rfl | rfl <;> assumption) _ rfl ?_
      by_cases i1 : 1 ≤ j ∧ j ≤ 366
      · right
        rw [e4]
        refine matchSeq_short [(altM, 2), (altS, 2)] wh (by
          intro p hp; simp only [List.mem_cons, List.not_mem_nil, or_false] at hp
          rcases hp with rfl | rfl <;> assumption) _ rfl ?_
        by_cases i2 : h < 24
        · right
          rw [e6]
          refine matchSeq_short [(altS, 2)] wm (by
            intro p hp; simp only [List.mem_cons, List.not_mem_nil, or_false] at hp
            rcases hp with rfl; assumption) _ rfl ?_
          by_cases i3 : m < 60
          · right
            rw [e8]
            refine matchSeq_short [] ws (by simp) _ rfl ?_
            left
            have g4 := head_s s hs
            rw [if_neg (fun i4 => hin ⟨i1, i2, i3, i4⟩)] at g4
            exact g4
          · left
            have g3 := head_m m hm
            rw [if_neg i3] at g3
            exact g3
        · left
          have g2 := head_h h hh
          rw [if_neg i2] at g2
          exact g2
      · left
        have g1 := head_j j hj
        rw [if_neg i1] at g1
        exact g1
    unfold strptime
    cases hx : matchSeq [altY, altJ, altH, altM, altS] (thirteen y j h m s) with
    | nil => rfl
    | cons q l =>
      have := key q (by rw [hx]; exact List.mem_cons_self)
      obtain ⟨q1, q2⟩ := q
      simp only [List.head?_cons]
      split
      · rename_i he
        simp only [Option.some.injEq, Prod.mk.injEq] at he
        exact absurd he.2 this
      · rfl

/-- A time stamp: a letter, thirteen digits and a digit for tenths of a second. -/
def stamp (letter : Char) (y j h m s tenths : Nat) : Text :=
  letter :: (thirteen y j h m s ++ [digit tenths])

theorem parse_stamp (letter : Char) (y j h m s tenths : Nat) (ht : tenths < 10) :
    parseGlmFilenameTime (stamp letter y j h m s tenths) =
      (strptime (thirteen y j h m s)).map fun t =>
        { t with microsecond := t.microsecond + tenths * 100000 } := by
  unfold parseGlmFilenameTime stamp
  have hlast : (letter :: (thirteen y j h m s ++ [digit tenths])).getLast? = some (digit tenths) := by
    rw [← List.cons_append, List.getLast?_concat]
  rw [hlast]
  simp only [List.drop_succ_cons, List.drop_zero, List.dropLast_concat, bind, Except.bind, pure,
    Except.pure]
  unfold intOfChar
  rw [digitIn_digit, Nat.mod_eq_of_lt ht]
  cases strptime (thirteen y j h m s) with
  | error e => rfl
  | ok t => rfl

/-- `text` is the decimal representation of `n` with `w` digits, with leading zeros. -/
def IsDecimal (w n : Nat) (text : Text) : Prop :=
  text.length = w ∧ (∀ c ∈ text, '0' ≤ c ∧ c ≤ '9') ∧
    text.foldl (fun acc c => 10 * acc + (c.toNat - 48)) 0 = n

theorem digit_of_char {c : Char} (h : '0' ≤ c ∧ c ≤ '9') :
    ∃ k < 10, c.toNat = 48 + k ∧ ∀ n, n % 10 = k → digit n = c := by
  have h1 : 48 ≤ c.toNat := h.1
  have h2 : c.toNat ≤ 57 := h.2
  refine ⟨c.toNat - 48, by omega, by omega, ?_⟩
  intro n hn
  unfold digit
  rw [hn]
  have : 48 + (c.toNat - 48) = c.toNat := by omega
  rw [this]
  exact Char.ofNat_toNat c

theorem decimal_two {n : Nat} {text : Text} (h : IsDecimal 2 n text) : text = two n ∧ n < 100 := by
  obtain ⟨h1, h2, h3⟩ := h
  match text, h1 with
  | [a, b], _ =>
    obtain ⟨x, x1, x2, x3⟩ := digit_of_char (h2 a (by simp))
    obtain ⟨y, y1, y2, y3⟩ := digit_of_char (h2 b (by simp))
    simp only [List.foldl_cons, List.foldl_nil] at h3
    unfold two
    rw [x3 (n / 10) (by omega), y3 n (by omega)]
    exact ⟨rfl, by omega⟩

theorem decimal_three {n : Nat} {text : Text} (h : IsDecimal 3 n text) :
    text = three n ∧ n < 1000 := by
  obtain ⟨h1, h2, h3⟩ := h
  match text, h1 with
  | [a, b, c], _ =>
    obtain ⟨x, x1, x2, x3⟩ := digit_of_char (h2 a (by simp))
    obtain ⟨y, y1, y2, y3⟩ := digit_of_char (h2 b (by simp))
    obtain ⟨z, z1, z2, z3⟩ := digit_of_char (h2 c (by simp))
    simp only [List.foldl_cons, List.foldl_nil] at h3
    unfold three
    rw [x3 (n / 100) (by omega), y3 (n / 10) (by omega), z3 n (by omega)]
    exact ⟨rfl, by omega⟩

theorem decimal_four {n : Nat} {text : Text} (h : IsDecimal 4 n text) :
    text = four n ∧ n < 10000 := by
  obtain ⟨h1, h2, h3⟩ := h
  match text, h1 with
  | [a, b, c, d], _ =>
    obtain ⟨x, x1, x2, x3⟩ := digit_of_char (h2 a (by simp))
    obtain ⟨y, y1, y2, y3⟩ := digit_of_char (h2 b (by simp))
    obtain ⟨z, z1, z2, z3⟩ := digit_of_char (h2 c (by simp))
    obtain ⟨u, u1, u2, u3⟩ := digit_of_char (h2 d (by simp))
    simp only [List.foldl_cons, List.foldl_nil] at h3
    unfold four
    rw [x3 (n / 1000) (by omega), y3 (n / 100) (by omega), z3 (n / 10) (by omega), u3 n (by omega)]
    exact ⟨rfl, by omega⟩

theorem decimal_one {n : Nat} {text : Text} (h : IsDecimal 1 n text) : text = [digit n] ∧ n < 10 := by
  obtain ⟨h1, h2, h3⟩ := h
  match text, h1 with
  | [a], _ =>
    obtain ⟨x, x1, x2, x3⟩ := digit_of_char (h2 a (by simp))
    simp only [List.foldl_cons, List.foldl_nil] at h3
    rw [x3 n (by omega)]
    exact ⟨rfl, by omega⟩

/-- A text in the GOES-R format: a letter, then the decimal digits of year, day of the year, hour,
minute, second and tenths of a second. -/
def IsStamp (letter : Char) (y j h m s tenths : Nat) (text : Text) : Prop :=
  ∃ ty tj th tm ts tt : Text, IsDecimal 4 y ty ∧ IsDecimal 3 j tj ∧ IsDecimal 2 h th ∧
    IsDecimal 2 m tm ∧ IsDecimal 2 s ts ∧ IsDecimal 1 tenths tt ∧
    text = letter :: (ty ++ tj ++ th ++ tm ++ ts ++ tt)

theorem isStamp_eq {letter : Char} {y j h m s tenths : Nat} {text : Text}
    (hs : IsStamp letter y j h m s tenths text) :
    text = stamp letter y j h m s tenths ∧ y < 10000 ∧ j < 1000 ∧ h < 100 ∧ m < 100 ∧ s < 100 ∧
      tenths < 10 := by
  obtain ⟨ty, tj, th, tm, ts, tt, a1, a2, a3, a4, a5, a6, rfl⟩ := hs
  obtain ⟨rfl, b1⟩ := decimal_four a1
  obtain ⟨rfl, b2⟩ := decimal_three a2
  obtain ⟨rfl, b3⟩ := decimal_two a3
  obtain ⟨rfl, b4⟩ := decimal_two a4
  obtain ⟨rfl, b5⟩ := decimal_two a5
  obtain ⟨rfl, b6⟩ := decimal_one a6
  refine ⟨?_, b1, b2, b3, b4, b5, b6⟩
  unfold stamp thirteen
  simp only [List.append_assoc]

/-! ## C46 -/

theorem yearDay_le (y m d : Nat) (hm : 1 ≤ m ∧ m ≤ 12) (hd : 1 ≤ d ∧ d ≤ daysIn y m) :
    1 ≤ yearDay y m d ∧ yearDay y m d ≤ daysInYear y := by
  refine ⟨by unfold yearDay; omega, ?_⟩
  have h1 : yearDay y m d ≤ ((List.range (m + 1)).map (daysIn y)).sum := by
    unfold yearDay
    rw [List.range_succ, List.map_append, List.sum_append]
    simp only [List.map_cons, List.map_nil, List.sum_cons, List.sum_nil]
    omega
  have h2 : ∀ a b, a ≤ b → ((List.range a).map (daysIn y)).sum ≤ ((List.range b).map (daysIn y)).sum := by
    intro a b hab
    induction b with
    | zero => have : a = 0 := by omega
              subst this; exact Nat.le_refl _
    | succ b ih =>
      rcases Nat.lt_or_ge b a with hlt | hge
      · have : a = b + 1 := by omega
        subst this; exact Nat.le_refl _
      · refine Nat.le_trans (ih hge) ?_
        rw [List.range_succ, List.map_append, List.sum_append]
        exact Nat.le_add_right _ _
  exact Nat.le_trans h1 (h2 _ _ (by omega))

/-- C46: the time of every stamp is recovered, to tenths of a second. -/
theorem C46_stamps (t : DateTime) (ht : ValidTime t) (tenths : Nat)
    (hus : t.microsecond = tenths * 100000) (letter : Char) (text : Text)
    (hs : IsStamp letter t.year (yearDay t.year t.month t.day) t.hour t.minute t.second tenths text) :
    parseGlmFilenameTime text = .ok t := by
  obtain ⟨rfl, b1, b2, b3, b4, b5, b6⟩ := isStamp_eq hs
  have hj := yearDay_le t.year t.month t.day ht.month ht.day
  have hj2 : daysInYear t.year ≤ 366 := by
    rcases daysInYear_cases t.year with h | h <;> omega
  rw [parse_stamp _ _ _ _ _ _ _ b6, strptime_thirteen _ _ _ _ _ b1 b2 b3 b4 b5,
    if_pos ⟨⟨hj.1, by omega⟩, ht.hour, ht.minute, ht.second⟩,
    fromYday_valid _ _ _ ht.year.1 ht.month ht.day]
  simp only [Except.map, Nat.zero_add, ← hus]

example : parseGlmFilenameTime "s20171880000426".toList = .ok ⟨2017, 7, 7, 0, 0, 42, 600000⟩ := by
  decide +kernel
example : IsStamp 's' 2020 366 23 59 59 9 "s20203662359599".toList :=
  ⟨"2020".toList, "366".toList, "23".toList, "59".toList, "59".toList, "9".toList,
    by unfold IsDecimal; decide, by unfold IsDecimal; decide, by unfold IsDecimal; decide,
    by unfold IsDecimal; decide, by unfold IsDecimal; decide, by unfold IsDecimal; decide, rfl⟩
example : yearDay 2020 12 31 = 366 := by decide
example : ValidTime ⟨2020, 12, 31, 23, 59, 59, 900000⟩ := by
  constructor <;> decide
example : parseGlmFilenameTime "s20203662359599".toList = .ok ⟨2020, 12, 31, 23, 59, 59, 900000⟩ := by
  decide +kernel

/-! ## C75 -/

/-- C75: a stamp of fourteen digits is accepted only if it is a time. -/
def C75_full : Prop := ∀ (letter : Char) (y j h m s tenths : Nat) (text : Text),
  IsStamp letter y j h m s tenths text → ∀ t, parseGlmFilenameTime text = .ok t →
  (1 ≤ y ∧ (1 ≤ j ∧ j ≤ daysInYear y) ∧ h < 24 ∧ m < 60 ∧ s < 60) ∧
  (t.year = y ∧ yearDay t.year t.month t.day = j ∧ t.hour = h ∧ t.minute = m ∧ t.second = s)

/-- C75, exactly: what is accepted, and as which time.  Day 366 of a year with 365 days is taken as
the first day of the next year. -/
theorem C75_exact (letter : Char) (y j h m s tenths : Nat) (text : Text)
    (hs : IsStamp letter y j h m s tenths text) :
    (∀ t, parseGlmFilenameTime text = .ok t ↔
      (1 ≤ y ∧ 1 ≤ j ∧ h < 24 ∧ m < 60 ∧ s < 60) ∧
      (t.hour = h ∧ t.minute = m ∧ t.second = s ∧ t.microsecond = tenths * 100000) ∧
      ((j ≤ daysInYear y ∧ t.year = y ∧ 1 ≤ t.month ∧ t.month ≤ 12 ∧ 1 ≤ t.day ∧
          t.day ≤ daysIn y t.month ∧ yearDay y t.month t.day = j) ∨
        (j = 366 ∧ daysInYear y = 365 ∧ y < 9999 ∧ t.year = y + 1 ∧ t.month = 1 ∧ t.day = 1))) ∧
    ((¬ ∃ t, parseGlmFilenameTime text = .ok t) → parseGlmFilenameTime text = .error .valueError) := by
  obtain ⟨rfl, b1, b2, b3, b4, b5, b6⟩ := isStamp_eq hs
  rw [parse_stamp _ _ _ _ _ _ _ b6, strptime_thirteen _ _ _ _ _ b1 b2 b3 b4 b5]
  have hcases := daysInYear_cases y
  by_cases hc : (1 ≤ j ∧ j ≤ 366) ∧ h < 24 ∧ m < 60 ∧ s < 60
  · rw [if_pos hc]
    by_cases hy : y = 0
    · have : fromYday y j = .error .valueError := by unfold fromYday; rw [if_pos hy]
      rw [this]
      refine ⟨fun t => ⟨fun h => (by cases h), fun h => ?_⟩, fun _ => rfl⟩
      have := h.1.1
      omega
    by_cases hin : j ≤ daysInYear y
    · obtain ⟨mo, d, m1, m2, d1, d2, e⟩ := exists_date y j ⟨hc.1.1, hin⟩
      have hf := fromYday_valid y mo d (by omega) ⟨m1, m2⟩ ⟨d1, d2⟩
      rw [e] at hf
      rw [hf]
      simp only [Except.map]
      refine ⟨fun t => ⟨?_, ?_⟩, fun hn => absurd ⟨_, rfl⟩ hn⟩
      · intro ht
        cases ht
        refine ⟨⟨by omega, hc.1.1, hc.2.1, hc.2.2.1, hc.2.2.2⟩, ⟨rfl, rfl, rfl, by simp⟩,
          Or.inl ⟨hin, rfl, m1, m2, d1, d2, e⟩⟩
      · rintro ⟨-, ⟨e1, e2, e3, e4⟩, hor⟩
        rcases hor with ⟨-, f1, f2, f3, f4, f5, f6⟩ | ⟨f1, f2, -⟩
        · have hg := fromYday_valid y t.month t.day (by omega) ⟨f2, f3⟩ ⟨f4, f5⟩
          rw [f6, hf] at hg
          simp only [Except.ok.injEq, Prod.mk.injEq, true_and] at hg
          obtain ⟨g1, g2⟩ := hg
          obtain ⟨ty, tm, td, thh, tmi, tse, tus⟩ := t
          simp only at e1 e2 e3 e4 f1 g1 g2
          subst e1 e2 e3 e4 f1 g1 g2
          simp
        · omega
    · have hj : j = 366 ∧ daysInYear y = 365 := by omega
      have hw : walkMonths (monthLengths y) 1 (j - 1) = none :=
        walkMonths_none _ _ _ (by rw [daysInYear_eq]; omega)
      by_cases h9 : y + 1 ≤ 9999
      · have hf : fromYday y j = .ok (y + 1, 1, 1) := by
          unfold fromYday
          rw [if_neg hy, hw]
          simp only
          rw [if_pos h9, daysInYear_eq, hj.1, hj.2]
          rfl
        rw [hf]
        simp only [Except.map]
        refine ⟨fun t => ⟨?_, ?_⟩, fun hn => absurd ⟨_, rfl⟩ hn⟩
        · intro ht
          cases ht
          exact ⟨⟨by omega, hc.1.1, hc.2.1, hc.2.2.1, hc.2.2.2⟩, ⟨rfl, rfl, rfl, by simp⟩,
            Or.inr ⟨hj.1, hj.2, by omega, rfl, rfl, rfl⟩⟩
        · rintro ⟨-, ⟨e1, e2, e3, e4⟩, hor⟩
          rcases hor with ⟨f0, -⟩ | ⟨-, -, -, f1, f2, f3⟩
          · omega
          · obtain ⟨ty, tm, td, thh, tmi, tse, tus⟩ := t
            simp only at e1 e2 e3 e4 f1 f2 f3
            subst e1 e2 e3 e4 f1 f2 f3
            simp
      · have hf : fromYday y j = .error .valueError := by
          unfold fromYday
          rw [if_neg hy, hw]
          simp only
          rw [if_neg h9]
        rw [hf]
        refine ⟨fun t => ⟨fun h => (by cases h), fun h => ?_⟩, fun _ => rfl⟩
        obtain ⟨-, -, hor⟩ := h
        rcases hor with ⟨f0, -⟩ | ⟨-, -, f1, -⟩ <;> omega
  · rw [if_neg hc]
    refine ⟨fun t => ⟨fun h => (by cases h), fun h => ?_⟩, fun _ => rfl⟩
    obtain ⟨⟨a1, a2, a3, a4, a5⟩, -, hor⟩ := h
    refine absurd ⟨⟨a2, ?_⟩, a3, a4, a5⟩ hc
    rcases hor with ⟨f0, -⟩ | ⟨f0, -⟩ <;> omega

/-- C75 is violated by day 366 of 2017. -/
theorem C75_full_false : ¬ C75_full := by
  intro hfull
  have hs : IsStamp 's' 2017 366 0 0 0 0 "s20173660000000".toList :=
    ⟨"2017".toList, "366".toList, "00".toList, "00".toList, "00".toList, "0".toList,
      by unfold IsDecimal; decide, by unfold IsDecimal; decide, by unfold IsDecimal; decide,
      by unfold IsDecimal; decide, by unfold IsDecimal; decide, by unfold IsDecimal; decide, rfl⟩
  have hp : parseGlmFilenameTime "s20173660000000".toList = .ok ⟨2018, 1, 1, 0, 0, 0, 0⟩ := by
    decide +kernel
  have := (hfull _ _ _ _ _ _ _ _ hs _ hp).2.1
  simp at this

/-- C75, the part that holds: leap years, and years of any length for all days but 366. -/
theorem C75_partial (letter : Char) (y j h m s tenths : Nat) (text : Text)
    (hs : IsStamp letter y j h m s tenths text) (hj : j ≠ 366 ∨ daysInYear y = 366) (t : DateTime)
    (hp : parseGlmFilenameTime text = .ok t) :
    (1 ≤ y ∧ (1 ≤ j ∧ j ≤ daysInYear y) ∧ h < 24 ∧ m < 60 ∧ s < 60) ∧
    (t.year = y ∧ yearDay t.year t.month t.day = j ∧ t.hour = h ∧ t.minute = m ∧ t.second = s) := by
  obtain ⟨⟨a1, a2, a3, a4, a5⟩, ⟨c1, c2, c3, -⟩, hor⟩ :=
    ((C75_exact letter y j h m s tenths text hs).1 t).mp hp
  rcases hor with ⟨f0, f1, -, -, -, -, f6⟩ | ⟨f0, f1, -⟩
  · exact ⟨⟨a1, ⟨a2, f0⟩, a3, a4, a5⟩, f1, by rw [f1]; exact f6, c1, c2, c3⟩
  · omega

/-! ## C45 -/

theorem removeNc_cons {c : Char} (h : c ≠ '.') (r : Text) : removeNc (c :: r) = c :: removeNc r := by
  rw [removeNc]
  rintro rest rfl
  exact absurd rfl h

theorem removeNc_append {w : Text} (h : '.' ∉ w) (r : Text) : removeNc (w ++ r) = w ++ removeNc r := by
  induction w with
  | nil => rfl
  | cons c w ih =>
    rw [List.mem_cons, not_or] at h
    rw [List.cons_append, removeNc_cons (Ne.symm h.1), ih h.2, List.cons_append]

/-- Text without '.nc', before an underscore. -/
theorem removeNc_platform (w : Text) (h : ¬ ".nc".toList <:+: w) (r : Text) :
    removeNc (w ++ '_' :: r) = w ++ '_' :: removeNc r := by
  induction w with
  | nil => exact removeNc_cons (by decide) r
  | cons c w ih =>
    have hw : ¬ ".nc".toList <:+: w := fun hi => h (hi.trans (List.suffix_cons c w).isInfix)
    rw [List.cons_append]
    by_cases hc : c = '.'
    · subst hc
      have : removeNc ('.' :: (w ++ '_' :: r)) = '.' :: removeNc (w ++ '_' :: r) := by
        rw [removeNc]
        rintro rest - he
        apply h
        match w, he with
        | [], he => simp at he
        | [a], he => simp at he
        | a :: b :: w', he =>
          simp only [List.cons_append, List.cons.injEq] at he
          obtain ⟨rfl, rfl, -⟩ := he
          exact ⟨[], w', rfl⟩
      rw [this, ih hw, List.cons_append]
    · rw [removeNc_cons hc, ih hw, List.cons_append]

theorem split_word {w : Text} (h : '_' ∉ w) : splitUnderscore w = [w] := by
  induction w with
  | nil => rfl
  | cons c w ih =>
    rw [List.mem_cons, not_or] at h
    unfold splitUnderscore
    rw [if_neg (Ne.symm h.1), ih h.2]

theorem split_append {w : Text} (h : '_' ∉ w) (r : Text) :
    splitUnderscore (w ++ '_' :: r) = w :: splitUnderscore r := by
  induction w with
  | nil => simp [splitUnderscore]
  | cons c w ih =>
    rw [List.mem_cons, not_or] at h
    rw [List.cons_append]
    conv_lhs => unfold splitUnderscore
    rw [if_neg (Ne.symm h.1), ih h.2]

theorem digit_ne (n : Nat) : digit n ≠ '.' ∧ digit n ≠ '_' := by
  constructor <;>
  · intro h
    have h1 := digit_toNat n
    rw [h] at h1
    simp at h1
    omega

theorem stamp_chars (t : DateTime) : '.' ∉ strftimeStamp t ∧ '_' ∉ strftimeStamp t := by
  have e : (['0'] : Text) = [digit 0] := rfl
  have hd : ∀ n, '.' ≠ digit n := fun n => (digit_ne n).1.symm
  have hu : ∀ n, '_' ≠ digit n := fun n => (digit_ne n).2.symm
  unfold strftimeStamp strftimeYear four three two
  rw [e]
  constructor
  · split_ifs <;> simp only [List.cons_append, List.nil_append, List.mem_cons, List.not_mem_nil,
      or_false, not_or, hd, not_false_eq_true, and_self]
  · split_ifs <;> simp only [List.cons_append, List.nil_append, List.mem_cons, List.not_mem_nil,
      or_false, not_or, hu, not_false_eq_true, and_self]

/-- A time without its fraction of a second. -/
def wholeSecond (t : DateTime) : DateTime := { t with microsecond := 0 }

theorem strftime_stamp (t : DateTime) (ht : ValidTime t) (hk : 1000 ≤ t.year) (letter : Char) :
    parseGlmFilenameTime (letter :: strftimeStamp t) = .ok (wholeSecond t) := by
  have hj := yearDay_le t.year t.month t.day ht.month ht.day
  have hj2 : daysInYear t.year ≤ 366 := by
    rcases daysInYear_cases t.year with h | h <;> omega
  have e : letter :: strftimeStamp t =
      stamp letter t.year (yearDay t.year t.month t.day) t.hour t.minute t.second 0 := by
    unfold strftimeStamp stamp thirteen strftimeYear
    rw [dayOfYear_eq _ _ _ ht.month, if_pos hk]
    simp only [List.append_assoc]
    rfl
  have hy := ht.year
  rw [e, parse_stamp _ _ _ _ _ _ _ (by decide), strptime_thirteen _ _ _ _ _ (by omega) (by omega)
    (by have := ht.hour; omega) (by have := ht.minute; omega) (by have := ht.second; omega),
    if_pos ⟨⟨hj.1, by omega⟩, ht.hour, ht.minute, ht.second⟩,
    fromYday_valid _ _ _ ht.year.1 ht.month ht.day]
  rfl

/-- C45: the parser returns the parts of the name that was made for an image. -/
theorem C45_roundtrip (scene : Scene) (letter : String)
    (hl : sceneLetters.lookup scene = some letter) (platform : Text) (h1 : '_' ∉ platform)
    (h2 : ¬ ".nc".toList <:+: platform) (start stop created : DateTime) (v1 : ValidTime start)
    (v2 : ValidTime stop) (v3 : ValidTime created) (k1 : 1000 ≤ start.year) (k2 : 1000 ≤ stop.year)
    (k3 : 1000 ≤ created.year) :
    parseGlmFilename (datasetName letter.toList platform start stop created) =
      .ok { opsEnvironment := "OR".toList
            algorithm := "GLM-L2-GLM".toList ++ letter.toList ++ "-M3".toList
            platform := platform
            start := wholeSecond start
            stop := wholeSecond stop
            created := wholeSecond created } := by
  have hc : '.' ∉ letter.toList ∧ '_' ∉ letter.toList := by
    cases scene <;> (cases hl; decide)
  have hparts : splitUnderscore (removeNc (datasetName letter.toList platform start stop created)) =
      ["OR".toList, "GLM-L2-GLM".toList ++ letter.toList ++ "-M3".toList, platform,
        's' :: strftimeStamp start, 'e' :: strftimeStamp stop, 'c' :: strftimeStamp created] := by
    have e : datasetName letter.toList platform start stop created =
        ("OR_GLM-L2-GLM".toList ++ letter.toList ++ "-M3_".toList) ++ (platform ++ '_' ::
          (('s' :: strftimeStamp start ++ '_' :: ('e' :: strftimeStamp stop) ++
            '_' :: ('c' :: strftimeStamp created)) ++ ".nc".toList)) := by
      unfold datasetName
      simp only [List.append_assoc]
      rfl
    have n1 : '.' ∉ "OR_GLM-L2-GLM".toList ++ letter.toList ++ "-M3_".toList := by
      simp only [List.mem_append, not_or]
      exact ⟨⟨by decide, hc.1⟩, by decide⟩
    have n2 : '.' ∉ 's' :: strftimeStamp start ++ '_' :: ('e' :: strftimeStamp stop) ++
        '_' :: ('c' :: strftimeStamp created) := by
      simp only [List.mem_append, List.mem_cons, not_or]
      exact ⟨⟨⟨by decide, (stamp_chars start).1⟩, by decide, by decide, (stamp_chars stop).1⟩,
        by decide, by decide, (stamp_chars created).1⟩
    rw [e, removeNc_append n1, removeNc_platform _ h2, removeNc_append n2]
    have e3 : removeNc ".nc".toList = [] := by decide
    rw [e3, List.append_nil]
    have e4 : "OR_GLM-L2-GLM".toList ++ letter.toList ++ "-M3_".toList ++ (platform ++ '_' ::
        ('s' :: strftimeStamp start ++ '_' :: ('e' :: strftimeStamp stop) ++
          '_' :: ('c' :: strftimeStamp created))) =
        "OR".toList ++ '_' :: (("GLM-L2-GLM".toList ++ letter.toList ++ "-M3".toList) ++ '_' ::
          (platform ++ '_' :: (('s' :: strftimeStamp start) ++ '_' ::
            (('e' :: strftimeStamp stop) ++ '_' :: ('c' :: strftimeStamp created))))) := by
      simp
    rw [e4, split_append (by decide), split_append (by
        simp only [List.mem_append, not_or]; exact ⟨⟨by decide, hc.2⟩, by decide⟩),
      split_append h1, split_append (by
        simp only [List.mem_cons, not_or]; exact ⟨by decide, (stamp_chars start).2⟩),
      split_append (by
        simp only [List.mem_cons, not_or]; exact ⟨by decide, (stamp_chars stop).2⟩),
      split_word (by
        simp only [List.mem_cons, not_or]; exact ⟨by decide, (stamp_chars created).2⟩)]
  unfold parseGlmFilename
  rw [hparts]
  simp only [List.getElem?_cons_zero, List.getElem?_cons_succ, bind, Except.bind, pure, Except.pure,
    strftime_stamp _ v1 k1, strftime_stamp _ v2 k2, strftime_stamp _ v3 k3]

/-- C45: images that start in different seconds have different names (as have images of different
platforms, ends or times of creation). -/
theorem C45_distinct (scene scene' : Scene) (letter letter' : String)
    (hl : sceneLetters.lookup scene = some letter) (hl' : sceneLetters.lookup scene' = some letter')
    (platform platform' : Text) (h1 : '_' ∉ platform)
    (h2 : ¬ ".nc".toList <:+: platform) (h1' : '_' ∉ platform') (h2' : ¬ ".nc".toList <:+: platform')
    (start stop created start' stop' created' : DateTime)
    (v1 : ValidTime start) (v2 : ValidTime stop) (v3 : ValidTime created)
    (v1' : ValidTime start') (v2' : ValidTime stop') (v3' : ValidTime created')
    (k1 : 1000 ≤ start.year) (k2 : 1000 ≤ stop.year) (k3 : 1000 ≤ created.year)
    (k1' : 1000 ≤ start'.year) (k2' : 1000 ≤ stop'.year) (k3' : 1000 ≤ created'.year)
    (he : datasetName letter.toList platform start stop created =
      datasetName letter'.toList platform' start' stop' created') :
    letter = letter' ∧ platform = platform' ∧ wholeSecond start = wholeSecond start' ∧
      wholeSecond stop = wholeSecond stop' ∧ wholeSecond created = wholeSecond created' := by
  have a := C45_roundtrip scene letter hl platform h1 h2 start stop created v1 v2 v3 k1 k2 k3
  have b := C45_roundtrip scene' letter' hl' platform' h1' h2' start' stop' created' v1' v2' v3' k1' k2'
    k3'
  rw [he, b] at a
  simp only [Except.ok.injEq, ParsedName.mk.injEq, true_and] at a
  obtain ⟨a1, a2, a3, a4, a5⟩ := a
  refine ⟨?_, a2.symm, a3.symm, a4.symm, a5.symm⟩
  rw [List.append_left_inj, List.append_right_inj] at a1
  exact (String.toList_inj.mp a1).symm

example : parseGlmFilename
    (datasetName "F".toList "G16".toList ⟨2020, 2, 29, 1, 2, 3, 500000⟩ ⟨2020, 2, 29, 1, 3, 3, 500000⟩
      ⟨2021, 12, 31, 23, 59, 59, 1⟩) =
    .ok ⟨"OR".toList, "GLM-L2-GLMF-M3".toList, "G16".toList, ⟨2020, 2, 29, 1, 2, 3, 0⟩,
      ⟨2020, 2, 29, 1, 3, 3, 0⟩, ⟨2021, 12, 31, 23, 59, 59, 0⟩⟩ := by decide +kernel

/-- Names of level 2 files are understood as well. -/
example : parseGlmFilename
    "OR_GLM-L2-LCFA_G16_s20171880000200_e20171880000400_c20171880000426.nc".toList =
    .ok ⟨"OR".toList, "GLM-L2-LCFA".toList, "G16".toList, ⟨2017, 7, 7, 0, 0, 20, 0⟩,
      ⟨2017, 7, 7, 0, 0, 40, 0⟩, ⟨2017, 7, 7, 0, 0, 42, 600000⟩⟩ := by decide +kernel

/-! ## C76 -/

/-- C76: two tiles of one call are written to different files (for one frame, in one second). -/
def C76_full : Prop := ∀ (table : SceneTable) (platform : Text) (start stop created : DateTime)
  (x y x' y' : List Rat) (out out' : Scene × Resolution) (file file' : Text),
  (x, y) ≠ (x', y') → inferScene table x y = .ok out → inferScene table x' y' = .ok out' →
  defaultOutfile out.1 platform start stop created = .ok file →
  defaultOutfile out'.1 platform start stop created = .ok file' → file ≠ file'

/-- C76, exactly: the file depends on the tile only by the letter of its scene. -/
theorem C76_exact (platform : Text) (start stop created : DateTime) (scene scene' : Scene)
    (letter letter' : String) (hl : sceneLetters.lookup scene = some letter)
    (hl' : sceneLetters.lookup scene' = some letter') :
    defaultOutfile scene platform start stop created = defaultOutfile scene' platform start stop created
      ↔ letter = letter' := by
  unfold defaultOutfile
  rw [hl, hl']
  simp only [Except.ok.injEq, List.append_right_inj]
  constructor
  · intro h
    unfold datasetName at h
    simp only [List.append_assoc, List.append_right_inj] at h
    have hlen := congrArg List.length h
    simp only [List.length_append] at hlen
    have := List.append_inj_left h (by omega)
    exact String.toList_inj.mp this
  · rintro rfl; rfl

/-- Tiles of equal size always go to the same file. -/
theorem C76_collision (table : SceneTable) (platform : Text) (start stop created : DateTime)
    (x y x' y' : List Rat) (out out' : Scene × Resolution)
    (hx : span x = span x') (hy : span y = span y')
    (h : inferScene table x y = .ok out) (h' : inferScene table x' y' = .ok out') :
    defaultOutfile out.1 platform start stop created =
      defaultOutfile out'.1 platform start stop created := by
  have e : out.1 = out'.1 := by
    unfold inferScene at h h'
    match x, x' with
    | x0 :: x1 :: xs, x0' :: x1' :: xs' =>
      simp only [List.getElem?_cons_succ, List.getElem?_cons_zero, bind, Except.bind, pure,
        Except.pure, hx, hy] at h h'
      cases a : span (x0' :: x1' :: xs') with
      | error e => rw [a] at h; cases h
      | ok wx =>
        rw [a] at h h'
        simp only at h h'
        cases b : span y' with
        | error e => rw [b] at h; cases h
        | ok wy =>
          rw [b] at h h'
          simp only at h h'
          cases h; cases h'
          rfl
    | [], _ => cases h
    | [_], _ => cases h
    | _ :: _ :: _, [] => cases h'
    | _ :: _ :: _, [_] => cases h'
  rw [e]

/-- C76 is violated: two halves of a grid. -/
theorem C76_full_false : ¬ C76_full := by
  intro hfull
  have h1 : (inferScene ⟨(10, 10), (5, 5), (1, 1), []⟩ [0, 1] [1, 0]).toOption =
      some (.meso1, .microradians 1000000) := by decide +kernel
  have h2 : (inferScene ⟨(10, 10), (5, 5), (1, 1), []⟩ [2, 3] [1, 0]).toOption =
      some (.meso1, .microradians 1000000) := by decide +kernel
  cases a : inferScene ⟨(10, 10), (5, 5), (1, 1), []⟩ [0, 1] [1, 0] with
  | error e => rw [a] at h1; cases h1
  | ok o =>
    cases b : inferScene ⟨(10, 10), (5, 5), (1, 1), []⟩ [2, 3] [1, 0] with
    | error e => rw [b] at h2; cases h2
    | ok o' =>
      rw [a] at h1; rw [b] at h2
      have h1 : o = (.meso1, .microradians 1000000) := Option.some.inj h1
      have h2 : o' = (.meso1, .microradians 1000000) := Option.some.inj h2
      subst h1 h2
      exact hfull _ [] ⟨2020, 1, 1, 0, 0, 0, 0⟩ ⟨2020, 1, 1, 0, 1, 0, 0⟩ ⟨2020, 1, 2, 0, 0, 0, 0⟩ _ _ _ _
        _ _ _ _ (by decide) a b rfl rfl rfl

/-- C76, the part that holds: scenes with different letters. -/
theorem C76_partial (platform : Text) (start stop created : DateTime) (scene scene' : Scene)
    (hne : (sceneLetters.lookup scene) ≠ (sceneLetters.lookup scene')) :
    defaultOutfile scene platform start stop created ≠
      defaultOutfile scene' platform start stop created := by
  obtain ⟨l, hl⟩ : ∃ l, sceneLetters.lookup scene = some l := by cases scene <;> exact ⟨_, rfl⟩
  obtain ⟨l', hl'⟩ : ∃ l, sceneLetters.lookup scene' = some l := by cases scene' <;> exact ⟨_, rfl⟩
  rw [Ne, C76_exact platform start stop created scene scene' l l' hl hl']
  rintro rfl
  exact hne (hl.trans hl'.symm)

/-! ## C77 -/

/-- C77: the directory of every output file is there when it is written. -/
def C77_full : Prop := ∀ (existing : List Text) (outfile : Text), outfile ≠ [] →
  ∃ after, makeDirectory existing outfile = .ok after

theorem dirname_nil_iff (path : Text) : dirname path = [] ↔ '/' ∉ path := by
  have hhead : path.reverse.dropWhile (· ≠ '/') = [] ↔ '/' ∉ path := by
    rw [List.dropWhile_eq_nil_iff]
    constructor
    · intro h hc
      have := h '/' (List.mem_reverse.mpr hc)
      simp at this
    · intro h c hc
      simp only [ne_eq, decide_eq_true_eq]
      rintro rfl
      exact h (List.mem_reverse.mp hc)
  unfold dirname
  simp only
  split
  · rw [List.reverse_eq_nil_iff]
    exact hhead
  · rename_i hall
    rw [List.reverse_reverse, List.reverse_eq_nil_iff, List.dropWhile_eq_nil_iff]
    constructor
    · intro h
      exfalso
      apply hall
      rw [List.all_eq_true]
      intro c hc
      exact h c (List.mem_reverse.mp hc)
    · intro h
      exfalso
      apply hall
      rw [hhead.mpr h]
      rfl

/-- C77, exactly: the call fails for paths without a slash, and for no others; otherwise the directory
is there and no other was touched. -/
theorem C77_exact (existing : List Text) (outfile : Text) :
    ('/' ∉ outfile → makeDirectory existing outfile = .error .fileNotFoundError) ∧
    ('/' ∈ outfile → ∃ after, makeDirectory existing outfile = .ok after ∧ dirname outfile ∈ after ∧
      ∀ d, d ∈ after ↔ d ∈ existing ∨ d = dirname outfile) := by
  unfold makeDirectory
  simp only
  constructor
  · intro h
    have := (dirname_nil_iff outfile).mpr h
    rw [this]
    rfl
  · intro h
    have hne : dirname outfile ≠ [] := fun hc => (dirname_nil_iff outfile).mp hc h
    by_cases hin : dirname outfile ∈ existing
    · rw [if_pos ⟨hne, hin⟩]
      refine ⟨_, rfl, hin, fun d => ⟨Or.inl, ?_⟩⟩
      rintro (hd | rfl)
      · exact hd
      · exact hin
    · rw [if_neg (fun hc => hin hc.2), if_neg hne]
      refine ⟨_, rfl, List.mem_cons_self, fun d => ?_⟩
      rw [List.mem_cons, or_comm]

theorem C77_full_false : ¬ C77_full := by
  intro h
  obtain ⟨after, ha⟩ := h [] "glm.nc".toList (by decide)
  rw [(C77_exact [] "glm.nc".toList).1 (by decide)] at ha
  cases ha

/-- C77, the part that holds: templates with a directory, such as the default. -/
theorem C77_partial (existing : List Text) (directory file : Text) :
    ∃ after, makeDirectory existing (directory ++ '/' :: file) = .ok after ∧
      dirname (directory ++ '/' :: file) ∈ after := by
  obtain ⟨after, h1, h2, -⟩ := (C77_exact existing (directory ++ '/' :: file)).2 (by simp)
  exact ⟨after, h1, h2⟩

example : dirname "/data//grids//glm.nc".toList = "/data//grids".toList := by decide
example : dirname "./glm.nc".toList = ".".toList := by decide
example : dirname "/glm.nc".toList = "/".toList := by decide

end Verif.Props
