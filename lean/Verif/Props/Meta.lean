import Verif.Model.Meta
import Verif.Model.Aggregate
import Verif.Props.Imagery
import Verif.Props.LassoGrid
import Verif.Props.Aggregate
import Verif.Props.Setup
import Verif.Props.Coords
import Verif.Proofs.Lut
import Mathlib.Tactic.Ring

/-!
# C111: the metadata of an image describe it
-/

namespace Verif.Props

open Verif.Py Verif.Model Verif.Proofs

/-! ## Specification: points in time -/

/-- `t` is a date and time, the microsecond next to `seconds` after `ref`. -/
def IsAfter (ref : DateTime) (seconds : Rat) (t : DateTime) : Prop :=
  ValidTime t ∧ |((instant t : Rat) - instant ref) - seconds * 1000000| ≤ 1 / 2

/-- The time as `yyyy-mm-ddThh:mm:ssZ` or, with microseconds, `yyyy-mm-ddThh:mm:ss.ffffffZ`. -/
def IsIsoZ (t : DateTime) (text : Text) : Prop :=
  ∃ ty tmo td th tmi ts frac : Text, IsDecimal 4 t.year ty ∧ IsDecimal 2 t.month tmo ∧
    IsDecimal 2 t.day td ∧ IsDecimal 2 t.hour th ∧ IsDecimal 2 t.minute tmi ∧ IsDecimal 2 t.second ts ∧
    ((t.microsecond = 0 ∧ frac = []) ∨ ∃ d, IsDecimal 6 t.microsecond d ∧ frac = '.' :: d) ∧
    text = ty ++ '-' :: (tmo ++ '-' :: (td ++ 'T' :: (th ++ ':' :: (tmi ++ ':' :: (ts ++ (frac ++ ['Z']))))))

/-! ## The calendar -/

theorem daysBefore_eq (y : Nat) (hy : 1 ≤ y) :
    daysBefore y + 366 = ((List.range y).map daysInYear).sum := by
  induction y with
  | zero => omega
  | succ y ih =>
    unfold daysBefore
    cases y with
    | zero => rfl
    | succ y =>
      rw [if_neg (by omega), daysInYear_eq, List.range_succ, List.map_append, List.sum_append, ← ih (by omega)]
      simp
      omega

theorem yearDay_pos {y m d : Nat} (h : 1 ≤ d) : 1 ≤ yearDay y m d := by unfold yearDay; omega

theorem microOf_eq {t : DateTime} (ht : ValidTime t) :
    microOf t + 367 * 86400000000 = instant t := by
  have h1 := yearDay_pos (y := t.year) (m := t.month) ht.day.1
  have h2 := daysBefore_eq t.year ht.year.1
  unfold microOf instant dayNumber microDay microOfDay
  rw [dayOfYear_eq _ _ _ ht.month, ← h2]
  omega

theorem findYear_ok {fuel : Nat} : ∀ {y n : Nat} {r : Nat × Nat}, 1 ≤ y → findYear fuel y n = some r →
    y ≤ r.1 ∧ r.1 < y + fuel ∧ r.2 < daysInYear r.1 ∧ daysBefore y + n = daysBefore r.1 + r.2 := by
  induction fuel with
  | zero => intro y n r _ h; cases h
  | succ fuel ih =>
    intro y n r hy h
    unfold findYear at h
    split at h
    · next hn =>
      cases h
      exact ⟨Nat.le_refl _, by omega, by rw [← daysInYear_eq]; exact hn, rfl⟩
    · next hn =>
      obtain ⟨a, b, c, d⟩ := ih (by omega) h
      refine ⟨by omega, by omega, c, ?_⟩
      rw [← d]
      have : daysBefore (y + 1) = daysBefore y + (monthLengths y).sum := by
        show daysBefore y + (if y = 0 then 0 else _) = _
        rw [if_neg (by omega)]
      omega

theorem findYear_some {fuel : Nat} : ∀ {y n : Nat}, 1 ≤ y → daysBefore y + n < daysBefore (y + fuel) →
    ∃ r, findYear fuel y n = some r := by
  induction fuel with
  | zero => intro y n _ h; simp at h
  | succ fuel ih =>
    intro y n hy h
    unfold findYear
    split
    · exact ⟨_, rfl⟩
    · next hn =>
      have e : daysBefore (y + 1) = daysBefore y + (monthLengths y).sum := by
        show daysBefore y + (if y = 0 then 0 else _) = _
        rw [if_neg (by omega)]
      exact ih (by omega) (by rw [show y + 1 + fuel = y + (fuel + 1) by omega]; omega)

/-- The time that is found is the one with that number of microseconds. -/
theorem ofMicro_ok {n : Int} {t : DateTime} (h : ofMicro n = .ok t) :
    ValidTime t ∧ (microOf t : Int) = n := by
  unfold ofMicro at h
  by_cases hn : n < 0
  · rw [if_pos hn] at h
    cases h
  · rw [if_neg hn] at h
    simp only at h
    obtain ⟨n, rfl⟩ : ∃ k : Nat, n = k := ⟨n.toNat, by omega⟩
    rw [Int.toNat_natCast] at h
    have hall : ∀ r, findYear 9999 1 (n / microDay) = some r → 1 ≤ r.1 ∧ r.1 < 1 + 9999 ∧
        r.2 < daysInYear r.1 ∧ daysBefore 1 + n / microDay = daysBefore r.1 + r.2 :=
      fun r hr => findYear_ok (by omega) hr
    generalize findYear 9999 1 (n / microDay) = o at h hall
    cases o with
    | none => cases h
    | some r =>
      have hok := hall r rfl
      clear hall
      obtain ⟨y, k⟩ := r
      simp only at h
      obtain ⟨a, b, c, d⟩ := hok
      simp only at a b c d
      obtain ⟨m, dd, m1, m2, d1, d2, hj⟩ := exists_date y (k + 1) ⟨by omega, by omega⟩
      rw [← hj, fromYday_valid y m dd a ⟨m1, m2⟩ ⟨d1, d2⟩] at h
      have hlt : n % microDay < 86400000000 := Nat.mod_lt _ (by decide)
      cases h
      have hv : ValidTime ⟨y, m, dd, n % microDay / 1000000 / 3600, n % microDay / 1000000 / 60 % 60,
          n % microDay / 1000000 % 60, n % microDay % 1000000⟩ :=
        ⟨⟨a, by dsimp only; omega⟩, ⟨m1, m2⟩, ⟨d1, d2⟩, by dsimp only; omega, by dsimp only; omega, by dsimp only; omega,
          by dsimp only; omega⟩
      refine ⟨hv, Int.natCast_inj.mpr ?_⟩
      unfold microOf microOfDay
      rw [dayOfYear_eq _ _ _ ⟨m1, m2⟩]
      simp only
      have hd := Nat.div_add_mod n microDay
      have e0 : daysBefore 1 = 0 := rfl
      rw [e0, Nat.zero_add] at d
      rw [hj, show daysBefore y + (k + 1) - 1 = n / microDay by omega]
      have e1 : (n % microDay / 1000000 / 3600 * 60 + n % microDay / 1000000 / 60 % 60) * 60 +
          n % microDay / 1000000 % 60 = n % microDay / 1000000 := by omega
      rw [e1, Nat.mul_comm (n / microDay)]
      have e2 := Nat.div_add_mod (n % microDay) 1000000
      omega

/-- The microseconds of the years 1 to 9999. -/
theorem ofMicro_exists {n : Int} {d : Nat} (hd : d = daysBefore 10000) (h0 : 0 ≤ n)
    (h1 : n < (d : Int) * 86400000000) :
    ∃ t, ofMicro n = .ok t := by
  unfold ofMicro
  rw [if_neg (by omega)]
  obtain ⟨n, rfl⟩ : ∃ k : Nat, n = k := ⟨n.toNat, by omega⟩
  rw [Int.toNat_natCast]
  have hlt : n / microDay < d := by
    rw [Nat.div_lt_iff_lt_mul (by decide)]
    unfold microDay
    exact_mod_cast h1
  obtain ⟨⟨y, k⟩, hr⟩ := findYear_some (fuel := 9999) (y := 1) (n := n / microDay) (by omega) (by
    rw [show daysBefore 1 = 0 from rfl, Nat.zero_add, ← hd]; exact hlt)
  simp only [hr]
  obtain ⟨a, b, c, -⟩ := findYear_ok (by omega) hr
  simp only at a b c
  obtain ⟨m, dd, m1, m2, d1, d2, hj⟩ := exists_date y (k + 1) ⟨by omega, by omega⟩
  rw [← hj, fromYday_valid y m dd a ⟨m1, m2⟩ ⟨d1, d2⟩]
  exact ⟨_, rfl⟩

theorem addTimedelta_ok {ref t : DateTime} {s : Rat} (hr : ValidTime ref) (h : addTimedelta ref s = .ok t) :
    IsAfter ref s t ∧ (instant t : Int) = instant ref + npAround (s * 1000000) := by
  obtain ⟨hv, he⟩ := ofMicro_ok h
  have e : (instant t : Int) = instant ref + npAround (s * 1000000) := by
    rw [← microOf_eq hv, ← microOf_eq hr]
    push_cast
    omega
  refine ⟨⟨hv, ?_⟩, e⟩
  have hb := npAround_bounds (s * 1000000)
  have e' : (instant t : Rat) = instant ref + npAround (s * 1000000) := by exact_mod_cast e
  rw [e', abs_le]
  constructor <;> linarith [hb.1, hb.2]

theorem isDecimal_six {n : Nat} (h : n < 1000000) : IsDecimal 6 n (six n) := by
  refine ⟨rfl, ?_, ?_⟩
  · intro c hc
    simp only [six, three, List.mem_append, List.mem_cons, List.not_mem_nil, or_false] at hc
    rcases hc with (rfl | rfl | rfl) | (rfl | rfl | rfl) <;> exact digit_isDigit _
  · simp only [six, three, List.foldl_append, List.foldl_cons, List.foldl_nil, digit_toNat]
    omega

theorem isoformat_isIsoZ {t : DateTime} (ht : ValidTime t) : IsIsoZ t (isoformat 'T' t ++ ['Z']) := by
  have h1 := ht.year
  have h2 := ht.month
  have h3 := ht.day
  have h4 := daysIn_le t.year t.month
  have h5 := ht.hour
  have h6 := ht.minute
  have h7 := ht.second
  have h8 := ht.microsecond
  refine ⟨_, _, _, _, _, _, if t.microsecond = 0 then [] else '.' :: six t.microsecond,
    isDecimal_four (by omega), isDecimal_two (by omega), isDecimal_two (by omega),
    isDecimal_two (by omega), isDecimal_two (by omega), isDecimal_two (by omega), ?_, ?_⟩
  · split
    · next h => exact Or.inl ⟨h, rfl⟩
    · exact Or.inr ⟨_, isDecimal_six h8, rfl⟩
  · unfold isoformat
    simp only [List.append_assoc, List.cons_append]

/-! ## What a description consists of -/

theorem describeFile_ok {m : MetaSetup} {created : DateTime} {f : ImageFile} {nc : NcFile}
    (h : describeFile m created f = .ok nc) :
    ∃ start stop attrs name vars, addTimedelta m.tRef f.start = .ok start ∧
      addTimedelta m.tRef f.stop = .ok stop ∧
      globalAttrs start stop created m.first f.scene (resolutionText f.resolution) "ABI Mode 3" "DE"
        "Postprocessed" "TTU" = .ok attrs ∧ attrs.lookup "dataset_name" = some name ∧
      (f.fields.zip (m.descriptions.zip m.units)).foldlM (addField f.y.length f.x.length)
        (newDataset f.y.length f.x.length m.nadirLon) = .ok vars ∧
      nc = ⟨"./".toList ++ name, f.x, f.y, attrs, vars⟩ := by
  unfold describeFile at h
  cases h1 : addTimedelta m.tRef f.start with
  | error e => rw [h1] at h; cases h
  | ok start =>
    cases h2 : addTimedelta m.tRef f.stop with
    | error e => rw [h1, h2] at h; cases h
    | ok stop =>
      cases h3 : globalAttrs start stop created m.first f.scene (resolutionText f.resolution) "ABI Mode 3" "DE"
        "Postprocessed" "TTU" with
      | error e => rw [h1, h2] at h; simp only [bind, Except.bind, h3] at h; cases h
      | ok attrs =>
        cases h4 : attrs.lookup "dataset_name" with
        | none => rw [h1, h2] at h; simp only [bind, Except.bind, h3, h4] at h; cases h
        | some name =>
          cases h5 : (f.fields.zip (m.descriptions.zip m.units)).foldlM (addField f.y.length f.x.length)
            (newDataset f.y.length f.x.length m.nadirLon) with
          | error e => rw [h1, h2] at h; simp only [bind, Except.bind, h3, h4, h5] at h; cases h
          | ok vars =>
            rw [h1, h2] at h
            simp only [bind, Except.bind, h3, h4, h5, pure, Except.pure, Except.ok.injEq] at h
            exact ⟨start, stop, attrs, name, vars, rfl, rfl, h3, h4, rfl, h.symm⟩

/-- The attributes that depend on the image. -/
theorem globalAttrs_ok {start stop created : DateTime} {first : FirstFile} {scene : Scene} {res : Text}
    {a b c : String} {attrs : List (String × Text)}
    (h : globalAttrs start stop created first scene res "ABI Mode 3" a b c = .ok attrs) :
    ∃ letter text, sceneAttrs scene = .ok (letter, text) ∧
      attrs.lookup "dataset_name" = some (datasetName letter.toList first.platform start stop created) ∧
      attrs.lookup "date_created" = some (isoformat 'T' created ++ ['Z']) ∧
      attrs.lookup "instrument_ID" = some first.instrument ∧
      attrs.lookup "orbital_slot" = some first.slot ∧
      attrs.lookup "platform_ID" = some first.platform ∧
      attrs.lookup "scene_id" = some text.toList ∧
      attrs.lookup "spatial_resolution" = some res ∧
      attrs.lookup "time_coverage_end" = some (isoformat 'T' stop ++ ['Z']) ∧
      attrs.lookup "time_coverage_start" = some (isoformat 'T' start ++ ['Z']) := by
  unfold globalAttrs at h
  rw [if_neg (by decide)] at h
  cases hs : sceneAttrs scene with
  | error e => rw [hs] at h; cases h
  | ok p =>
    obtain ⟨letter, text⟩ := p
    rw [hs] at h
    simp only [bind, Except.bind, pure, Except.pure, Except.ok.injEq] at h
    subst h
    refine ⟨letter, text, rfl, ?_, ?_, ?_, ?_, ?_, ?_, ?_, ?_, ?_⟩ <;>
      simp [List.lookup]

theorem daysBefore_succ {y : Nat} (hy : 1 ≤ y) : daysBefore (y + 1) = daysBefore y + daysInYear y := by
  show daysBefore y + (if y = 0 then 0 else _) = _
  rw [if_neg (by omega), daysInYear_eq]

theorem daysBefore_mono {a b : Nat} (ha : 1 ≤ a) (h : a ≤ b) : daysBefore a ≤ daysBefore b := by
  induction b with
  | zero => omega
  | succ b ih =>
    rcases Nat.lt_or_ge b a with hb | hb
    · rw [show a = b + 1 by omega]
    · rw [daysBefore_succ (by omega)]
      exact Nat.le_add_right_of_le (ih hb)

/-- A time of up to a year after `ref` can be computed, unless that is the last year of all. -/
theorem addTimedelta_exists {ref : DateTime} (hr : ValidTime ref) (hy : ref.year ≤ 9998) {s : Rat} (h0 : 0 ≤ s)
    (h1 : s ≤ 365 * 86400) : ∃ t, addTimedelta ref s = .ok t := by
  have hm := npAround_mono_int (q := s * 1000000) (n := 0)
  have hM := npAround_mono_int (q := s * 1000000) (n := 365 * 86400000000)
  have a := hm.1 (by push_cast; linarith)
  have b := hM.2 (by push_cast; linarith)
  have hj := yearDay_le ref.year ref.month ref.day hr.month hr.day
  have h2 := daysBefore_mono (a := ref.year + 1) (b := 9999) (by omega) (by omega)
  rw [daysBefore_succ hr.year.1] at h2
  have hd : microOfDay ref < 86400000000 := by
    have := hr.hour
    have := hr.minute
    have := hr.second
    have := hr.microsecond
    unfold microOfDay
    omega
  have hlt : microOf ref < daysBefore 9999 * 86400000000 := by
    unfold microOf microDay
    rw [dayOfYear_eq _ _ _ hr.month]
    omega
  have e : daysBefore 10000 = daysBefore 9999 + daysInYear 9999 := daysBefore_succ (by omega)
  have e' : daysInYear 9999 = 365 := by decide
  unfold addTimedelta
  refine ofMicro_exists (d := daysBefore 9999 + 365) (by rw [e, e']) (by omega) ?_
  generalize daysBefore 9999 = d at *
  push_cast
  omega

/-! ## C111: times, name and origin -/

/-- What is known of an image file that has been described. -/
theorem described_times {s : ImageSetup} {pad : Option (PySlice × PySlice)} {sc : Bool} {g g' : Grids}
    {files : List ImageFile} (h : writeImagery s pad sc g = .ok (files, g')) {m : MetaSetup}
    {created : DateTime} (hr : ValidTime m.tRef) {k : Nat} {f : ImageFile} (hf : files[k]? = some f) {nc : NcFile}
    (hn : describeFile m created f = .ok nc) :
    ∃ t0 t1 start stop, s.tEdges[k]? = some t0 ∧ s.tEdges[k + 1]? = some t1 ∧
      (IsAfter m.tRef t0 start ∧ (instant start : Int) = instant m.tRef + npAround (t0 * 1000000)) ∧
      (IsAfter m.tRef t1 stop ∧ (instant stop : Int) = instant m.tRef + npAround (t1 * 1000000)) ∧
      nc.attrs.lookup "time_coverage_start" = some (isoformat 'T' start ++ ['Z']) ∧
      nc.attrs.lookup "time_coverage_end" = some (isoformat 'T' stop ++ ['Z']) ∧
      nc.attrs.lookup "date_created" = some (isoformat 'T' created ++ ['Z']) ∧
      nc.attrs.lookup "instrument_ID" = some m.first.instrument ∧
      nc.attrs.lookup "orbital_slot" = some m.first.slot ∧
      nc.attrs.lookup "platform_ID" = some m.first.platform ∧
      nc.attrs.lookup "spatial_resolution" = some (resolutionText f.resolution) ∧
      ∃ letter text, sceneAttrs f.scene = .ok (letter, text) ∧
        nc.attrs.lookup "scene_id" = some text.toList ∧
        nc.attrs.lookup "dataset_name" = some (datasetName letter.toList m.first.platform start stop created) ∧
        nc.path = "./".toList ++ datasetName letter.toList m.first.platform start stop created := by
  obtain ⟨-, hfr, -⟩ := C41_frames s pad sc g g' files h
  obtain ⟨e0, e1⟩ := hfr k f hf
  obtain ⟨start, stop, attrs, name, vars, h1, h2, h3, h4, -, rfl⟩ := describeFile_ok hn
  obtain ⟨letter, text, b0, b1, b2, b3, b4, b5, b6, b7, b8, b9⟩ := globalAttrs_ok h3
  rw [b1] at h4
  cases h4
  exact ⟨f.start, f.stop, start, stop, e0, e1, addTimedelta_ok hr h1, addTimedelta_ok hr h2, b9, b8, b2, b3, b4, b5,
    b7, letter, text, b0, b6, b1, rfl⟩

/-- A reader of such texts. -/
def readIso (text : Text) : Except Err DateTime :=
  match strptimeIso (text.take 19), text.drop 19 with
  | .ok t, ['Z'] => .ok t
  | .ok t, '.' :: rest => .ok { t with microsecond := rest.dropLast.foldl (fun acc c => 10 * acc + (c.toNat - 48)) 0 }
  | .ok _, _ => .error .valueError
  | .error e, _ => .error e

theorem readIso_ok {t : DateTime} {text : Text} (ht : ValidTime t) (h : IsIsoZ t text) :
    readIso text = .ok t := by
  obtain ⟨ty, tmo, td, th, tmi, ts, frac, h1, h2, h3, h4, h5, h6, h7, h8⟩ := h
  have e1 : strptimeIso (text.take 19) = .ok (wholeSecond t) :=
    strptimeIso_ok ht ⟨ty, tmo, td, th, tmi, ts, frac ++ ['Z'], h1, h2, h3, h4, h5, h6, h8⟩
  have e2 : text.drop 19 = frac ++ ['Z'] := by
    have l1 := h1.1
    have l2 := h2.1
    have l3 := h3.1
    have l4 := h4.1
    have l5 := h5.1
    have l6 := h6.1
    have : text = (ty ++ '-' :: (tmo ++ '-' :: (td ++ 'T' :: (th ++ ':' :: (tmi ++ ':' :: ts))))) ++
        (frac ++ ['Z']) := by
      rw [h8]; simp
    rw [this]
    exact List.drop_left' (by simp [l1, l2, l3, l4, l5, l6])
  unfold readIso
  rw [e1, e2]
  rcases h7 with ⟨hm, rfl⟩ | ⟨d, hd, rfl⟩
  · show Except.ok (wholeSecond t) = _
    unfold wholeSecond
    rw [← hm]
  · show Except.ok { wholeSecond t with
      microsecond := (d ++ ['Z']).dropLast.foldl (fun acc (c : Char) => 10 * acc + (c.toNat - 48)) 0 } = _
    rw [List.dropLast_concat, hd.2.2]
    rfl

theorem isIsoZ_unique {t t' : DateTime} {text : Text} (ht : ValidTime t) (ht' : ValidTime t')
    (h : IsIsoZ t text) (h' : IsIsoZ t' text) : t = t' := by
  have a := readIso_ok ht h
  rw [readIso_ok ht' h'] at a
  exact (Except.ok.inj a).symm

/-- C111: each file states, in ISO format and to the microsecond, the time at which its frame starts and ends and the
time at which it was made, and the platform, slot and instrument of the first file that was gridded. -/
theorem C111_times_partial (s : ImageSetup) (pad : Option (PySlice × PySlice)) (sc : Bool) (g g' : Grids)
    (files : List ImageFile) (h : writeImagery s pad sc g = .ok (files, g')) (m : MetaSetup)
    (created : DateTime) (hr : ValidTime m.tRef) (hc : ValidTime created) (k : Nat) (f : ImageFile)
    (hf : files[k]? = some f) (nc : NcFile) (hn : describeFile m created f = .ok nc) :
    ∃ t0 t1 start stop a b c, s.tEdges[k]? = some t0 ∧ s.tEdges[k + 1]? = some t1 ∧
      IsAfter m.tRef t0 start ∧ IsAfter m.tRef t1 stop ∧
      nc.attrs.lookup "time_coverage_start" = some a ∧ IsIsoZ start a ∧
      nc.attrs.lookup "time_coverage_end" = some b ∧ IsIsoZ stop b ∧
      nc.attrs.lookup "date_created" = some c ∧ IsIsoZ created c ∧
      nc.attrs.lookup "platform_ID" = some m.first.platform ∧
      nc.attrs.lookup "orbital_slot" = some m.first.slot ∧
      nc.attrs.lookup "instrument_ID" = some m.first.instrument := by
  obtain ⟨t0, t1, start, stop, e0, e1, ⟨i0, -⟩, ⟨i1, -⟩, a, b, c, d1, d2, d3, -⟩ := described_times h hr hf hn
  exact ⟨t0, t1, start, stop, _, _, _, e0, e1, i0, i1, a, isoformat_isIsoZ i0.1, b, isoformat_isIsoZ i1.1, c,
    isoformat_isIsoZ hc, d3, d2, d1⟩

/-- C111: the name of the file is the stated name of the data set, and the parser finds in it the platform and, to the
second, the times that the attributes state. -/
theorem C111_name_partial (s : ImageSetup) (pad : Option (PySlice × PySlice)) (sc : Bool) (g g' : Grids)
    (files : List ImageFile) (h : writeImagery s pad sc g = .ok (files, g')) (m : MetaSetup)
    (created : DateTime) (hr : ValidTime m.tRef) (hc : ValidTime created)
    (h1 : '_' ∉ m.first.platform) (h2 : ¬ ".nc".toList <:+: m.first.platform) (f : ImageFile)
    (hf : f ∈ files) (nc : NcFile) (hn : describeFile m created f = .ok nc)
    (start stop : DateTime) (a b : Text)
    (ha : nc.attrs.lookup "time_coverage_start" = some a) (hia : IsIsoZ start a) (hva : ValidTime start)
    (hb : nc.attrs.lookup "time_coverage_end" = some b) (hib : IsIsoZ stop b) (hvb : ValidTime stop)
    (k1 : 1000 ≤ start.year) (k2 : 1000 ≤ stop.year) (k3 : 1000 ≤ created.year) :
    ∃ name parsed, nc.attrs.lookup "dataset_name" = some name ∧ nc.path = "./".toList ++ name ∧
      parseGlmFilename name = .ok parsed ∧ parsed.platform = m.first.platform ∧
      parsed.start = { start with microsecond := 0 } ∧ parsed.stop = { stop with microsecond := 0 } ∧
      parsed.created = { created with microsecond := 0 } := by
  obtain ⟨k, hk, hkf⟩ := List.getElem_of_mem hf
  obtain ⟨t0, t1, start', stop', -, -, ⟨i0, -⟩, ⟨i1, -⟩, ea, eb, -, -, -, -, -, letter, text, hs, -, hd, hp⟩ :=
    described_times h hr (by rw [List.getElem?_eq_getElem hk, hkf]) hn
  rw [ha] at ea
  rw [hb] at eb
  cases ea
  cases eb
  have es := isIsoZ_unique hva i0.1 hia (isoformat_isIsoZ i0.1)
  have et := isIsoZ_unique hvb i1.1 hib (isoformat_isIsoZ i1.1)
  subst es et
  have hl : sceneLetters.lookup f.scene = some letter := by
    unfold sceneAttrs at hs
    split at hs
    · next a b ha hb =>
      cases hs
      exact ha
    · cases hs
  exact ⟨_, _, hd, hp, C45_roundtrip f.scene letter hl m.first.platform h1 h2 start stop created hva hvb hc k1 k2 k3,
    rfl, rfl, rfl, rfl⟩

/-! ## C111: variables -/

/-- The data of a variable with its attribute of that name. -/
def attrOf (v : NcVar) (k : String) : Option Attr := v.attrs.lookup k

/-- The variable is one over the pixels of the image. -/
def OverPixels (nc : NcFile) (v : NcVar) : Prop :=
  v.dims = ["y", "x"] ∧ v.data.rows = nc.y.length ∧ v.data.cols = nc.x.length

/-- A variable that is one number. -/
def IsNumber (v : NcVar) (x : Rat) : Prop := v.dims = [] ∧ v.data.rows = 1 ∧ v.data.cols = 1 ∧ v.data.val 0 0 = x

theorem assign_fresh {α : Type} {d : List (String × α)} {name : String} (v : α) (h : name ∉ d.map Prod.fst) :
    assign d name v = d ++ [(name, v)] := by
  unfold assign
  rw [if_neg]
  intro hc
  obtain ⟨e, he, hn⟩ := List.any_eq_true.mp hc
  exact h (List.mem_map.mpr ⟨e, he, of_decide_eq_true hn⟩)

/-- The fields are added one after the other. -/
theorem addFields_ok {rows cols : Nat} : ∀ {l : List ((String × Image) × String × String)}
    {d vars : List (String × NcVar)}, (d.map Prod.fst ++ l.map (·.1.1)).Nodup →
    l.foldlM (addField rows cols) d = .ok vars →
    (∀ q ∈ l, q.1.2.rows = rows ∧ q.1.2.cols = cols) ∧
    vars = d ++ l.map fun q => (q.1.1, imageVar q.1.2 q.1.1 q.2.1 q.2.2 ["y", "x"]) := by
  intro l
  induction l with
  | nil => intro d vars _ h; cases h; exact ⟨by simp, by simp⟩
  | cons q l ih =>
    intro d vars hnd h
    rw [List.foldlM_cons] at h
    by_cases hs : q.1.2.rows = rows ∧ q.1.2.cols = cols
    · have hfresh : q.1.1 ∉ d.map Prod.fst := by
        intro hc
        rw [List.nodup_append] at hnd
        exact hnd.2.2 _ hc _ (by simp) rfl
      have e : addField rows cols d q =
          .ok (d ++ [(q.1.1, imageVar q.1.2 q.1.1 q.2.1 q.2.2 ["y", "x"])]) := by
        unfold addField
        rw [if_pos hs, assign_fresh _ hfresh]
      rw [e] at h
      obtain ⟨h1, h2⟩ := ih (by simpa using hnd) h
      refine ⟨?_, by rw [h2]; simp⟩
      intro p hp
      rcases List.mem_cons.mp hp with rfl | hp
      · exact hs
      · exact h1 p hp
    · have e : addField rows cols d q = .error .valueError := by
        unfold addField
        rw [if_neg hs]
      rw [e] at h
      cases h

theorem addFields_exists {rows cols : Nat} : ∀ (l : List ((String × Image) × String × String))
    (d : List (String × NcVar)), (∀ q ∈ l, q.1.2.rows = rows ∧ q.1.2.cols = cols) →
    ∃ vars, l.foldlM (addField rows cols) d = .ok vars := by
  intro l
  induction l with
  | nil => intro d _; exact ⟨d, rfl⟩
  | cons q l ih =>
    intro d h
    rw [List.foldlM_cons]
    have e : addField rows cols d q = .ok (assign d q.1.1 (imageVar q.1.2 q.1.1 q.2.1 q.2.2 ["y", "x"])) := by
      unfold addField
      rw [if_pos (h q (by simp))]
    rw [e]
    exact ih _ fun p hp => h p (by simp [hp])

/-- The names of the variables that are in every file. -/
def basicNames : List String :=
  ["goes_imager_projection", "DQF", "nominal_satellite_subpoint_lat", "nominal_satellite_subpoint_lon"]

theorem lookup_of_mem_nodup {α : Type} {l : List (String × α)} {k : String} {v : α} (hn : (l.map Prod.fst).Nodup)
    (h : (k, v) ∈ l) : l.lookup k = some v := by
  induction l with
  | nil => cases h
  | cons e l ih =>
    obtain ⟨a, b⟩ := e
    rw [List.map_cons, List.nodup_cons] at hn
    rcases List.mem_cons.mp h with he | h
    · cases he
      simp
    · have : k ≠ a := by
        intro he
        exact hn.1 (List.mem_map.mpr ⟨(k, v), h, he⟩)
      have hb : (k == a) = false := by simpa using this
      rw [List.lookup_cons, hb]
      exact ih hn.2 h

theorem mem_of_lookup {α : Type} {l : List (String × α)} {k : String} {v : α} (h : l.lookup k = some v) :
    (k, v) ∈ l := by
  induction l with
  | nil => cases h
  | cons e l ih =>
    obtain ⟨a, b⟩ := e
    rw [List.lookup_cons] at h
    cases hb : k == a with
    | true =>
      rw [hb] at h
      cases h
      rw [eq_of_beq hb]
      exact List.mem_cons_self
    | false =>
      rw [hb] at h
      exact List.mem_cons_of_mem _ (ih h)

/-- C111: each field is a variable of its own over the pixels, with its name, description and unit; the flags of
quality are over the pixels and all zero, which is the flag that means valid; every variable over the pixels names as
its projection a variable that is there, a geostationary projection for the longitude of the satellite that is stated
in the variables for its position. -/
theorem C111_variables_partial (m : MetaSetup) (created : DateTime) (f : ImageFile) (nc : NcFile)
    (hn : describeFile m created f = .ok nc) (hnd : (basicNames ++ f.fields.map Prod.fst).Nodup)
    (hd : m.descriptions.length = f.fields.length) (hu : m.units.length = f.fields.length) :
    nc.x = f.x ∧ nc.y = f.y ∧ nc.vars.map Prod.fst = basicNames ++ f.fields.map Prod.fst ∧
    (∀ (i : Nat) name img desc unit, f.fields[i]? = some (name, img) → m.descriptions[i]? = some desc →
      m.units[i]? = some unit → ∃ v, nc.vars.lookup name = some v ∧ OverPixels nc v ∧ v.data = img ∧
        attrOf v "standard_name" = some (.text name) ∧ attrOf v "long_name" = some (.text desc) ∧
        attrOf v "units" = some (.text unit)) ∧
    (∃ v, nc.vars.lookup "DQF" = some v ∧ OverPixels nc v ∧ (∀ r c, v.data.val r c = 0) ∧
      attrOf v "flag_values" = some (.nums [0, 1]) ∧ attrOf v "flag_meanings" = some (.text "valid, invalid")) ∧
    (∀ name v, nc.vars.lookup name = some v → OverPixels nc v →
      ∃ map p, attrOf v "grid_mapping" = some (.text map) ∧ nc.vars.lookup map = some p ∧
        attrOf p "grid_mapping_name" = some (.text "geostationary") ∧
        attrOf p "longitude_of_projection_origin" = some (.num m.nadirLon) ∧
        attrOf p "latitude_of_projection_origin" = some (.num 0) ∧
        attrOf p "perspective_point_height" = some (.num 35786023) ∧
        attrOf p "semi_major_axis" = some (.num 6378137) ∧ attrOf p "sweep_angle_axis" = some (.text "x")) ∧
    (∃ lon lat, nc.vars.lookup "nominal_satellite_subpoint_lon" = some lon ∧
      nc.vars.lookup "nominal_satellite_subpoint_lat" = some lat ∧ IsNumber lon m.nadirLon ∧ IsNumber lat 0 ∧
      attrOf lon "units" = some (.text "degrees_east") ∧ attrOf lat "units" = some (.text "degrees_north")) := by
  obtain ⟨start, stop, attrs, name, vars, -, -, -, -, h5, rfl⟩ := describeFile_ok hn
  have hz : (f.fields.zip (m.descriptions.zip m.units)).map (·.1.1) = f.fields.map Prod.fst := by
    have e : (fun x : (String × Image) × String × String => x.1.1) = Prod.fst ∘ Prod.fst := rfl
    rw [e, ← List.map_map, List.map_fst_zip]
    rw [List.length_zip, hd, hu, Nat.min_self]
  have hb : (newDataset f.y.length f.x.length m.nadirLon).map Prod.fst = basicNames := rfl
  obtain ⟨hsh, rfl⟩ := addFields_ok (by rw [hz, hb]; exact hnd) h5
  have hkeys : ((newDataset f.y.length f.x.length m.nadirLon) ++
      (f.fields.zip (m.descriptions.zip m.units)).map fun q =>
        (q.1.1, imageVar q.1.2 q.1.1 q.2.1 q.2.2 ["y", "x"])).map Prod.fst =
      basicNames ++ f.fields.map Prod.fst := by
    rw [List.map_append, hb, List.map_map, ← hz]
    rfl
  refine ⟨rfl, rfl, hkeys, ?_, ?_, ?_, ?_⟩
  · intro i name img desc unit h1 h2 h3
    have hm : ((name, img), desc, unit) ∈ f.fields.zip (m.descriptions.zip m.units) := by
      apply List.mem_of_getElem? (i := i)
      rw [List.getElem?_zip_eq_some, List.getElem?_zip_eq_some]
      exact ⟨h1, h2, h3⟩
    refine ⟨imageVar img name desc unit ["y", "x"], ?_, ⟨rfl, hsh _ hm⟩, rfl, rfl, rfl, rfl⟩
    apply lookup_of_mem_nodup
    · rw [hkeys]; exact hnd
    · exact List.mem_append_right _ (List.mem_map.mpr ⟨_, hm, rfl⟩)
  · exact ⟨dqfVar ["y", "x"] f.y.length f.x.length, rfl, ⟨rfl, rfl, rfl⟩, fun _ _ => rfl, rfl, rfl⟩
  · intro name v hl hp
    refine ⟨"goes_imager_projection", projVar m.nadirLon, ?_, rfl, rfl, rfl, rfl, rfl, rfl, rfl⟩
    have hmem := mem_of_lookup hl
    rcases List.mem_append.mp hmem with h | h
    · simp only [newDataset, List.mem_cons, List.not_mem_nil, or_false, Prod.mk.injEq] at h
      rcases h with ⟨-, rfl⟩ | ⟨-, rfl⟩ | ⟨-, rfl⟩ | ⟨-, rfl⟩
      · exact absurd hp.1 (by simp [projVar])
      · rfl
      · exact absurd hp.1 (by simp [subpointVars])
      · exact absurd hp.1 (by simp [subpointVars])
    · obtain ⟨q, -, he⟩ := List.mem_map.mp h
      cases he
      rfl
  · exact ⟨(subpointVars m.nadirLon).1, (subpointVars m.nadirLon).2, rfl, rfl, ⟨rfl, rfl, rfl, rfl⟩, ⟨rfl, rfl, rfl, rfl⟩, rfl, rfl⟩

/-- C111: every image can be described, if the time to which the frames refer is before the year 9999, the frames are
within a year, and the grids have the size of the axes. -/
theorem C111_complete_partial (s : ImageSetup) (pad : Option (PySlice × PySlice)) (sc : Bool) (g g' : Grids)
    (files : List ImageFile) (h : writeImagery s pad sc g = .ok (files, g'))
    (hx : s.xedge.length = g.nx + 1) (hy : s.yedge.length = g.ny + 1) (m : MetaSetup) (created : DateTime)
    (hr : ValidTime m.tRef) (hyr : m.tRef.year ≤ 9998) (ht : ∀ t ∈ s.tEdges, 0 ≤ t ∧ t ≤ 365 * 86400)
    (f : ImageFile) (hf : f ∈ files) : ∃ nc, describeFile m created f = .ok nc := by
  obtain ⟨k, hk, hkf⟩ := List.getElem_of_mem hf
  have hkf : files[k]? = some f := by rw [List.getElem?_eq_getElem hk, hkf]
  obtain ⟨hsame, -, -, -, h5⟩ := writeImagery_ok h
  obtain ⟨-, e0, e1, ex, ey, -, -, ef⟩ := h5 k f hkf
  obtain ⟨start, h1⟩ := addTimedelta_exists hr hyr (ht _ (List.mem_of_getElem? e0)).1
    (ht _ (List.mem_of_getElem? e0)).2
  obtain ⟨stop, h2⟩ := addTimedelta_exists hr hyr (ht _ (List.mem_of_getElem? e1)).1
    (ht _ (List.mem_of_getElem? e1)).2
  have hg : ∃ attrs, globalAttrs start stop created m.first f.scene (resolutionText f.resolution) "ABI Mode 3" "DE"
      "Postprocessed" "TTU" = .ok attrs := by
    unfold globalAttrs
    rw [if_neg (by decide)]
    cases f.scene <;> exact ⟨_, rfl⟩
  obtain ⟨attrs, h3⟩ := hg
  obtain ⟨letter, text, -, h4, -⟩ := globalAttrs_ok h3
  have hsh : ∀ q ∈ f.fields.zip (m.descriptions.zip m.units),
      q.1.2.rows = f.y.length ∧ q.1.2.cols = f.x.length := by
    intro q hq
    have hq1 := (List.of_mem_zip hq).1
    rw [ef] at hq1
    obtain ⟨p, -, hp⟩ := List.mem_map.mp hq1
    rw [← hp]
    obtain ⟨r1, r2⟩ := imageOf_shape g' (pad.getD (⟨none, none⟩, ⟨none, none⟩)).1
      (pad.getD (⟨none, none⟩, ⟨none, none⟩)).2 k p.1
    simp only
    rw [r1, r2, ex, ey, List.length_reverse, slice_apply_length, slice_apply_length, cellCentres_length,
      cellCentres_length, hx, hy, hsame.nx, hsame.ny]
    exact ⟨rfl, rfl⟩
  obtain ⟨vars, h6⟩ := addFields_exists _ (newDataset f.y.length f.x.length m.nadirLon) hsh
  unfold describeFile
  rw [h1, h2]
  simp only [bind, Except.bind, h3, h4, h6]
  exact ⟨_, rfl⟩

/-! ## C111: the sector and the resolution -/

/-- C111: the sector that is stated and the one in the file name, for each scene that can be inferred. -/
theorem C111_scene_partial (s : ImageSetup) (pad : Option (PySlice × PySlice)) (sc : Bool) (g g' : Grids)
    (files : List ImageFile) (h : writeImagery s pad sc g = .ok (files, g')) (m : MetaSetup)
    (created : DateTime) (hr : ValidTime m.tRef) (f : ImageFile) (hf : f ∈ files) (nc : NcFile)
    (hn : describeFile m created f = .ok nc) :
    ∃ letter text rest, (f.scene, letter, text) ∈ [(Scene.full, "F", "Full Disk"), (.conus, "C", "CONUS"),
        (.meso1, "M1", "Mesoscale"), (.other, "M1", "Custom")] ∧
      nc.attrs.lookup "scene_id" = some text.toList ∧
      nc.path = "./OR_GLM-L2-GLM".toList ++ (letter.toList ++ ("-M3_".toList ++ rest)) := by
  obtain ⟨k, hk, hkf⟩ := List.getElem_of_mem hf
  have hkf : files[k]? = some f := by rw [List.getElem?_eq_getElem hk, hkf]
  obtain ⟨-, -, start, stop, -, -, -, -, -, -, -, -, -, -, -, letter, text, hs, ht, -, hp⟩ :=
    described_times h hr hkf hn
  obtain ⟨-, -, -, -, h5⟩ := writeImagery_ok h
  obtain ⟨-, -, -, -, -, hi, -, -⟩ := h5 k f hkf
  have hm2 : f.scene ≠ .meso2 := by
    by_cases hl : 2 ≤ f.x.length ∧ 1 ≤ f.y.length
    · obtain ⟨scene, res, _, _, h1, -, -, -, h2⟩ := (C44_exact s.table f.x f.y).1 hl
      rw [hi] at h1
      cases h1
      exact h2.2.2.2.2
    · obtain ⟨e, he⟩ := (C44_exact s.table f.x f.y).2 hl
      rw [hi] at he
      cases he
  refine ⟨letter, text, m.first.platform ++ ("_s".toList ++ (strftimeStamp start ++ ("_e".toList ++
    (strftimeStamp stop ++ ("_c".toList ++ (strftimeStamp created ++ ".nc".toList)))))), ?_, ht, ?_⟩
  · generalize f.scene = scene at hs hm2
    cases scene <;> first | exact absurd rfl hm2 | (cases hs; simp)
  · rw [hp]
    unfold datasetName
    simp only [List.append_assoc]
    rfl

/-- The last of the known resolutions that is close to the spacing. -/
theorem resolution_fold (dx : Rat) : ∀ (l : List (String × Rat)) (r : Resolution),
    (∀ q ∈ l, ¬ Near q.2 dx) → l.foldl (fun r km => if allclose km.2 dx then .known km.1 else r) r = r := by
  intro l
  induction l with
  | nil => intro r _; rfl
  | cons q l ih =>
    intro r h
    have hq : allclose q.2 dx = false := by
      have := h q (by simp)
      simpa [allclose, Near] using this
    rw [List.foldl_cons, hq]
    exact ih r fun p hp => h p (by simp [hp])

/-- The text between the occurrences of ".0" is what is left. -/
theorem removePointZero_pieces (pieces : List Text) (h : ∀ p ∈ pieces, ¬ ['.', '0'] <:+: p) :
    removePointZero (List.intercalate ['.', '0'] pieces) = pieces.flatten := by
  have one : ∀ p : Text, ¬ ['.', '0'] <:+: p → removePointZero p = p := by
    intro p
    induction p with
    | nil => intro _; rfl
    | cons c p ih =>
      intro hp
      have h1 := ih fun h0 => hp (List.infix_cons h0)
      unfold removePointZero
      split
      · next rest heq =>
        exact absurd ⟨[], rest, by rw [heq]; rfl⟩ hp
      · next c' rest _ heq =>
        obtain ⟨rfl, rfl⟩ := List.cons.inj heq
        rw [h1]
      · next heq => cases heq
  have two : ∀ (p rest : Text), ¬ ['.', '0'] <:+: p →
      removePointZero (p ++ '.' :: '0' :: rest) = p ++ removePointZero rest := by
    intro p rest
    induction p with
    | nil => intro _; rfl
    | cons c p ih =>
      intro hp
      have h1 := ih fun h0 => hp (List.infix_cons h0)
      rw [List.cons_append, List.cons_append, ← h1]
      conv_lhs => unfold removePointZero
      split
      · next r heq =>
        exfalso
        obtain ⟨e1, e2⟩ := List.cons.inj heq
        subst e1
        cases p with
        | nil =>
          have := (List.cons.inj e2).1
          revert this; decide
        | cons d p =>
          have := (List.cons.inj e2).1
          subst this
          exact hp ⟨[], p, rfl⟩
      · next c' r _ heq =>
        obtain ⟨rfl, rfl⟩ := List.cons.inj heq
        rfl
      · next heq => cases heq
  induction pieces with
  | nil => rfl
  | cons p ps ih =>
    cases ps with
    | nil => simpa [List.intercalate] using one p (h p (by simp))
    | cons q ps =>
      have := ih fun r hr => h r (by simp [hr])
      rw [List.flatten_cons, ← this, ← two p _ (h p (by simp))]
      simp [List.intercalate]

/-- C111: the resolution that is stated: the last one of the table that is close to the spacing of the first two
columns, without each ".0" of its name; in microradians, rounded, if there is none. -/
theorem C111_resolution_partial (s : ImageSetup) (pad : Option (PySlice × PySlice)) (sc : Bool) (g g' : Grids)
    (files : List ImageFile) (h : writeImagery s pad sc g = .ok (files, g')) (m : MetaSetup)
    (created : DateTime) (hr : ValidTime m.tRef) (f : ImageFile) (hf : f ∈ files) (nc : NcFile)
    (hn : describeFile m created f = .ok nc) (x0 x1 : Rat) (hx0 : f.x[0]? = some x0) (hx1 : f.x[1]? = some x1) :
    (∀ before after km rad, s.table.resolutions = before ++ (km, rad) :: after → Near rad |x1 - x0| →
      (∀ q ∈ after, ¬ Near q.2 |x1 - x0|) →
      ∀ pieces : List Text, (∀ p ∈ pieces, ¬ ['.', '0'] <:+: p) → km.toList = List.intercalate ['.', '0'] pieces →
      nc.attrs.lookup "spatial_resolution" = some (pieces.flatten ++ " at nadir".toList)) ∧
    ((∀ q ∈ s.table.resolutions, ¬ Near q.2 |x1 - x0|) →
      ∃ n : Int, abs ((n : Rat) - |x1 - x0| * 1000000) ≤ 1 / 2 ∧
        nc.attrs.lookup "spatial_resolution" = some (decimal n ++ "microradian at nadir".toList)) := by
  obtain ⟨k, hk, hkf⟩ := List.getElem_of_mem hf
  have hkf : files[k]? = some f := by rw [List.getElem?_eq_getElem hk, hkf]
  obtain ⟨-, -, start, stop, -, -, -, -, -, -, -, -, -, -, hres, -⟩ := described_times h hr hkf hn
  obtain ⟨-, -, -, -, h5⟩ := writeImagery_ok h
  obtain ⟨-, -, -, -, -, hi, -, -⟩ := h5 k f hkf
  have hfold : f.resolution = s.table.resolutions.foldl
      (fun r km => if allclose km.2 |x1 - x0| then .known km.1 else r)
      (Resolution.microradians (npAround (|x1 - x0| * 1000000))) := by
    unfold inferScene at hi
    rw [hx0, hx1] at hi
    simp only [bind, Except.bind, pure, Except.pure] at hi
    cases ha : span f.x with
    | error e => rw [ha] at hi; cases hi
    | ok a =>
      cases hb : span f.y with
      | error e => rw [ha, hb] at hi; cases hi
      | ok b =>
        rw [ha, hb] at hi
        simp only [Except.ok.injEq, Prod.mk.injEq] at hi
        exact hi.2.symm
  constructor
  · intro before after km rad htab hnear hafter pieces hp hkm
    rw [← removePointZero_pieces pieces hp, ← hkm]
    rw [hres, hfold, htab, List.foldl_append, List.foldl_cons]
    have hq : allclose rad |x1 - x0| = true := by simpa [allclose, Near] using hnear
    simp only [hq, if_true]
    rw [resolution_fold _ _ _ hafter]
    rfl
  · intro hnone
    rw [hres, hfold, resolution_fold _ _ _ hnone]
    refine ⟨_, ?_, rfl⟩
    have hb := npAround_bounds (|x1 - x0| * 1000000)
    rw [abs_le]
    constructor <;> linarith [hb.1, hb.2]

/-- Names of resolutions and their pieces. -/
example : "2.0km".toList = List.intercalate ['.', '0'] ["2".toList, "km".toList] ∧
    "0.5km".toList = List.intercalate ['.', '0'] ["0.5km".toList] ∧ (∀ p ∈ ["2".toList, "km".toList, "0.5km".toList],
      ¬ ['.', '0'] <:+: p) := by decide +kernel

/-! ## C111: the files as a time series -/

/-- A reader of time stamps: nanoseconds after some point in time, for the years of the 64 bit numbers. -/
def ReadsStamps (epoch : Int) (stamp : Text → Except Err Int) : Prop :=
  ∀ t text, ValidTime t → 1678 ≤ t.year → t.year ≤ 2261 → IsIsoZ t text →
    stamp text = .ok (((instant t : Int) - epoch) * 1000)

/-- A time of up to a year later is in the same year or the next. -/
theorem year_after {ref t : DateTime} (hr : ValidTime ref) (ht : ValidTime t) (h0 : instant ref ≤ instant t)
    (h1 : instant t ≤ instant ref + 365 * 86400000000) : ref.year ≤ t.year ∧ t.year ≤ ref.year + 1 := by
  have a := yearDay_le ref.year ref.month ref.day hr.month hr.day
  have b := yearDay_le t.year t.month t.day ht.month ht.day
  have c1 := hr.hour
  have c2 := hr.minute
  have c3 := hr.second
  have c4 := hr.microsecond
  have d1 := ht.hour
  have d2 := ht.minute
  have d3 := ht.second
  have d4 := ht.microsecond
  unfold instant dayNumber at h0 h1
  have e : ∀ y, ((List.range (y + 1)).map daysInYear).sum = ((List.range y).map daysInYear).sum + daysInYear y := by
    intro y
    rw [List.range_succ, List.map_append, List.sum_append]
    simp
  constructor
  · by_contra hc
    have m := sum_range_mono daysInYear (show t.year + 1 ≤ ref.year by omega)
    rw [e] at m
    omega
  · by_contra hc
    have m := sum_range_mono daysInYear (show ref.year + 1 + 1 ≤ t.year by omega)
    rw [e, e] at m
    have hy := daysInYear_cases (ref.year + 1)
    omega

/-- What is read of a file. -/
theorem openFile_described {s : ImageSetup} {pad : Option (PySlice × PySlice)} {sc : Bool} {g g' : Grids}
    {files : List ImageFile} (h : writeImagery s pad sc g = .ok (files, g')) {m : MetaSetup}
    (hr : ValidTime m.tRef) (h0 : 1678 ≤ m.tRef.year) (h1 : m.tRef.year ≤ 2260)
    (ht : ∀ t ∈ s.tEdges, 0 ≤ t ∧ t ≤ 365 * 86400) {epoch : Int} {stamp : Text → Except Err Int}
    (hst : ReadsStamps epoch stamp) (value : NcFile → String → FrameValues) {k : Nat} {f : ImageFile}
    (hf : files[k]? = some f) {nc : NcFile} {created : DateTime} (hn : describeFile m created f = .ok nc) :
    openFile stamp value nc = .ok ⟨((instant m.tRef : Int) + npAround (f.start * 1000000) - epoch) * 1000,
      ((instant m.tRef : Int) + npAround (f.stop * 1000000) - epoch) * 1000, value nc⟩ := by
  obtain ⟨t0, t1, start, stop, e0, e1, ⟨i0, j0⟩, ⟨i1, j1⟩, a, b, -⟩ := described_times h hr hf hn
  have hfr := (C41_frames s pad sc g g' files h).2.1 k f hf
  rw [e0, e1] at hfr
  obtain ⟨e, e'⟩ := hfr
  cases e
  cases e'
  have key : ∀ v t, v ∈ s.tEdges → ValidTime t → (instant t : Int) = instant m.tRef + npAround (v * 1000000) →
      1678 ≤ t.year ∧ t.year ≤ 2261 := by
    intro v t hv hvt hi
    have lo := (npAround_mono_int (q := v * 1000000) (n := 0)).1 (by push_cast; linarith [(ht v hv).1])
    have hi' := (npAround_mono_int (q := v * 1000000) (n := 365 * 86400000000)).2 (by
      push_cast; linarith [(ht v hv).2])
    have := year_after hr hvt (by omega) (by omega)
    omega
  have y0 := key _ _ (List.mem_of_getElem? e0) i0.1 j0
  have y1 := key _ _ (List.mem_of_getElem? e1) i1.1 j1
  have r0 := hst start _ i0.1 y0.1 y0.2 (isoformat_isIsoZ i0.1)
  have r1 := hst stop _ i1.1 y1.1 y1.2 (isoformat_isIsoZ i1.1)
  unfold openFile NcFile.attr
  rw [a, b]
  simp only [bind, Except.bind, r0, r1, pure, Except.pure, j0, j1]

/-- C111: the files of a call, opened as a time series, are at the times where their frames start, to the microsecond,
and cover the time from the first to the last edge of the frames. -/
theorem C111_series_partial (s : ImageSetup) (pad : Option (PySlice × PySlice)) (sc : Bool) (g g' : Grids)
    (files : List ImageFile) (h : writeImagery s pad sc g = .ok (files, g')) (m : MetaSetup)
    (hr : ValidTime m.tRef) (h0 : 1678 ≤ m.tRef.year) (h1 : m.tRef.year ≤ 2260)
    (ht : ∀ t ∈ s.tEdges, 0 ≤ t ∧ t ≤ 365 * 86400) (hs : s.tEdges.Pairwise (· ≤ ·)) (hne : 2 ≤ s.tEdges.length)
    (ncs : List NcFile) (hncs : List.Forall₂ (fun f nc => ∃ created, describeFile m created f = .ok nc) files ncs)
    (epoch : Int) (stamp : Text → Except Err Int) (hst : ReadsStamps epoch stamp)
    (value : NcFile → String → FrameValues) (names : List String) :
    ∃ data series, ncs.mapM (openFile stamp value) = .ok data ∧ openGlmTimeSeries names data = .ok series ∧
      series.frames.length = s.tEdges.length - 1 ∧
      (∀ (k : Nat) (frame : Frame) (t : Rat), series.frames[k]? = some frame → s.tEdges[k]? = some t →
        |(frame.time : Rat) - (((instant m.tRef : Rat) - epoch) * 1000 + t * 1000000000)| ≤ 500) ∧
      (∀ t, s.tEdges.head? = some t →
        |(series.coverageStart : Rat) - (((instant m.tRef : Rat) - epoch) * 1000 + t * 1000000000)| ≤ 500) ∧
      (∀ t, s.tEdges.getLast? = some t →
        |(series.coverageEnd : Rat) - (((instant m.tRef : Rat) - epoch) * 1000 + t * 1000000000)| ≤ 500) := by
  obtain ⟨hlen, hfr, -⟩ := C41_frames s pad sc g g' files h
  have hlen2 := hncs.length_eq
  let T : Rat → Int := fun t => ((instant m.tRef : Int) + npAround (t * 1000000) - epoch) * 1000
  have hT : ∀ t, |((T t : Int) : Rat) - (((instant m.tRef : Rat) - epoch) * 1000 + t * 1000000000)| ≤ 500 := by
    intro t
    have hb := npAround_bounds (t * 1000000)
    show |((((instant m.tRef : Int) + npAround (t * 1000000) - epoch) * 1000 : Int) : Rat) - _| ≤ _
    push_cast
    rw [abs_le]
    constructor <;> linarith [hb.1, hb.2]
  have hmono : ∀ a b, a ≤ b → T a ≤ T b := by
    intro a b hab
    have := npAround_mono (p := a * 1000000) (q := b * 1000000) (by linarith)
    show ((instant m.tRef : Int) + npAround (a * 1000000) - epoch) * 1000 ≤
      ((instant m.tRef : Int) + npAround (b * 1000000) - epoch) * 1000
    omega
  -- what is read of each file
  have hread : List.Forall₂ (fun nc (d : ImageData) => openFile stamp value nc = .ok d) ncs
      (List.zipWith (fun f nc => (⟨T f.start, T f.stop, value nc⟩ : ImageData)) files ncs) := by
    rw [List.forall₂_iff_get]
    refine ⟨by rw [List.length_zipWith, hlen2, Nat.min_self], ?_⟩
    intro k hk hk'
    have hkf : k < files.length := by rw [hlen2]; exact hk
    obtain ⟨created, hd⟩ := (List.forall₂_iff_get.mp hncs).2 k hkf hk
    have := openFile_described h hr h0 h1 ht hst value (List.getElem?_eq_getElem hkf) hd
    simp only [List.get_eq_getElem, List.getElem_zipWith] at this ⊢
    exact this
  have hdata := mapM_of_forall₂ hread
  have hlen3 : (List.zipWith (fun f nc => (⟨T f.start, T f.stop, value nc⟩ : ImageData)) files ncs).length =
      s.tEdges.length - 1 := by
    rw [List.length_zipWith, ← hlen2, Nat.min_self, hlen]
  have hget : ∀ (k : Nat) (d : ImageData),
      (List.zipWith (fun f nc => (⟨T f.start, T f.stop, value nc⟩ : ImageData)) files ncs)[k]? = some d →
      ∃ t0 t1, s.tEdges[k]? = some t0 ∧ s.tEdges[k + 1]? = some t1 ∧ d.start = T t0 ∧ d.stop = T t1 := by
    intro k d hk
    rw [List.getElem?_zipWith] at hk
    cases hf : files[k]? with
    | none => rw [hf] at hk; cases hk
    | some f =>
      cases hc : ncs[k]? with
      | none => rw [hf, hc] at hk; cases hk
      | some nc =>
        rw [hf, hc] at hk
        cases hk
        exact ⟨f.start, f.stop, (hfr k f hf).1, (hfr k f hf).2, rfl, rfl⟩
  generalize List.zipWith (fun f nc => (⟨T f.start, T f.stop, value nc⟩ : ImageData)) files ncs = data at *
  obtain ⟨series, c1, -, c3, c4, c5, c6⟩ := C61_series names data (by
    intro hc; rw [hc] at hlen3; simp at hlen3; omega)
  have hex : ∀ k, k < s.tEdges.length - 1 → ∃ d, data[k]? = some d := fun k hk =>
    ⟨data[k], List.getElem?_eq_getElem _⟩
  have hpair := List.pairwise_iff_getElem.mp hs
  refine ⟨data, series, by simpa using hdata, c1, by rw [c3, hlen3], ?_, ?_, ?_⟩
  · intro k frame t hk htk
    have hkl : k < data.length := by rw [← c3]; exact (List.getElem?_eq_some_iff.mp hk).1
    obtain ⟨fr, g1, g2, -⟩ := c4 k data[k] (List.getElem?_eq_getElem hkl)
    rw [hk] at g1
    cases g1
    obtain ⟨t0, t1, q0, -, q2, -⟩ := hget k _ (List.getElem?_eq_getElem hkl)
    rw [htk] at q0
    cases q0
    rw [g2, q2]
    exact hT t
  · intro t hh
    have h00 : s.tEdges[0]? = some t := by rw [← hh, List.head?_eq_getElem?]
    have e : series.coverageStart = T t := by
      obtain ⟨hm, hle⟩ := c5
      apply le_antisymm
      · obtain ⟨d, hd⟩ := hex 0 (by omega)
        obtain ⟨t0, -, q0, -, q2, -⟩ := hget 0 d hd
        rw [h00] at q0
        cases q0
        rw [← q2]
        exact hle _ (List.mem_map.mpr ⟨d, List.mem_of_getElem? hd, rfl⟩)
      · obtain ⟨d, hd, he⟩ := List.mem_map.mp hm
        obtain ⟨k, hk, hkd⟩ := List.getElem_of_mem hd
        obtain ⟨t0, -, q0, -, q2, -⟩ := hget k d (by rw [List.getElem?_eq_getElem hk, hkd])
        rw [← he, q2]
        apply hmono
        obtain ⟨l0, v0⟩ := List.getElem?_eq_some_iff.mp h00
        obtain ⟨lk, vk⟩ := List.getElem?_eq_some_iff.mp q0
        rcases Nat.eq_zero_or_pos k with rfl | hpos
        · rw [← v0, ← vk]
        · rw [← v0, ← vk]
          exact hpair 0 k l0 lk hpos
    rw [e]
    exact hT t
  · intro t hh
    have hll : s.tEdges[s.tEdges.length - 1]? = some t := by rw [← hh, List.getLast?_eq_getElem?]
    have e : series.coverageEnd = T t := by
      obtain ⟨hm, hle⟩ := c6
      apply le_antisymm
      · obtain ⟨d, hd, he⟩ := List.mem_map.mp hm
        obtain ⟨k, hk, hkd⟩ := List.getElem_of_mem hd
        obtain ⟨-, t1, -, q1, -, q3⟩ := hget k d (by rw [List.getElem?_eq_getElem hk, hkd])
        rw [← he, q3]
        apply hmono
        obtain ⟨l0, v0⟩ := List.getElem?_eq_some_iff.mp hll
        obtain ⟨lk, vk⟩ := List.getElem?_eq_some_iff.mp q1
        rcases Nat.lt_or_ge (k + 1) (s.tEdges.length - 1) with hlt | hge
        · rw [← v0, ← vk]
          exact hpair _ _ lk l0 hlt
        · have : k + 1 = s.tEdges.length - 1 := by omega
          rw [← v0, ← vk]
          simp only [this]
          exact le_refl _
      · obtain ⟨d, hd⟩ := hex (s.tEdges.length - 2) (by omega)
        obtain ⟨-, t1, -, q1, -, q3⟩ := hget _ d hd
        rw [show s.tEdges.length - 2 + 1 = s.tEdges.length - 1 by omega, hll] at q1
        cases q1
        rw [← q3]
        exact hle _ (List.mem_map.mpr ⟨d, List.mem_of_getElem? hd, rfl⟩)
    rw [e]
    exact hT t

/-! ## C111: the images of a gridding call -/

/-- The products with their descriptions and units; counts are per area and time, as in the text that is derived from
the spacing and the frame length. -/
def productTable (densityUnit : String) : List (String × String × String) :=
  [("flash_extent_density", "Flash extent density", densityUnit),
   ("flash_centroid_density", "Flash centroid density", densityUnit),
   ("average_flash_area", "Average flash area", "km^2 per flash"),
   ("total_energy", "Total radiant energy", "nJ"),
   ("group_extent_density", "Group extent density", densityUnit),
   ("group_centroid_density", "Group centroid density", densityUnit),
   ("average_group_area", "Average group area", "km^2 per group"),
   ("minimum_flash_area", "Minimum flash area", "km^2")]

/-- C111: with the tables of the gridder, every file has the eight products, each over the pixels of the file, with its
own description and unit. -/
theorem C111_products_partial (s : ImageSetup) (pad : Option (PySlice × PySlice)) (sc : Bool) (g g' : Grids)
    (files : List ImageFile) (h : writeImagery s pad sc g = .ok (files, g')) (densityUnit : String)
    (hs : s.names = (lutOutputSetup densityUnit).names) (hg : g.fields.length = 8) (m : MetaSetup)
    (hm : m.descriptions = (lutOutputSetup densityUnit).descriptions)
    (hu : m.units = (lutOutputSetup densityUnit).units)
    (created : DateTime) (f : ImageFile) (hf : f ∈ files) (nc : NcFile) (hn : describeFile m created f = .ok nc) :
    ∀ name desc unit, (name, desc, unit) ∈ productTable densityUnit →
      ∃ v, nc.vars.lookup name = some v ∧ OverPixels nc v ∧ (name, v.data) ∈ f.fields ∧
        attrOf v "standard_name" = some (.text name) ∧ attrOf v "long_name" = some (.text desc) ∧
        attrOf v "units" = some (.text unit) := by
  obtain ⟨k, hk, hkf⟩ := List.getElem_of_mem hf
  have hkf : files[k]? = some f := by rw [List.getElem?_eq_getElem hk, hkf]
  obtain ⟨-, -, -, -, h5⟩ := writeImagery_ok h
  obtain ⟨-, -, -, -, -, -, -, ef⟩ := h5 k f hkf
  have hnames : f.fields.map Prod.fst = (lutOutputSetup densityUnit).names := by
    rw [ef, List.map_map, ← hs]
    unfold fieldList
    have e : (Prod.fst ∘ fun q : Nat × String => (q.2, imageOf g' (pad.getD (⟨none, none⟩, ⟨none, none⟩)).1
          (pad.getD (⟨none, none⟩, ⟨none, none⟩)).2 k q.1)) = Prod.snd := rfl
    rw [e, List.map_snd_zip]
    rw [hs, List.length_range, hg]
    rfl
  have hlen : f.fields.length = 8 := by
    have := congrArg List.length hnames
    rw [List.length_map] at this
    exact this
  obtain ⟨-, -, -, hvars, -⟩ := C111_variables_partial m created f nc hn (by
    rw [hnames, show (lutOutputSetup densityUnit).names = (lutOutputSetup "").names from rfl]; decide) (by rw [hm, hlen]; rfl) (by rw [hu, hlen]; rfl)
  intro name desc unit hmem
  obtain ⟨i, hi, he⟩ := List.getElem_of_mem hmem
  have hi8 : i < 8 := hi
  obtain ⟨p, hp⟩ : ∃ p, f.fields[i]? = some p := ⟨_, List.getElem?_eq_getElem (by omega)⟩
  have hpn : (lutOutputSetup densityUnit).names[i]? = some p.1 := by
    rw [← hnames, List.getElem?_map, hp]
    rfl
  have hall : (lutOutputSetup densityUnit).names[i]? = some name ∧
      (lutOutputSetup densityUnit).descriptions[i]? = some desc ∧
      (lutOutputSetup densityUnit).units[i]? = some unit := by
    interval_cases i <;> (cases he; exact ⟨rfl, rfl, rfl⟩)
  rw [hall.1] at hpn
  cases hpn
  obtain ⟨v, h1, h2, h3, h4, h5, h6⟩ := hvars i p.1 p.2 desc unit hp (by rw [hm]; exact hall.2.1)
    (by rw [hu]; exact hall.2.2)
  exact ⟨v, h1, h2, by rw [h3]; exact List.mem_of_getElem? hp, h4, h5, h6⟩

/-! ## C111: what is wrong -/

/-- C111, in full: besides the above, the number of flags of quality that is stated is the number of their values, and
a file with the name of a mesoscale sector states that it is one. -/
def C111_full : Prop :=
  ∀ (s : ImageSetup) (pad : Option (PySlice × PySlice)) (sc : Bool) (g g' : Grids) (files : List ImageFile),
    writeImagery s pad sc g = .ok (files, g') → ∀ (m : MetaSetup) (created : DateTime), ValidTime m.tRef →
    ∀ f ∈ files, ∀ nc, describeFile m created f = .ok nc →
      (∃ q number flags, nc.vars.lookup "DQF" = some q ∧ attrOf q "number_of_qf_values" = some (.nums [number]) ∧
        attrOf q "flag_values" = some (.nums flags) ∧ number = flags.length) ∧
      ("./OR_GLM-L2-GLMM1-".toList <+: nc.path → nc.attrs.lookup "scene_id" = some "Mesoscale".toList)

/-- C111: six flags of quality are announced and two are listed, in every file. -/
theorem C111_flags (m : MetaSetup) (created : DateTime) (f : ImageFile) (nc : NcFile)
    (hn : describeFile m created f = .ok nc) (hnd : "DQF" ∉ f.fields.map Prod.fst) :
    ∃ q, nc.vars.lookup "DQF" = some q ∧ attrOf q "number_of_qf_values" = some (.nums [6]) ∧
      attrOf q "flag_values" = some (.nums [0, 1]) := by
  obtain ⟨start, stop, attrs, name, vars, -, -, -, -, h5, rfl⟩ := describeFile_ok hn
  have key : ∀ (l : List ((String × Image) × String × String)) (d vars : List (String × NcVar)),
      (∀ q ∈ l, q.1.1 ≠ "DQF") → l.foldlM (addField f.y.length f.x.length) d = .ok vars →
      vars.lookup "DQF" = d.lookup "DQF" := by
    intro l
    induction l with
    | nil => intro d vars _ h; cases h; rfl
    | cons q l ih =>
      intro d vars hq h
      rw [List.foldlM_cons] at h
      cases ha : addField f.y.length f.x.length d q with
      | error e => rw [ha] at h; cases h
      | ok d' =>
        rw [ha] at h
        rw [ih d' vars (fun p hp => hq p (by simp [hp])) h]
        unfold addField at ha
        split at ha
        · cases ha
          have hne := hq q (by simp)
          generalize imageVar q.1.2 q.1.1 q.2.1 q.2.2 ["y", "x"] = v
          generalize q.1.1 = nm at hne
          unfold assign
          split
          · clear ih h
            rename_i hany
            clear hany
            induction d with
            | nil => rfl
            | cons e d ihd =>
              obtain ⟨a, b⟩ := e
              rw [List.map_cons, List.lookup_cons, ihd]
              by_cases hab : a = nm
              · subst hab
                have hb : ("DQF" == a) = false := by simpa using Ne.symm hne
                simp [List.lookup_cons, hb]
              · simp only [hab, if_false, List.lookup_cons]
          · rw [List.lookup_append]
            have hb : ("DQF" == nm) = false := by simpa using Ne.symm hne
            cases hd : d.lookup "DQF" with
            | some w => rfl
            | none => simp [List.lookup_cons, hb]
        · cases ha
  have := key _ _ vars (by
    intro q hq he
    exact hnd (List.mem_map.mpr ⟨q.1, (List.of_mem_zip hq).1, he⟩)) h5
  exact ⟨dqfVar ["y", "x"] f.y.length f.x.length, this, rfl, rfl⟩

/-- C111: a file of a sector that is none of the known ones has the name of the first mesoscale sector and states
`Custom`. -/
theorem C111_sector (s : ImageSetup) (pad : Option (PySlice × PySlice)) (sc : Bool) (g g' : Grids)
    (files : List ImageFile) (h : writeImagery s pad sc g = .ok (files, g')) (m : MetaSetup)
    (created : DateTime) (hr : ValidTime m.tRef) (f : ImageFile) (hf : f ∈ files) (nc : NcFile)
    (hn : describeFile m created f = .ok nc) :
    "./OR_GLM-L2-GLMM1-".toList <+: nc.path ∧ nc.attrs.lookup "scene_id" ≠ some "Mesoscale".toList ↔
      f.scene = .other := by
  obtain ⟨letter, text, rest, h1, h2, h3⟩ := C111_scene_partial s pad sc g g' files h m created hr f hf nc hn
  rw [h2, h3]
  simp only [List.mem_cons, List.not_mem_nil, or_false, Prod.mk.injEq] at h1
  rcases h1 with ⟨e, rfl, rfl⟩ | ⟨e, rfl, rfl⟩ | ⟨e, rfl, rfl⟩ | ⟨e, rfl, rfl⟩ <;> rw [e]
  · simp
  · simp
  · simp
  · constructor
    · intro _; rfl
    · intro _; exact ⟨⟨"M3_".toList ++ rest, by simp⟩, by decide⟩

/-- A time and a file for the instances. -/
def metaSample : MetaSetup :=
  ⟨⟨2018, 12, 31, 23, 59, 0, 0⟩, -75, ⟨"G16".toList, "GOES-East".toList, "GLM-1".toList⟩, ["Flash extent density"],
    ["Count"]⟩

theorem metaSample_valid : ValidTime metaSample.tRef := by
  constructor <;> decide

/-- The second frame starts with the new year. -/
def metaView (o : List ImageFile × Grids) : List (List String) :=
  o.1.map fun f => match describeFile metaSample ⟨2019, 1, 2, 0, 0, 0, 0⟩ f with
    | .ok nc => (nc.path :: ["time_coverage_start", "time_coverage_end", "scene_id"].map fun k =>
        (nc.attrs.lookup k).getD []).map String.ofList
    | .error _ => []

example : (writeImagery indexSetup none false indexGrids).toOption.map metaView = some [
    ["./OR_GLM-L2-GLMM1-M3_G16_s20183652359000_e20190010000000_c20190020000000.nc",
      "2018-12-31T23:59:00Z", "2019-01-01T00:00:00Z", "Custom"],
    ["./OR_GLM-L2-GLMM1-M3_G16_s20190010000000_e20190010001000_c20190020000000.nc",
      "2019-01-01T00:00:00Z", "2019-01-01T00:01:00Z", "Custom"]] := by
  decide +kernel

theorem C111_full_false : ¬ C111_full := by
  intro hfull
  cases hw : writeImagery indexSetup none false indexGrids with
  | error e =>
    have : (writeImagery indexSetup none false indexGrids).toOption.isSome = true := by decide +kernel
    rw [hw] at this
    cases this
  | ok o =>
    obtain ⟨files, g'⟩ := o
    have hlen : files.length = 2 := (C41_frames _ _ _ _ _ _ hw).1
    have hf : files[0]'(by omega) ∈ files := List.getElem_mem _
    obtain ⟨nc, hn⟩ := C111_complete_partial _ _ _ _ _ _ hw rfl rfl metaSample ⟨2019, 1, 2, 0, 0, 0, 0⟩
      metaSample_valid (by decide) (by decide +kernel) _ hf
    obtain ⟨⟨q, n, flags, h1, h2, h3, h4⟩, -⟩ := hfull _ _ _ _ _ _ hw _ _ metaSample_valid _ hf _ hn
    obtain ⟨-, -, -, -, h5⟩ := writeImagery_ok hw
    obtain ⟨-, -, -, -, -, -, -, ef⟩ := h5 0 _ (List.getElem?_eq_getElem (by omega))
    obtain ⟨q', a1, a2, a3⟩ := C111_flags _ _ _ _ hn (by
      rw [ef, List.map_map]
      show "DQF" ∉ ["flash_extent_density"]
      decide)
    rw [a1] at h1
    cases h1
    rw [a2] at h2
    rw [a3] at h3
    cases h2
    cases h3
    cases h4

/-- The products of a gridding call. -/
example : tinySetup.names = (lutOutputSetup "Count").names ∧ (tinyGrids 1 1).fields.length = 8 ∧
    (writeImagery tinySetup none true (tinyGrids 1 1)).toOption.map (fun o => o.1.map fun f =>
      match describeFile { metaSample with descriptions := (lutOutputSetup "Count").descriptions,
                                           units := (lutOutputSetup "Count").units } metaSample.tRef f with
      | .ok nc => nc.vars.map fun e => (e.1, e.2.attrs.lookup "units")
      | .error _ => []) =
    some [[("goes_imager_projection", none), ("DQF", some (.text "1")),
      ("nominal_satellite_subpoint_lat", some (.text "degrees_north")),
      ("nominal_satellite_subpoint_lon", some (.text "degrees_east")),
      ("flash_extent_density", some (.text "Count")), ("flash_centroid_density", some (.text "Count")),
      ("average_flash_area", some (.text "km^2 per flash")), ("total_energy", some (.text "nJ")),
      ("group_extent_density", some (.text "Count")), ("group_centroid_density", some (.text "Count")),
      ("average_group_area", some (.text "km^2 per group")), ("minimum_flash_area", some (.text "km^2"))]] := by
  decide +kernel

/-- A reader of time stamps. -/
example : ReadsStamps 62 (fun text => (readIso text).map fun t => ((instant t : Int) - 62) * 1000) := by
  intro t text ht _ _ h
  simp only [readIso_ok ht h, Except.map]

end Verif.Props
