import Verif.Model.Values
import Verif.Props.Dataset
import Mathlib.Tactic.FieldSimp
import Mathlib.Tactic.Linarith
import Mathlib.Tactic.Ring
import Mathlib.Tactic.NormNum

/-!
# C51-C54, C64, C78, C79: corrections of values and times
-/

namespace Verif.Props

open Verif.Py Verif.Model Verif.Spec Verif.Proofs

/-! ## Specification -/

/-- `after` holds the values of `before` times a factor, with a new unit. -/
def Converted (factor : Rat) (units : String) (before after : FloatVar) : Prop :=
  after.units = some units ∧ after.values = before.values.map (Option.map (· * factor))

/-- All that `encoding` must hold. -/
def Encoded (v : FloatVar) : Prop :=
  v.addOffset ≠ none ∧ v.scaleFactor ≠ none ∧ v.fillValue ≠ none

instance (v : FloatVar) : Decidable (Encoded v) := inferInstanceAs (Decidable (_ ∧ _ ∧ _))

/-- A dataset as in the files: all in J and m2. -/
def sampleVars : ValueVars where
  flashEnergy := ⟨[some 3, some 4], some "J", some 0, some 1, none⟩
  groupEnergy := ⟨[some 3, none], some "J", some 0, some 1, none⟩
  eventEnergy := ⟨[some 0, some 3, some 1, none], some "J", some (1 / 2), some (3 / 2), none⟩
  flashArea := ⟨[none, some 5000000], some "m2", some 0, some 152601, some 65535⟩
  groupArea := ⟨[some 7], some "km2", some 1, some 2, some 3⟩

theorem rescale_converted (factor : Rat) (units : String) (v : FloatVar) :
    Converted factor units v (rescale factor units v) := ⟨rfl, rfl⟩

/-! ## C52 -/

/-- C52: all three energies are converted, or there is an exception and nothing changed. -/
def C52_full : Prop := ∀ d : ValueVars,
  ((changeEnergyUnits d).2 = .ok () ∧
    Converted 1000000000 "nJ" d.flashEnergy (changeEnergyUnits d).1.flashEnergy ∧
    Converted 1000000000 "nJ" d.groupEnergy (changeEnergyUnits d).1.groupEnergy ∧
    Converted 1000000000 "nJ" d.eventEnergy (changeEnergyUnits d).1.eventEnergy) ∨
  ((∃ e, (changeEnergyUnits d).2 = .error e) ∧ (changeEnergyUnits d).1 = d)

theorem changeOne_J {v : FloatVar} (h : v.units = some "J") :
    changeOne v = (rescale 1000000000 "nJ" v, .ok ()) := by
  unfold changeOne; rw [h]; rfl

theorem changeOne_not {v : FloatVar} (h : v.units ≠ some "J") :
    changeOne v = (v, .error (if v.units = none then .attributeError else .valueError)) := by
  unfold changeOne
  cases hu : v.units with
  | none => rfl
  | some u =>
    have : u ≠ "J" := by rintro rfl; exact h hu
    simp only
    rw [if_neg this, if_neg (by simp)]

/-- C52, exactly: what is converted and what is raised, for every combination of units. -/
theorem C52_exact (d : ValueVars) :
    (d.flashEnergy.units = some "J" ∧ d.groupEnergy.units = some "J" ∧ d.eventEnergy.units = some "J" →
      changeEnergyUnits d = ({ d with
        flashEnergy := rescale 1000000000 "nJ" d.flashEnergy
        groupEnergy := rescale 1000000000 "nJ" d.groupEnergy
        eventEnergy := rescale 1000000000 "nJ" d.eventEnergy }, .ok ())) ∧
    (d.flashEnergy.units ≠ some "J" → changeEnergyUnits d =
      (d, .error (if d.flashEnergy.units = none then .attributeError else .valueError))) ∧
    (d.flashEnergy.units = some "J" → d.groupEnergy.units ≠ some "J" → changeEnergyUnits d =
      ({ d with flashEnergy := rescale 1000000000 "nJ" d.flashEnergy },
        .error (if d.groupEnergy.units = none then .attributeError else .valueError))) ∧
    (d.flashEnergy.units = some "J" → d.groupEnergy.units = some "J" →
      d.eventEnergy.units ≠ some "J" → changeEnergyUnits d =
      ({ d with flashEnergy := rescale 1000000000 "nJ" d.flashEnergy
                groupEnergy := rescale 1000000000 "nJ" d.groupEnergy },
        .error (if d.eventEnergy.units = none then .attributeError else .valueError))) := by
  unfold changeEnergyUnits andThen
  refine ⟨?_, ?_, ?_, ?_⟩
  · rintro ⟨h1, h2, h3⟩
    simp only [changeOne_J h1, changeOne_J h2, changeOne_J h3]
  · intro h1
    simp only [changeOne_not h1]
  · intro h1 h2
    simp only [changeOne_J h1, changeOne_not h2]
  · intro h1 h2 h3
    simp only [changeOne_J h1, changeOne_J h2, changeOne_not h3]

/-- C52, the part that holds: the conversion succeeds exactly if all are in J, and then converts all. -/
theorem C52_partial (d : ValueVars) :
    ((changeEnergyUnits d).2 = .ok () ↔ d.flashEnergy.units = some "J" ∧
      d.groupEnergy.units = some "J" ∧ d.eventEnergy.units = some "J") ∧
    ((changeEnergyUnits d).2 = .ok () →
      Converted 1000000000 "nJ" d.flashEnergy (changeEnergyUnits d).1.flashEnergy ∧
      Converted 1000000000 "nJ" d.groupEnergy (changeEnergyUnits d).1.groupEnergy ∧
      Converted 1000000000 "nJ" d.eventEnergy (changeEnergyUnits d).1.eventEnergy ∧
      (changeEnergyUnits d).1.flashArea = d.flashArea ∧
      (changeEnergyUnits d).1.groupArea = d.groupArea) := by
  obtain ⟨e1, e2, e3, e4⟩ := C52_exact d
  have hiff : (changeEnergyUnits d).2 = .ok () ↔ d.flashEnergy.units = some "J" ∧
      d.groupEnergy.units = some "J" ∧ d.eventEnergy.units = some "J" := by
    constructor
    · intro h
      by_cases h1 : d.flashEnergy.units = some "J"
      · by_cases h2 : d.groupEnergy.units = some "J"
        · by_cases h3 : d.eventEnergy.units = some "J"
          · exact ⟨h1, h2, h3⟩
          · rw [e4 h1 h2 h3] at h; cases h
        · rw [e3 h1 h2] at h; cases h
      · rw [e2 h1] at h; cases h
    · intro h; rw [e1 h]
  refine ⟨hiff, fun h => ?_⟩
  rw [e1 (hiff.mp h)]
  exact ⟨rescale_converted _ _ _, rescale_converted _ _ _, rescale_converted _ _ _, rfl, rfl⟩

/-- C52: a second conversion is refused and changes nothing. -/
theorem C52_once (d : ValueVars) (h : (changeEnergyUnits d).2 = .ok ()) :
    changeEnergyUnits (changeEnergyUnits d).1 = ((changeEnergyUnits d).1, .error .valueError) := by
  have hc := ((C52_partial d).2 h).1.1
  have := (C52_exact (changeEnergyUnits d).1).2.1 (by rw [hc]; decide)
  rw [this, hc]
  rfl

/-- C52 is violated: the energy of flashes is converted, then that of groups is refused. -/
theorem C52_full_false : ¬ C52_full := by
  intro h
  rcases h { sampleVars with groupEnergy := ⟨[some 3], some "nJ", none, none, none⟩ } with
    ⟨h1, -⟩ | ⟨-, h2⟩
  · revert h1; decide +kernel
  · revert h2; decide +kernel

example : (changeEnergyUnits sampleVars).2.toOption = some () := by decide +kernel

/-! ## C51 -/

theorem openValues_ok {checkArea changeEnergy : Bool} {d d' : ValueVars}
    (h : openValues checkArea changeEnergy d = (d', .ok ())) :
    ∃ d1, when_ checkArea (andThen checkAreaOverflow checkAreaUnits) d = (d1, .ok ()) ∧
      when_ changeEnergy (andThen eliminateZeroEnergy changeEnergyUnits) d1 = (d', .ok ()) := by
  unfold openValues andThen at h
  revert h
  show (match when_ checkArea (andThen checkAreaOverflow checkAreaUnits) d with
    | (d', .ok ()) => when_ changeEnergy (andThen eliminateZeroEnergy changeEnergyUnits) d'
    | (d', .error e) => (d', .error e)) = _ → _
  rcases when_ checkArea (andThen checkAreaOverflow checkAreaUnits) d with ⟨d1, e | u⟩
  · intro h; cases h
  · intro h; exact ⟨d1, rfl, h⟩

theorem andThen_ok {m n : Method} {d d' : ValueVars} (h : andThen m n d = (d', .ok ())) :
    ∃ d1, m d = (d1, .ok ()) ∧ n d1 = (d', .ok ()) := by
  unfold andThen at h
  rcases hm : m d with ⟨d1, e | u⟩
  · rw [hm] at h; cases h
  · rw [hm] at h; exact ⟨d1, rfl, h⟩

theorem andThen_of_ok {m n : Method} {d d1 : ValueVars} (h : m d = (d1, .ok ())) :
    andThen m n d = n d1 := by
  unfold andThen; rw [h]

theorem andThen_of_error {m n : Method} {d d1 : ValueVars} {e : Err} (h : m d = (d1, .error e)) :
    andThen m n d = (d1, .error e) := by
  unfold andThen; rw [h]

theorem overflow_ok {d d' : ValueVars} (h : checkAreaOverflow d = (d', .ok ())) :
    ∃ mf mg, maxArea d.flashArea = some mf ∧ maxArea d.groupArea = some mg ∧
      d' = { d with flashArea := fillMissing mf d.flashArea, groupArea := fillMissing mg d.groupArea } := by
  unfold checkAreaOverflow at h
  cases hf : maxArea d.flashArea with
  | none => rw [hf] at h; cases h
  | some mf =>
    cases hg : maxArea d.groupArea with
    | none => rw [hf, hg] at h; cases h
    | some mg =>
      rw [hf, hg] at h
      refine ⟨mf, mg, rfl, rfl, ?_⟩
      cases h; rfl

theorem areaUnits_m2 {v : FloatVar} (h : v.units = some "m2") :
    areaUnitsOne v = (rescale (1 / 1000000) "km2" v, .ok ()) := by
  unfold areaUnitsOne; rw [h]; rfl

theorem areaUnits_other {v : FloatVar} {u : String} (h : v.units = some u) (hu : u ≠ "m2") :
    areaUnitsOne v = (v, .ok ()) := by
  unfold areaUnitsOne; rw [h]; simp only; rw [if_neg hu]

theorem areaUnits_none {v : FloatVar} (h : v.units = none) :
    areaUnitsOne v = (v, .error .attributeError) := by
  unfold areaUnitsOne; rw [h]

theorem areaUnits_ok {d d' : ValueVars} (h : checkAreaUnits d = (d', .ok ())) :
    d.flashArea.units ≠ none ∧ d.groupArea.units ≠ none ∧
    d' = { d with flashArea := (areaUnitsOne d.flashArea).1
                  groupArea := (areaUnitsOne d.groupArea).1 } := by
  obtain ⟨d1, h1, h2⟩ := andThen_ok h
  have hf : d.flashArea.units ≠ none := by
    intro hn; rw [areaUnits_none hn] at h1; cases h1
  have e1 : d1 = { d with flashArea := (areaUnitsOne d.flashArea).1 } := by
    simp only [Prod.mk.injEq] at h1; exact h1.1.symm
  subst e1
  have hg : d.groupArea.units ≠ none := by
    intro hn
    simp only [areaUnits_none hn] at h2
    cases h2
  refine ⟨hf, hg, ?_⟩
  simp only [Prod.mk.injEq] at h2
  exact h2.1.symm

/-- The areas do not matter for the energies. -/
theorem checkArea_energy {checkArea : Bool} {d d1 : ValueVars}
    (h : when_ checkArea (andThen checkAreaOverflow checkAreaUnits) d = (d1, .ok ())) :
    d1.flashEnergy = d.flashEnergy ∧ d1.groupEnergy = d.groupEnergy ∧ d1.eventEnergy = d.eventEnergy := by
  cases checkArea
  · cases h; exact ⟨rfl, rfl, rfl⟩
  · obtain ⟨d2, h2, h3⟩ := andThen_ok (show andThen checkAreaOverflow checkAreaUnits d = (d1, .ok ()) from h)
    obtain ⟨mf, mg, -, -, rfl⟩ := overflow_ok h2
    obtain ⟨-, -, rfl⟩ := areaUnits_ok h3
    exact ⟨rfl, rfl, rfl⟩

theorem eliminate_ok {d d' : ValueVars} (h : eliminateZeroEnergy d = (d', .ok ())) :
    ∃ o s, d.eventEnergy.addOffset = some o ∧ d.eventEnergy.scaleFactor = some s ∧
      d' = { d with eventEnergy := { d.eventEnergy with
        values := d.eventEnergy.values.map fun v =>
          match v with
          | some e => if e < o + s then some (1 / 2 * (o + s)) else some e
          | none => none } } := by
  unfold eliminateZeroEnergy at h
  cases ho : d.eventEnergy.addOffset with
  | none => rw [ho] at h; cases h
  | some o =>
    cases hs : d.eventEnergy.scaleFactor with
    | none => rw [ho, hs] at h; cases h
    | some s =>
      rw [ho, hs] at h
      refine ⟨o, s, rfl, rfl, ?_⟩
      cases h; rfl

/-- C51: after opening every energy is positive, in nJ; energies of a step or more are kept, smaller
ones become half a step, and missing ones stay missing. -/
theorem C51_positive (checkArea : Bool) (d d' : ValueVars) (o s : Rat)
    (ho : d.eventEnergy.addOffset = some o) (hs : d.eventEnergy.scaleFactor = some s)
    (hstep : 0 < o + s) (h : openValues checkArea true d = (d', .ok ())) :
    d'.eventEnergy.units = some "nJ" ∧
    List.Forall₂ (fun before after => (before = none ∧ after = none) ∨
      ∃ e a : Rat, before = some e ∧ after = some a ∧ 0 < a ∧
        (o + s ≤ e → a = e * 1000000000) ∧ (e < o + s → a = (o + s) / 2 * 1000000000))
      d.eventEnergy.values d'.eventEnergy.values := by
  obtain ⟨d1, h1, h2⟩ := openValues_ok h
  obtain ⟨-, -, e3⟩ := checkArea_energy h1
  obtain ⟨d2, h3, h4⟩ := andThen_ok (show andThen eliminateZeroEnergy changeEnergyUnits d1 = (d', .ok ())
    from h2)
  obtain ⟨o', s', ho', hs', rfl⟩ := eliminate_ok h3
  rw [e3, ho] at ho'; rw [e3, hs] at hs'
  cases ho'; cases hs'
  have hok := (C52_partial _).2 (by rw [h4])
  rw [h4] at hok
  obtain ⟨hu, hv⟩ := hok.2.2.1
  refine ⟨hu, ?_⟩
  rw [hv, e3]
  simp only [List.map_map, List.forall₂_map_right_iff, List.forall₂_same]
  intro v _
  cases v with
  | none => exact Or.inl ⟨rfl, rfl⟩
  | some e =>
    right
    by_cases he : e < o + s
    · refine ⟨e, 1 / 2 * (o + s) * 1000000000, rfl, ?_, by linarith, fun hc => absurd he (not_lt.mpr hc),
        fun _ => by ring⟩
      simp [he]
    · refine ⟨e, e * 1000000000, rfl, ?_, by linarith, fun _ => rfl, fun hc => absurd hc he⟩
      simp [he]

/-- C51: the correction can be repeated. -/
theorem C51_again (d d' : ValueVars) (o s : Rat)
    (ho : d.eventEnergy.addOffset = some o) (hs : d.eventEnergy.scaleFactor = some s)
    (hstep : 0 < o + s) (h : eliminateZeroEnergy d = (d', .ok ())) :
    eliminateZeroEnergy d' = (d', .ok ()) := by
  obtain ⟨o', s', ho', hs', rfl⟩ := eliminate_ok h
  rw [ho] at ho'; rw [hs] at hs'
  cases ho'; cases hs'
  unfold eliminateZeroEnergy
  simp only [ho, hs]
  congr 1
  congr 1
  congr 1
  rw [List.map_map]
  apply List.map_congr_left
  intro v _
  cases v with
  | none => rfl
  | some e =>
    simp only [Function.comp]
    by_cases he : e < o + s
    · rw [if_pos he]
      simp only
      rw [if_pos (by linarith)]
    · rw [if_neg he]
      simp only
      rw [if_neg he]

/-- The corrections succeed on files as the ground system writes them. -/
theorem C51_success (checkArea : Bool) (d : ValueVars)
    (h1 : Encoded d.flashArea) (h2 : Encoded d.groupArea) (h3 : d.flashArea.units ≠ none)
    (h4 : d.groupArea.units ≠ none) (h5 : d.eventEnergy.addOffset ≠ none)
    (h6 : d.eventEnergy.scaleFactor ≠ none) (h7 : d.flashEnergy.units = some "J")
    (h8 : d.groupEnergy.units = some "J") (h9 : d.eventEnergy.units = some "J") :
    ∃ d', openValues checkArea true d = (d', .ok ()) := by
  have hmax : ∀ v : FloatVar, Encoded v → ∃ m, maxArea v = some m := by
    rintro v ⟨a, b, c⟩
    obtain ⟨o, ho⟩ := Option.ne_none_iff_exists'.mp a
    obtain ⟨s, hs⟩ := Option.ne_none_iff_exists'.mp b
    obtain ⟨f, hf⟩ := Option.ne_none_iff_exists'.mp c
    exact ⟨o + s * f, by unfold maxArea; rw [ho, hs, hf]⟩
  have hunits : ∀ v : FloatVar, v.units ≠ none → (areaUnitsOne v).2 = .ok () := by
    intro v hv
    obtain ⟨u, hu⟩ := Option.ne_none_iff_exists'.mp hv
    by_cases hm : u = "m2"
    · subst hm; rw [areaUnits_m2 hu]
    · rw [areaUnits_other hu hm]
  have harea : ∃ d1, when_ checkArea (andThen checkAreaOverflow checkAreaUnits) d = (d1, .ok ()) := by
    cases checkArea
    · exact ⟨d, rfl⟩
    · obtain ⟨mf, hf⟩ := hmax _ h1
      obtain ⟨mg, hg⟩ := hmax _ h2
      have ho : checkAreaOverflow d = ({ d with flashArea := fillMissing mf d.flashArea
                                                groupArea := fillMissing mg d.groupArea }, .ok ()) := by
        unfold checkAreaOverflow; rw [hf, hg]
      show ∃ d1, andThen checkAreaOverflow checkAreaUnits d = (d1, .ok ())
      rw [andThen_of_ok ho]
      unfold checkAreaUnits
      have u1 := hunits (fillMissing mf d.flashArea) h3
      have u2 := hunits (fillMissing mg d.groupArea) h4
      rw [andThen_of_ok (d1 := { d with flashArea := (areaUnitsOne (fillMissing mf d.flashArea)).1
                                        groupArea := fillMissing mg d.groupArea }) (by
        simp only [Prod.mk.injEq, u1, and_true])]
      exact ⟨_, by simp only [Prod.mk.injEq, u2, and_true]; rfl⟩
  obtain ⟨d1, hd1⟩ := harea
  obtain ⟨e1, e2, e3⟩ := checkArea_energy hd1
  obtain ⟨o, ho⟩ := Option.ne_none_iff_exists'.mp h5
  obtain ⟨s, hs⟩ := Option.ne_none_iff_exists'.mp h6
  show ∃ d', andThen _ _ d = (d', .ok ())
  rw [andThen_of_ok hd1]
  show ∃ d', andThen eliminateZeroEnergy changeEnergyUnits d1 = (d', .ok ())
  have hel : ∃ d2, eliminateZeroEnergy d1 = (d2, .ok ()) ∧ d2.flashEnergy = d1.flashEnergy ∧
      d2.groupEnergy = d1.groupEnergy ∧ d2.eventEnergy.units = d1.eventEnergy.units := by
    unfold eliminateZeroEnergy
    rw [e3, ho, hs]
    exact ⟨_, rfl, rfl, rfl, by simp [e3]⟩
  obtain ⟨d2, hd2, f1, f2, f3⟩ := hel
  rw [andThen_of_ok hd2]
  exact ⟨_, (C52_exact d2).1 ⟨by rw [f1, e1, h7], by rw [f2, e2, h8], by rw [f3, e3, h9]⟩⟩

example : (openValues true true sampleVars).1.eventEnergy.values =
    [some 1000000000, some 3000000000, some 1000000000, none] := by decide +kernel
example : Encoded sampleVars.flashArea ∧ Encoded sampleVars.groupArea := by decide

/-! ## C53 -/

/-- What becomes of an area: missing ones become the largest, then m2 become km2. -/
def AreaCorrected (before after : FloatVar) : Prop :=
  ∃ o s f : Rat, before.addOffset = some o ∧ before.scaleFactor = some s ∧ before.fillValue = some f ∧
    ((before.units = some "m2" ∧ after.units = some "km2" ∧
        after.values = before.values.map fun a => some (a.getD (o + s * f) / 1000000)) ∨
     (before.units ≠ some "m2" ∧ after.units = before.units ∧
        after.values = before.values.map fun a => some (a.getD (o + s * f))))

/-- C53: after opening all areas are in km2, and none is missing. -/
def C53_full : Prop := ∀ d d' : ValueVars, openValues true true d = (d', .ok ()) →
  d'.flashArea.units = some "km2" ∧ d'.groupArea.units = some "km2" ∧
  AreaCorrected d.flashArea d'.flashArea ∧ AreaCorrected d.groupArea d'.groupArea

theorem maxArea_some {v : FloatVar} {m : Rat} (h : maxArea v = some m) :
    ∃ o s f, v.addOffset = some o ∧ v.scaleFactor = some s ∧ v.fillValue = some f ∧ m = o + s * f := by
  unfold maxArea at h
  cases ho : v.addOffset with
  | none => rw [ho] at h; cases h
  | some o =>
    cases hs : v.scaleFactor with
    | none => rw [ho, hs] at h; cases h
    | some s =>
      cases hf : v.fillValue with
      | none => rw [ho, hs, hf] at h; cases h
      | some f =>
        rw [ho, hs, hf] at h
        exact ⟨o, s, f, rfl, rfl, rfl, (Option.some.inj h).symm⟩

theorem area_one {v : FloatVar} {m : Rat} (hm : maxArea v = some m) (hu : v.units ≠ none) :
    AreaCorrected v (areaUnitsOne (fillMissing m v)).1 := by
  obtain ⟨o, s, f, ho, hs, hf, rfl⟩ := maxArea_some hm
  refine ⟨o, s, f, ho, hs, hf, ?_⟩
  obtain ⟨u, hu⟩ := Option.ne_none_iff_exists'.mp hu
  by_cases h2 : u = "m2"
  · subst h2
    left
    rw [areaUnits_m2 (v := fillMissing (o + s * f) v) hu]
    refine ⟨hu, rfl, ?_⟩
    show ((v.values.map _).map _) = _
    rw [List.map_map]
    apply List.map_congr_left
    intro a _
    simp only [Function.comp, Option.map]
    congr 1
    ring
  · right
    rw [areaUnits_other (v := fillMissing (o + s * f) v) hu h2]
    exact ⟨by rw [hu]; simpa using h2, rfl, rfl⟩

/-- C53: how every area is corrected, and the unit it has. -/
theorem C53_exact (changeEnergy : Bool) (d d' : ValueVars)
    (h : openValues true changeEnergy d = (d', .ok ())) :
    AreaCorrected d.flashArea d'.flashArea ∧ AreaCorrected d.groupArea d'.groupArea := by
  obtain ⟨d1, h1, h2⟩ := openValues_ok h
  obtain ⟨d2, h3, h4⟩ := andThen_ok (show andThen checkAreaOverflow checkAreaUnits d = (d1, .ok ()) from h1)
  obtain ⟨mf, mg, hf, hg, rfl⟩ := overflow_ok h3
  obtain ⟨u1, u2, rfl⟩ := areaUnits_ok h4
  have he : d'.flashArea = (areaUnitsOne (fillMissing mf d.flashArea)).1 ∧
      d'.groupArea = (areaUnitsOne (fillMissing mg d.groupArea)).1 := by
    cases changeEnergy
    · cases h2; exact ⟨rfl, rfl⟩
    · obtain ⟨d5, h5, h6⟩ := andThen_ok
        (show andThen eliminateZeroEnergy changeEnergyUnits _ = (d', .ok ()) from h2)
      obtain ⟨o, s, -, -, rfl⟩ := eliminate_ok h5
      have := (C52_partial _).2 (by rw [h6])
      rw [h6] at this
      exact ⟨this.2.2.2.1, this.2.2.2.2⟩
  rw [he.1, he.2]
  exact ⟨area_one hf u1, area_one hg u2⟩

/-- C53, the part that holds: areas in m2 or km2. -/
theorem C53_partial (changeEnergy : Bool) (d d' : ValueVars)
    (h : openValues true changeEnergy d = (d', .ok ()))
    (hf : d.flashArea.units = some "m2" ∨ d.flashArea.units = some "km2")
    (hg : d.groupArea.units = some "m2" ∨ d.groupArea.units = some "km2") :
    d'.flashArea.units = some "km2" ∧ d'.groupArea.units = some "km2" ∧
    AreaCorrected d.flashArea d'.flashArea ∧ AreaCorrected d.groupArea d'.groupArea := by
  obtain ⟨a, b⟩ := C53_exact changeEnergy d d' h
  refine ⟨?_, ?_, a, b⟩
  · obtain ⟨_, _, _, -, -, -, ⟨-, h2, -⟩ | ⟨h1, h2, -⟩⟩ := a
    · exact h2
    · rw [h2]; exact hf.resolve_left h1
  · obtain ⟨_, _, _, -, -, -, ⟨-, h2, -⟩ | ⟨h1, h2, -⟩⟩ := b
    · exact h2
    · rw [h2]; exact hg.resolve_left h1

/-- C53: the check of units can be repeated. -/
theorem C53_again (d d' : ValueVars) (h : checkAreaUnits d = (d', .ok ())) :
    checkAreaUnits d' = (d', .ok ()) := by
  obtain ⟨u1, u2, rfl⟩ := areaUnits_ok h
  have key : ∀ v : FloatVar, v.units ≠ none →
      areaUnitsOne (areaUnitsOne v).1 = ((areaUnitsOne v).1, .ok ()) := by
    intro v hv
    obtain ⟨u, hu⟩ := Option.ne_none_iff_exists'.mp hv
    by_cases hm : u = "m2"
    · subst hm
      rw [areaUnits_m2 hu]
      exact areaUnits_other rfl (by decide)
    · rw [areaUnits_other hu hm]
      exact areaUnits_other hu hm
  unfold checkAreaUnits andThen
  simp only [key _ u1, key _ u2]

/-- C53 is violated by other units, which are kept. -/
theorem C53_full_false : ¬ C53_full := by
  intro h
  let d : ValueVars := { sampleVars with groupArea := ⟨[some 7], some "cm2", some 1, some 2, some 3⟩ }
  obtain ⟨d', hd'⟩ := C51_success true d (by decide) (by decide) (by decide) (by decide) (by decide)
    (by decide) rfl rfl rfl
  obtain ⟨_, h2, -⟩ := h d d' hd'
  have : (openValues true true d).1.groupArea.units = some "cm2" := by decide +kernel
  rw [hd'] at this
  simp only at this
  rw [h2] at this
  simp at this

example : (openValues true true sampleVars).1.flashArea.values =
    [some (152601 * 65535 / 1000000), some 5] := by decide +kernel

/-! ## C78 -/

/-- C78: the dataset of an open file can be opened again, without change. -/
def C78_full : Prop := ∀ d d' : ValueVars, openValues true true d = (d', .ok ()) →
  openValues true true d' = (d', .ok ())

theorem fillMissing_again (m m' : Rat) (v : FloatVar) :
    fillMissing m' (fillMissing m v) = fillMissing m v := by
  unfold fillMissing
  simp only [List.map_map]
  congr 1

/-- C78, exactly: opening again always raises KeyError, and changes nothing. -/
theorem C78_exact (d d' : ValueVars) (h : openValues true true d = (d', .ok ())) :
    openValues true true d' = (d', .error .keyError) := by
  obtain ⟨d1, h1, h2⟩ := openValues_ok h
  obtain ⟨d2, h3, h4⟩ := andThen_ok (show andThen checkAreaOverflow checkAreaUnits d = (d1, .ok ()) from h1)
  obtain ⟨mf, mg, hf, hg, rfl⟩ := overflow_ok h3
  obtain ⟨u1, u2, rfl⟩ := areaUnits_ok h4
  obtain ⟨d5, h5, h6⟩ := andThen_ok
    (show andThen eliminateZeroEnergy changeEnergyUnits _ = (d', .ok ()) from h2)
  obtain ⟨o, s, -, -, rfl⟩ := eliminate_ok h5
  have hJ := ((C52_partial _).1).mp (by rw [h6])
  rw [(C52_exact _).1 hJ] at h6
  cases h6
  unfold openValues
  simp only [when_, if_true]
  -- the areas
  have harea : ∀ v : FloatVar, ∀ m, v.units ≠ none → maxArea v = some m →
      ((areaUnitsOne (fillMissing m v)).1.units = some "km2" ∧
        maxArea (areaUnitsOne (fillMissing m v)).1 = none) ∨
      ((areaUnitsOne (fillMissing m v)).1 = fillMissing m v ∧
        ∃ u, v.units = some u ∧ u ≠ "m2") := by
    intro v m hv hm
    obtain ⟨u, hu⟩ := Option.ne_none_iff_exists'.mp hv
    by_cases h2 : u = "m2"
    · subst h2
      rw [areaUnits_m2 (v := fillMissing m v) hu]
      exact Or.inl ⟨rfl, rfl⟩
    · rw [areaUnits_other (v := fillMissing m v) hu h2]
      exact Or.inr ⟨rfl, u, hu, h2⟩
  have hmax : ∀ v : FloatVar, ∀ m, maxArea (fillMissing m v) = maxArea v := fun _ _ => rfl
  have hel : ∀ e : ValueVars, e.eventEnergy.addOffset = none →
      eliminateZeroEnergy e = (e, .error .keyError) := by
    intro e he
    unfold eliminateZeroEnergy
    rw [he]
  rcases harea d.flashArea mf u1 hf with ⟨-, hn⟩ | ⟨ef, uf, huf, huf2⟩
  · apply andThen_of_error
    apply andThen_of_error
    unfold checkAreaOverflow
    simp only [hn]
  · rcases harea d.groupArea mg u2 hg with ⟨-, hn⟩ | ⟨eg, ug, hug, hug2⟩
    · apply andThen_of_error
      apply andThen_of_error
      unfold checkAreaOverflow
      simp only [hn]
      cases maxArea (areaUnitsOne (fillMissing mf d.flashArea)).1 <;> rfl
    · simp only [ef, eg]
      rw [andThen_of_ok]
      · apply andThen_of_error
        apply hel
        rfl
      · refine (andThen_of_ok (d1 := ?_) ?_).trans ?_
        · exact { flashEnergy := rescale 1000000000 "nJ" d.flashEnergy
                  groupEnergy := rescale 1000000000 "nJ" d.groupEnergy
                  eventEnergy := rescale 1000000000 "nJ" { d.eventEnergy with
                    values := d.eventEnergy.values.map fun v =>
                      match v with
                      | some e => if e < o + s then some (1 / 2 * (o + s)) else some e
                      | none => none }
                  flashArea := fillMissing mf d.flashArea
                  groupArea := fillMissing mg d.groupArea }
        · unfold checkAreaOverflow
          simp only [hmax, hf, hg, fillMissing_again]
        · have a1 : areaUnitsOne (fillMissing mf d.flashArea) = (fillMissing mf d.flashArea, .ok ()) :=
            areaUnits_other (v := fillMissing mf d.flashArea) huf huf2
          have a2 : areaUnitsOne (fillMissing mg d.groupArea) = (fillMissing mg d.groupArea, .ok ()) :=
            areaUnits_other (v := fillMissing mg d.groupArea) hug hug2
          unfold checkAreaUnits andThen
          simp only [a1, a2]

theorem C78_full_false : ¬ C78_full := by
  intro h
  obtain ⟨d', hd'⟩ := C51_success true sampleVars (by decide) (by decide) (by decide) (by decide)
    (by decide) (by decide) rfl rfl rfl
  have h1 := h _ _ hd'
  rw [C78_exact _ _ hd'] at h1
  cases h1

/-- C78, the part that holds: with both corrections switched off, or with that of areas alone if they
were in km2. -/
theorem C78_partial (d d' : ValueVars) :
    openValues false false d = (d, .ok ()) ∧
    (d.flashArea.units = some "km2" → d.groupArea.units = some "km2" →
      openValues true false d = (d', .ok ()) → openValues true false d' = (d', .ok ())) := by
  refine ⟨rfl, ?_⟩
  intro k1 k2 h
  obtain ⟨d1, h1, h2⟩ := openValues_ok h
  cases h2
  obtain ⟨d2, h3, h4⟩ := andThen_ok (show andThen checkAreaOverflow checkAreaUnits d = (d', .ok ()) from h1)
  obtain ⟨mf, mg, hf, hg, rfl⟩ := overflow_ok h3
  obtain ⟨u1, u2, rfl⟩ := areaUnits_ok h4
  have ef : areaUnitsOne (fillMissing mf d.flashArea) = (fillMissing mf d.flashArea, .ok ()) :=
    areaUnits_other (v := fillMissing mf d.flashArea) k1 (by decide)
  have eg : areaUnitsOne (fillMissing mg d.groupArea) = (fillMissing mg d.groupArea, .ok ()) :=
    areaUnits_other (v := fillMissing mg d.groupArea) k2 (by decide)
  simp only [ef, eg]
  have hmax : ∀ v : FloatVar, ∀ m, maxArea (fillMissing m v) = maxArea v := fun _ _ => rfl
  unfold openValues
  simp only [when_, if_true, Bool.false_eq_true, if_false]
  rw [andThen_of_ok]
  rw [andThen_of_ok (d1 := { d with flashArea := fillMissing mf d.flashArea
                                    groupArea := fillMissing mg d.groupArea })]
  · unfold checkAreaUnits andThen
    simp only [ef, eg]
  · unfold checkAreaOverflow
    simp only [hmax, hf, hg, fillMissing_again]

/-! ## C54, C79 -/

/-- The signed number with the same 16 bits. -/
def asSigned (bits : Nat) (c : Int) : Int := if c < 2 ^ (bits - 1) then c else c - 2 ^ bits

theorem castInt_near (n : Int) (e : Rat) (he : -1 < e ∧ e < 1) (nan : Int) :
    (n = 0 → castInt nan (some (n + e)) = 0) ∧
    (0 < n → castInt nan (some (n + e)) = if e < 0 then n - 1 else n) ∧
    (n < 0 → castInt nan (some (n + e)) = if 0 < e then n + 1 else n) := by
  have hcast : ∀ q : Rat, castInt nan (some q) = if 0 ≤ q then ⌊q⌋ else ⌈q⌉ := fun _ => rfl
  rw [hcast]
  refine ⟨?_, ?_, ?_⟩
  · rintro rfl
    by_cases h : (0 : Rat) ≤ ((0 : Int) : Rat) + e
    · rw [if_pos h, Int.floor_eq_iff]
      push_cast
      constructor <;> push_cast at h <;> linarith [he.2]
    · rw [if_neg h, Int.ceil_eq_iff]
      push_cast at h ⊢
      constructor <;> linarith [he.1]
  · intro hn
    have hq : (1 : Rat) ≤ (n : Rat) := by exact_mod_cast hn
    rw [if_pos (by linarith [he.1] : (0 : Rat) ≤ n + e)]
    split
    · rw [Int.floor_eq_iff]; push_cast; constructor <;> linarith [he.1]
    · rw [Int.floor_eq_iff]; constructor <;> linarith [he.2]
  · intro hn
    have hq : (n : Rat) ≤ -1 := by exact_mod_cast (by omega : n ≤ -1)
    rw [if_neg (by linarith [he.2] : ¬ (0 : Rat) ≤ n + e)]
    split
    · rw [Int.ceil_eq_iff]; push_cast; constructor <;> linarith [he.2]
    · rw [Int.ceil_eq_iff]; constructor <;> linarith [he.1]

theorem unscale_eq (scale offset : Rat) (hs : scale ≠ 0) (n : Int) (e : Rat) :
    unscale scale offset (some (((n : Rat) + e) * scale + offset)) = some (n + e) := by
  unfold unscale
  simp only [Option.map]
  congr 1
  field_simp
  ring

/-- C54: the location of every event is restored, to one count if it was read with an error of less
than one count. -/
def C54_full : Prop := ∀ (nan c : Int) (scale offset e : Rat), 0 ≤ c → c < 65536 → 0 < scale →
  -1 < e → e < 1 →
  |fixLocation nan scale offset (some (((asSigned 16 c : Rat) + e) * scale + offset)) -
    ((c : Rat) * scale + offset)| ≤ scale

/-- C54, exactly: the count that is restored. -/
theorem C54_exact (nan c : Int) (scale offset e : Rat) (h0 : 0 ≤ c) (h1 : c < 65536) (hs : 0 < scale)
    (he : -1 < e ∧ e < 1) :
    fixLocation nan scale offset (some (((asSigned 16 c : Rat) + e) * scale + offset)) =
      (if c = 65535 ∧ 0 < e then 0
       else if 0 < c ∧ c < 32768 ∧ e < 0 then c - 1
       else if 32768 ≤ c ∧ 0 < e then c + 1
       else c : Int) * scale + offset := by
  unfold fixLocation
  rw [unscale_eq scale offset (ne_of_gt hs)]
  obtain ⟨k0, k1, k2⟩ := castInt_near (asSigned 16 c) e he nan
  have hsg : asSigned 16 c = if c < 32768 then c else c - 65536 := by
    unfold asSigned; norm_num
  rw [hsg] at k0 k1 k2 ⊢
  simp only
  congr 2
  congr 1
  by_cases hlow : c < 32768
  · simp only [if_pos hlow] at k0 k1 k2 ⊢
    rcases Int.lt_or_le 0 c with hp | hz
    · rw [k1 hp, if_neg (c := c = 65535 ∧ 0 < e) (fun hc => by omega)]
      by_cases hneg : e < 0
      · rw [if_pos hneg, if_neg (by omega), if_pos ⟨hp, hlow, hneg⟩]
      · rw [if_neg hneg, if_neg (by omega), if_neg (fun hc => hneg hc.2.2),
          if_neg (fun hc => by omega)]
    · have : c = 0 := by omega
      subst this
      rw [k0 rfl]
      simp
  · simp only [if_neg hlow] at k0 k1 k2 ⊢
    rw [k2 (by omega)]
    by_cases hpos : 0 < e
    · rw [if_pos hpos]
      by_cases h5 : c = 65535
      · subst h5
        rw [if_pos (c := (65535 : Int) = 65535 ∧ 0 < e) ⟨rfl, hpos⟩]
        norm_num
      · rw [if_pos (by omega), if_neg (fun hc => h5 hc.1), if_neg (fun hc => hlow hc.2.1),
          if_pos ⟨by omega, hpos⟩]
        ring
    · rw [if_neg hpos, if_pos (by omega), if_neg (fun hc => hpos hc.2), if_neg (fun hc => hlow hc.2.1),
        if_neg (fun hc => hpos hc.2)]
      ring

/-- C54, the part that holds: all counts but the largest, and also the largest if the error is not
positive.  Without error the location is restored exactly. -/
theorem C54_partial (nan c : Int) (scale offset e : Rat) (h0 : 0 ≤ c) (h1 : c < 65536) (hs : 0 < scale)
    (he : -1 < e ∧ e < 1) (hl : c ≠ 65535 ∨ e ≤ 0) :
    |fixLocation nan scale offset (some (((asSigned 16 c : Rat) + e) * scale + offset)) -
      ((c : Rat) * scale + offset)| ≤ scale ∧
    (e = 0 → fixLocation nan scale offset (some ((asSigned 16 c : Rat) * scale + offset)) =
      (c : Rat) * scale + offset) := by
  constructor
  · rw [C54_exact nan c scale offset e h0 h1 hs he]
    have : ¬ (c = 65535 ∧ 0 < e) := by
      rintro ⟨a, b⟩
      rcases hl with h | h
      · exact h a
      · exact absurd b (not_lt.mpr h)
    rw [if_neg this]
    split
    · push_cast
      rw [show ((c : Rat) - 1) * scale + offset - (c * scale + offset) = -scale by ring, abs_neg,
        abs_of_pos hs]
    · split
      · push_cast
        rw [show ((c : Rat) + 1) * scale + offset - (c * scale + offset) = scale by ring, abs_of_pos hs]
      · rw [sub_self, abs_zero]; exact hs.le
  · rintro rfl
    have := C54_exact nan c scale offset 0 h0 h1 hs he
    rw [add_zero] at this
    rw [this, if_neg (by simp), if_neg (by simp), if_neg (by simp)]

/-- C54 is violated: the largest count, read with a tiny positive error, becomes the smallest. -/
theorem C54_full_false : ¬ C54_full := by
  intro h
  have := h 0 65535 1 0 (1 / 1000000) (by norm_num) (by norm_num) (by norm_num) (by norm_num) (by norm_num)
  rw [C54_exact 0 65535 1 0 (1 / 1000000) (by norm_num) (by norm_num) (by norm_num) (by norm_num)] at this
  norm_num at this

/-- C54: counts that are read as integers are restored, for both coordinates and all events. -/
theorem C54_raw (lats lons : List Int) (h : ∀ c ∈ lats ++ lons, 0 ≤ c ∧ c < 65536) :
    fixRawLocations (lats.map (asSigned 16)) (lons.map (asSigned 16)) =
      (lats.map fun c : Int => (c : Rat) * (203128 / 100000000) + (-6656 / 100),
        lons.map fun c : Int => (c : Rat) * (203128 / 100000000) + (-15606 / 100)) := by
  have key : ∀ c : Int, 0 ≤ c ∧ c < 65536 →
      (if asSigned 16 c < 0 then asSigned 16 c + 2 ^ 16 else asSigned 16 c) = c := by
    intro c hc
    unfold asSigned
    split_ifs <;> norm_num at * <;> omega
  unfold fixRawLocations
  simp only [List.map_map]
  congr 1
  · apply List.map_congr_left
    intro c hc
    simp only [Function.comp]
    rw [key c (h c (List.mem_append_left _ hc))]
    rfl
  · apply List.map_congr_left
    intro c hc
    simp only [Function.comp]
    rw [key c (h c (List.mem_append_right _ hc))]
    rfl

/-- C54: `fix_event_locations` treats each coordinate of each event by itself, with the scale and
offsets of the file. -/
theorem C54_all_events (nan : Int) (lats lons : List Int) (h : ∀ c ∈ lats ++ lons, 0 ≤ c ∧ c < 65536) :
    fixEventLocations nan
      (lats.map fun c : Int => some ((asSigned 16 c : Rat) * (203128 / 100000000) + (-6656 / 100)))
      (lons.map fun c : Int => some ((asSigned 16 c : Rat) * (203128 / 100000000) + (-15606 / 100))) =
      (lats.map fun c : Int => some ((c : Rat) * (203128 / 100000000) + (-6656 / 100)),
        lons.map fun c : Int => some ((c : Rat) * (203128 / 100000000) + (-15606 / 100))) := by
  have key := fun (c : Int) (hc : 0 ≤ c ∧ c < 65536) (offset : Rat) =>
    (C54_partial nan c (203128 / 100000000) offset 0 hc.1 hc.2 (by norm_num) (by norm_num)
      (Or.inr (le_refl 0))).2 rfl
  unfold fixEventLocations
  simp only [List.map_map]
  congr 1
  · apply List.map_congr_left
    intro c hc
    exact congrArg some (key c (h c (List.mem_append_left _ hc)) _)
  · apply List.map_congr_left
    intro c hc
    exact congrArg some (key c (h c (List.mem_append_right _ hc)) _)

/-- C54: `fix_unsigned` and `fix_event_locations` agree, as the documentation says, on all that can be
read from 16 bits. -/
theorem C54_equivalent (nan : Int) (scale offset v : Rat) (hs : 0 < scale)
    (h1 : -65536 * scale ≤ v - offset) (h2 : v - offset < 65536 * scale) :
    fixUnsigned nan 16 scale offset (some v) = fixLocation nan scale offset (some v) := by
  unfold fixUnsigned fixLocation unscale castInt
  simp only [Option.map]
  have hq1 : -65536 ≤ (v - offset) / scale := by rw [le_div_iff₀ hs]; exact h1
  have hq2 : (v - offset) / scale < 65536 := by rw [div_lt_iff₀ hs]; exact h2
  generalize (v - offset) / scale = q at hq1 hq2
  congr 2
  congr 1
  have hn : -65536 ≤ (if 0 ≤ q then ⌊q⌋ else ⌈q⌉) ∧ (if 0 ≤ q then ⌊q⌋ else ⌈q⌉) < 65536 := by
    split
    · rename_i hq
      exact ⟨le_trans (by norm_num) (Int.floor_nonneg.mpr hq), Int.floor_lt.mpr (by exact_mod_cast hq2)⟩
    · rename_i hq
      refine ⟨?_, ?_⟩
      · have := le_trans hq1 (Int.le_ceil q)
        exact_mod_cast this
      · have : ⌈q⌉ ≤ 0 := Int.ceil_le.mpr (by push_cast; linarith)
        omega
  generalize (if 0 ≤ q then ⌊q⌋ else ⌈q⌉) = n at hn
  have : (2 : Int) ^ 16 = 65536 := by norm_num
  rw [this]
  split <;> omega

/-- C54 for `fix_unsigned`, integers of any width, read without error. -/
theorem C54_unsigned (nan : Int) (bits : Nat) (c : Int) (scale offset : Rat) (h0 : 0 ≤ c)
    (h1 : c < 2 ^ bits) (hs : scale ≠ 0) :
    fixUnsigned nan bits scale offset (some ((asSigned bits c : Rat) * scale + offset)) =
      (c : Rat) * scale + offset := by
  unfold fixUnsigned
  have := unscale_eq scale offset hs (asSigned bits c) 0
  rw [add_zero] at this
  rw [this]
  have hcast : castInt nan (some (asSigned bits c : Rat)) = asSigned bits c := by
    show (if (0 : Rat) ≤ (asSigned bits c : Rat) then ⌊(asSigned bits c : Rat)⌋
      else ⌈(asSigned bits c : Rat)⌉) = _
    rw [Int.floor_intCast, Int.ceil_intCast, ite_self]
  rw [hcast]
  congr 3
  have : asSigned bits c % (2 ^ bits : Int) = c % (2 ^ bits : Int) := by
    unfold asSigned
    split
    · rfl
    · exact Int.sub_emod_right c _
  rw [this]
  exact Int.emod_eq_of_lt h0 h1

example : fixLocation 0 2 10 (some (-1 * 2 + 10)) = 65535 * 2 + 10 := by decide +kernel
example : asSigned 16 65535 = -1 := by decide

/-- C79: a missing location stays missing. -/
def C79_full : Prop := ∃ nan : Int, ∀ (lats lons : List (Option Rat)),
  List.Forall₂ (fun before after => before = none → after = none) lats (fixEventLocations nan lats lons).1 ∧
  List.Forall₂ (fun before after => before = none → after = none) lons (fixEventLocations nan lats lons).2

/-- C79 is violated, whatever the cast of NaN gives: every missing location becomes a number, and the
same one. -/
theorem C79_exact (nan : Int) (lats lons : List (Option Rat)) :
    List.Forall₂ (fun before after => before = none →
        after = some (((if nan < 0 then nan + 65536 else nan : Int) : Rat) * (203128 / 100000000) + (-6656 / 100)))
      lats (fixEventLocations nan lats lons).1 ∧
    List.Forall₂ (fun before after => before = none →
        after = some (((if nan < 0 then nan + 65536 else nan : Int) : Rat) * (203128 / 100000000) + (-15606 / 100)))
      lons (fixEventLocations nan lats lons).2 := by
  unfold fixEventLocations
  simp only [List.forall₂_map_right_iff, List.forall₂_same]
  constructor
  · rintro v - rfl
    rfl
  · rintro v - rfl
    rfl

theorem C79_full_false : ¬ C79_full := by
  rintro ⟨nan, h⟩
  have := (h [none] []).1
  simp [fixEventLocations] at this

/-! ## C64 -/

/-- Every row has the corrected times of the row with its id in the file. -/
def TimesCorrected (file rows : List (Row GVal)) : Prop :=
  ∀ r ∈ rows, ∃ f ∈ file, f.id = r.id ∧ r.val.times = f.val.times.map fun n => n % 65536

/-- C64: for every file, also if its tree is repaired. -/
def C64_full : Prop := ∀ (order : List Int → List Int) (nav : Rat → Rat → Rat × Rat)
  (tmin tmax : Int) (file out : GFile), (∀ l, (order l).Perm l) → HasData file →
  UniqueIds file.flashes → UniqueIds file.groups → UniqueIds file.events →
  1539561600 ≤ tmin → tmax ≤ 1541462400 →
  openWithTimes order nav true true tmin tmax true file = .ok out →
  TimesCorrected file.flashes out.flashes ∧ TimesCorrected file.groups out.groups ∧
    TimesCorrected file.events out.events

theorem setVar_ok {β : Type} {upd : Row GVal → β → Row GVal} {rows out : List (Row GVal)} {xs : List β}
    (h : setVar upd rows xs = .ok out) : xs.length = rows.length ∧ out = List.zipWith upd rows xs := by
  unfold setVar at h
  split at h
  · rename_i hl
    exact ⟨hl, by cases h; rfl⟩
  · cases h

/-- What the correction does when it succeeds. -/
theorem correct_ok {file d out : GFile} (h : correctTimes file d = .ok out) :
    (file.events.length = d.events.length ∧ file.groups.length = d.groups.length ∧
      file.flashes.length = d.flashes.length) ∧
    out.events = List.zipWith setTimes d.events (file.events.map fun r => r.val.times.map unsigned16) ∧
    out.groups = List.zipWith setTimes d.groups (file.groups.map fun r => r.val.times.map unsigned16) ∧
    out.flashes = List.zipWith setTimes d.flashes
      (file.flashes.map fun r => r.val.times.map unsigned16) := by
  unfold correctTimes at h
  simp only [bind, Except.bind, pure, Except.pure] at h
  cases he : setVar setTimes d.events (file.events.map fun r => r.val.times.map unsigned16) with
  | error e => rw [he] at h; cases h
  | ok ev =>
    rw [he] at h
    simp only at h
    cases hg : setVar setTimes d.groups (file.groups.map fun r => r.val.times.map unsigned16) with
    | error e => rw [hg] at h; cases h
    | ok gr =>
      rw [hg] at h
      simp only at h
      cases hf : setVar setTimes d.flashes (file.flashes.map fun r => r.val.times.map unsigned16) with
      | error e => rw [hf] at h; cases h
      | ok fl =>
        rw [hf] at h
        cases h
        obtain ⟨l1, r1⟩ := setVar_ok he
        obtain ⟨l2, r2⟩ := setVar_ok hg
        obtain ⟨l3, r3⟩ := setVar_ok hf
        simp only [List.length_map] at l1 l2 l3
        exact ⟨⟨l1, l2, l3⟩, r1, r2, r3⟩

theorem zipWith_times : ∀ (rows file : List (Row GVal)), file.length = rows.length →
    (List.zipWith setTimes rows (file.map fun r => r.val.times.map unsigned16)).map (·.id) =
      rows.map (·.id) ∧
    (List.zipWith setTimes rows (file.map fun r => r.val.times.map unsigned16)).map (·.val.times) =
      file.map fun r => r.val.times.map fun n => n % 65536
  | [], [], _ => ⟨rfl, rfl⟩
  | r :: rows, f :: file, h => by
    obtain ⟨a, b⟩ := zipWith_times rows file (by simpa using h)
    simp only [List.map_cons, List.zipWith_cons_cons, a, b]
    exact ⟨rfl, rfl⟩

theorem correct_of_lengths {file d : GFile} (h1 : file.events.length = d.events.length)
    (h2 : file.groups.length = d.groups.length) (h3 : file.flashes.length = d.flashes.length) :
    ∃ out, correctTimes file d = .ok out := by
  unfold correctTimes setVar
  simp only [List.length_map, h1, h2, h3, if_true, bind, Except.bind, pure, Except.pure]
  exact ⟨_, rfl⟩

/-- A file in the time of the problem, with the variable that came with it. -/
theorem needs_fix {tmin tmax : Int} (h1 : 1539561600 ≤ tmin) (h2 : tmax ≤ 1541462400) :
    needsTimeFix tmin tmax true = true := by
  unfold needsTimeFix problemStart problemEnd
  simp [h1, h2]

theorem times_of_forall₂ {file d : List (Row GVal)} (h : List.Forall₂ SameContent file d) :
    TimesCorrected file
      (List.zipWith setTimes d (file.map fun r => r.val.times.map unsigned16)) := by
  induction h with
  | nil => intro r hr; cases hr
  | @cons a b as bs hab _ ih =>
    intro r hr
    simp only [List.map_cons, List.zipWith_cons_cons, List.mem_cons] at hr
    rcases hr with rfl | hr
    · exact ⟨a, List.mem_cons_self, hab.id, rfl⟩
    · obtain ⟨f, hf, h1, h2⟩ := ih r hr
      exact ⟨f, List.mem_cons_of_mem _ hf, h1, h2⟩

/-- C64, the part that holds: a consistent file is opened, and its times are corrected. -/
theorem C64_partial (order nav checkTree) (tmin tmax : Int) {file : GFile} (h : HasData file)
    (hc : Consistent file) (hu : UniqueIds file.groups) (h1 : 1539561600 ≤ tmin)
    (h2 : tmax ≤ 1541462400) :
    ∃ out, openWithTimes order nav checkTree true tmin tmax true file = .ok out ∧
      TimesCorrected file.flashes out.flashes ∧ TimesCorrected file.groups out.groups ∧
      TimesCorrected file.events out.events ∧
      out.flashes.map (·.id) = file.flashes.map (·.id) ∧
      out.groups.map (·.id) = file.groups.map (·.id) ∧
      out.events.map (·.id) = file.events.map (·.id) := by
  obtain ⟨d, e1, e2, e3, e4, -⟩ := C12_derived_variables order nav checkTree h hc hu
  obtain ⟨out, ho⟩ := correct_of_lengths e4.length_eq e3.length_eq e2.length_eq
  refine ⟨out, ?_, ?_⟩
  · unfold openWithTimes
    simp only [e1, bind, Except.bind, needs_fix h1 h2, if_true]
    exact ho
  · obtain ⟨⟨l1, l2, l3⟩, r1, r2, r3⟩ := correct_ok ho
    have hid : ∀ {a b : List (Row GVal)}, List.Forall₂ SameContent a b → b.map (·.id) = a.map (·.id) := by
      intro a b hab
      induction hab with
      | nil => rfl
      | cons h _ ih => rw [List.map_cons, List.map_cons, ih, h.id]
    rw [r1, r2, r3]
    refine ⟨times_of_forall₂ e2, times_of_forall₂ e3, times_of_forall₂ e4, ?_, ?_, ?_⟩
    · rw [(zipWith_times _ _ l3).1, hid e2]
    · rw [(zipWith_times _ _ l2).1, hid e3]
    · rw [(zipWith_times _ _ l1).1, hid e4]

theorem bind_ok {α β : Type} {x : Except Err α} {f : α → Except Err β} {b : β}
    (h : (x >>= f) = .ok b) : ∃ a, x = .ok a ∧ f a = .ok b := by
  cases x with
  | error e => cases h
  | ok a => exact ⟨a, rfl, h⟩

/-- Opening keeps the ids of the repaired dataset. -/
theorem open_ids {order nav calculate} {file d : GFile}
    (h : openDataset order nav true calculate file = .ok d) :
    ∃ d0, repairTree order file = .ok d0 ∧ d.flashes.map (·.id) = d0.flashes.map (·.id) ∧
      d.groups.map (·.id) = d0.groups.map (·.id) ∧ d.events.map (·.id) = d0.events.map (·.id) := by
  unfold openDataset at h
  simp only [if_true, bind, Except.bind] at h
  cases hr : repairTree order file with
  | error e => rw [hr] at h; cases h
  | ok d0 =>
    rw [hr] at h
    refine ⟨d0, rfl, ?_⟩
    cases calculate
    · simp only [Bool.false_eq_true, if_false, pure, Except.pure] at h
      cases h
      exact ⟨rfl, rfl, rfl⟩
    · simp only [if_true] at h
      cases hi : initParentChild d0 with
      | error e => rw [hi] at h; cases h
      | ok d1 =>
        rw [hi] at h
        simp only [pure, Except.pure] at h
        cases h
        have hz : ∀ {β : Type} {upd : Row GVal → β → Row GVal} (_ : ∀ r b, (upd r b).id = r.id)
            {rows out : List (Row GVal)} {xs : List β}, setVar upd rows xs = .ok out →
            out.map (·.id) = rows.map (·.id) := by
          intro β upd hupd rows out xs hs
          obtain ⟨hl, rfl⟩ := setVar_ok hs
          clear hs
          induction rows generalizing xs with
          | nil => simp
          | cons r rows ih =>
            cases xs with
            | nil => simp at hl
            | cons x xs =>
              simp only [List.zipWith_cons_cons, List.map_cons, hupd]
              rw [ih (by simpa using hl)]
        have hxy : ∀ l : List (Row GVal), (l.map (setXY nav)).map (·.id) = l.map (·.id) := by
          intro l; rw [List.map_map]; rfl
        unfold initParentChild at hi
        have tail : ∀ (ids : List Int) (ev : List (Row GVal)) (fc gc count : List Nat),
            setVar setFlashOf d0.events ids = .ok ev →
            (do let flashes ← setVar setNGroups d0.flashes fc
                let groups ← setVar setNEvents d0.groups gc
                let flashes ← setVar setNEvents flashes count
                pure ⟨flashes, groups, ev⟩ : Except Err GFile) = .ok d1 →
            (initFixedGrid nav d1).flashes.map (·.id) = d0.flashes.map (·.id) ∧
            (initFixedGrid nav d1).groups.map (·.id) = d0.groups.map (·.id) ∧
            (initFixedGrid nav d1).events.map (·.id) = d0.events.map (·.id) := by
          intro ids ev fc gc count he hi
          obtain ⟨fl, hfl, hi⟩ := bind_ok hi
          obtain ⟨gr, hgr, hi⟩ := bind_ok hi
          obtain ⟨fl2, hfl2, hi⟩ := bind_ok hi
          cases hi
          unfold initFixedGrid
          simp only [hxy]
          exact ⟨(hz (upd := setNEvents) (fun _ _ => rfl) hfl2).trans (hz (upd := setNGroups) (fun _ _ => rfl) hfl),
            hz (upd := setNEvents) (fun _ _ => rfl) hgr, hz (upd := setFlashOf) (fun _ _ => rfl) he⟩
        by_cases hn : d0.flashes.length = 0 ∨ d0.groups.length = 0 ∨ d0.events.length = 0
        · simp only [if_pos hn] at hi
          obtain ⟨ids, -, hi⟩ := bind_ok hi
          obtain ⟨ev, he, hi⟩ := bind_ok hi
          obtain ⟨t, -, hi⟩ := bind_ok hi
          exact tail ids ev _ _ _ he hi
        · simp only [if_neg hn] at hi
          obtain ⟨ids, -, hi⟩ := bind_ok hi
          obtain ⟨ev, he, hi⟩ := bind_ok hi
          obtain ⟨all, -, hi⟩ := bind_ok hi
          match all, hi with
          | fc :: gc :: _, hi =>
            obtain ⟨t, -, hi⟩ := bind_ok hi
            exact tail ids ev _ _ _ he hi
          | [], hi => cases hi
          | [_], hi => cases hi

/-- C64, exactly: if a file with an inconsistent tree can be opened, no flash lacks a group and no
event its group; then the rows are in the order of the repair but the times in that of the file. -/
theorem C64_exact {order : List Int → List Int} (ho : ∀ l, (order l).Perm l) (nav calculate)
    (tmin tmax : Int) {file out : GFile} (h : HasData file) (hc : ¬ Consistent file)
    (hu : UniqueIds file.groups) (h1 : 1539561600 ≤ tmin) (h2 : tmax ≤ 1541462400)
    (hopen : openWithTimes order nav true calculate tmin tmax true file = .ok out) :
    (∀ f ∈ file.flashes, ∃ g ∈ file.groups, g.pid = f.id) ∧
    (∀ e ∈ file.events, ∃ g ∈ file.groups, g.id = e.pid) ∧
    (∃ d0, repairTree order file = .ok d0 ∧ out.flashes.map (·.id) = d0.flashes.map (·.id) ∧
      out.groups.map (·.id) = d0.groups.map (·.id) ∧ out.events.map (·.id) = d0.events.map (·.id)) ∧
    out.flashes.map (·.val.times) = file.flashes.map (fun r => r.val.times.map fun n => n % 65536) ∧
    out.groups.map (·.val.times) = file.groups.map (fun r => r.val.times.map fun n => n % 65536) ∧
    out.events.map (·.val.times) = file.events.map (fun r => r.val.times.map fun n => n % 65536) := by
  unfold openWithTimes at hopen
  simp only [bind, Except.bind] at hopen
  cases hd : openDataset order nav true calculate file with
  | error e => rw [hd] at hopen; cases hopen
  | ok d =>
    rw [hd] at hopen
    simp only [needs_fix h1 h2, if_true] at hopen
    obtain ⟨⟨l1, l2, l3⟩, r1, r2, r3⟩ := correct_ok hopen
    obtain ⟨d0, hr, i1, i2, i3⟩ := open_ids hd
    obtain ⟨d0', hr', p1, p2, p3⟩ := C10_repair_partial ho h hc hu
    rw [hr] at hr'
    cases hr'
    have len := fun {a b : List (Row GVal)} (h : a.map (·.id) = b.map (·.id)) =>
      (by simpa using congrArg List.length h : a.length = b.length)
    have q1 : file.flashes.length = (file.flashes.filter fun f =>
        decide (∃ g ∈ file.groups, g.pid = f.id)).length := by
      rw [l3, len i1]
      refine p1.length_eq.trans (congrArg List.length ?_)
      apply List.filter_congr
      intro x _
      rw [decide_eq_decide]
    have q3 : file.events.length = (file.events.filter fun e =>
        decide (∃ g ∈ file.groups, g.id = e.pid)).length := by
      rw [l1, len i3]
      refine p3.length_eq.trans (congrArg List.length ?_)
      apply List.filter_congr
      intro x _
      rw [decide_eq_decide]
    refine ⟨?_, ?_, ⟨d0, hr, ?_, ?_, ?_⟩, ?_, ?_, ?_⟩
    · have := List.length_filter_eq_length_iff.mp q1.symm
      intro f hf
      exact of_decide_eq_true (this f hf)
    · have := List.length_filter_eq_length_iff.mp q3.symm
      intro f hf
      exact of_decide_eq_true (this f hf)
    · rw [r3, (zipWith_times _ _ l3).1, i1]
    · rw [r2, (zipWith_times _ _ l2).1, i2]
    · rw [r1, (zipWith_times _ _ l1).1, i3]
    · rw [r3, (zipWith_times _ _ l3).2]
    · rw [r2, (zipWith_times _ _ l2).2]
    · rw [r1, (zipWith_times _ _ l1).2]

/-- A file outside of the time of the problem, or without the new variable, keeps its times. -/
theorem C64_otherwise (order nav checkTree calculate) (tmin tmax : Int) (hasFrameTime : Bool) (file : GFile)
    (h : tmin < 1539561600 ∨ 1541462400 < tmax ∨ hasFrameTime = false) :
    openWithTimes order nav checkTree calculate tmin tmax hasFrameTime file =
      openDataset order nav checkTree calculate file := by
  have : needsTimeFix tmin tmax hasFrameTime = false := by
    unfold needsTimeFix problemStart problemEnd
    rcases h with h | h | h
    · simp [not_le.mpr h]
    · simp [not_le.mpr h]
    · simp [h]
  unfold openWithTimes
  simp only [this, bind, Except.bind, Bool.false_eq_true, if_false]
  cases openDataset order nav checkTree calculate file <;> rfl

/-- Flash 2 before flash 1, and a group without events. -/
def unsortedFile : GFile where
  flashes := [⟨2, 0, { times := [-2] }⟩, ⟨1, 0, { times := [5] }⟩]
  groups := [⟨10, 2, { times := [-2] }⟩, ⟨11, 1, { times := [5] }⟩, ⟨12, 1, { times := [6] }⟩]
  events := [⟨100, 10, { times := [-2] }⟩, ⟨101, 11, { times := [5] }⟩]

/-- C64 is violated: each of the two flashes has the times of the other. -/
theorem C64_full_false : ¬ C64_full := by
  intro h
  have hopen : (openWithTimes id (fun a b => (a, b)) true true 1540000000 1540000020 true
      unsortedFile).map (fun d => d.flashes.map fun r => (r.id, r.val.times)) =
      .ok [(1, [65534]), (2, [5])] := by rfl
  cases ho : openWithTimes id (fun a b => (a, b)) true true 1540000000 1540000020 true unsortedFile with
  | error e => rw [ho] at hopen; cases hopen
  | ok out =>
    have hf := (h id _ _ _ unsortedFile out (fun _ => List.Perm.refl _) (by unfold HasData; decide)
      (by unfold UniqueIds; decide) (by unfold UniqueIds; decide) (by unfold UniqueIds; decide)
      (by decide) (by decide) ho).1
    rw [ho] at hopen
    have hopen : out.flashes.map (fun r => (r.id, r.val.times)) = [(1, [65534]), (2, [5])] := by
      simpa [Except.map] using hopen
    cases hl : out.flashes with
    | nil => rw [hl] at hopen; cases hopen
    | cons r rs =>
      rw [hl] at hopen
      simp only [List.map_cons, List.cons.injEq, Prod.mk.injEq] at hopen
      obtain ⟨f, hfm, h1, h2⟩ := hf r (by rw [hl]; exact List.mem_cons_self)
      rw [hopen.1.1] at h1
      rw [hopen.1.2] at h2
      simp only [unsortedFile, List.mem_cons, List.not_mem_nil, or_false] at hfm
      rcases hfm with rfl | rfl
      · simp at h1
      · simp at h2

/-- A file that needs no repair. -/
example : (openWithTimes id (fun a b => (a, b)) true true 1540000000 1540000020 true
    { unsortedFile with groups := unsortedFile.groups.dropLast }).map
      (fun d => d.flashes.map fun r => (r.id, r.val.times)) = .ok [(2, [65534]), (1, [5])] := by rfl

end Verif.Props
