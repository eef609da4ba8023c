import Verif.Model.OpenOptions
import Verif.Props.Values
import Verif.Props.Examples
import Verif.Props.Units

/-!
# C153: the options of `GLMDataset`
-/

namespace Verif.Props

open Verif.Py Verif.Model Verif.Spec Verif.Proofs

/-- The rows of two datasets correspond, level by level and in order. -/
def SameRows (R : Row GVal → Row GVal → Prop) (d d' : GFile) : Prop :=
  List.Forall₂ R d.flashes d'.flashes ∧ List.Forall₂ R d.groups d'.groups ∧ List.Forall₂ R d.events d'.events

/-- Rows that differ in their times only. -/
def OtherTimes (r s : Row GVal) : Prop := s = { r with val := { r.val with times := s.val.times } }

/-- Every row is a row of the file, as far as what the file says is concerned. -/
def FromRows (file rows : List (Row GVal)) : Prop := ∀ r ∈ rows, ∃ f ∈ file, SameContent f r

/-- The default options are those of the gridding program. -/
theorem openFull_eq (order : List Int → List Int) (nav : Rat → Rat → Rat × Rat) (a : FileAttrs) (file : GFile) :
    openFull order nav a file = (openOptions order nav {} a file).map fun p => withValues p.2 p.1 := by
  unfold openFull openOptions openWithTimes timesStep
  simp only [Bool.true_and]
  cases openDataset order nav true true file with
  | error e => rfl
  | ok d =>
    simp only [bind, Except.bind]
    cases (if needsTimeFix a.productMin a.productMax a.hasFrameTime then correctTimes file d else pure d : Except Err GFile) with
    | error e => rfl
    | ok d =>
      simp only
      rcases openValues true true (valueVars a d) with ⟨v, e | u⟩ <;> rfl

/-! ## Corrections of energies and of areas do not meet -/

/-- A method that neither looks at areas nor changes them. -/
def LeavesAreas (m : Method) : Prop := ∀ d fa ga,
  m { d with flashArea := fa, groupArea := ga } = ({ (m d).1 with flashArea := fa, groupArea := ga }, (m d).2)

/-- A method that neither looks at energies nor changes them. -/
def LeavesEnergies (m : Method) : Prop := ∀ d fe ge ee,
  m { d with flashEnergy := fe, groupEnergy := ge, eventEnergy := ee } =
    ({ (m d).1 with flashEnergy := fe, groupEnergy := ge, eventEnergy := ee }, (m d).2)

theorem leavesAreas_andThen {m n : Method} (hm : LeavesAreas m) (hn : LeavesAreas n) : LeavesAreas (andThen m n) := by
  intro d fa ga
  unfold andThen
  rw [hm]
  rcases m d with ⟨d1, e | u⟩
  · rfl
  · exact hn d1 fa ga

theorem leavesEnergies_andThen {m n : Method} (hm : LeavesEnergies m) (hn : LeavesEnergies n) :
    LeavesEnergies (andThen m n) := by
  intro d fe ge ee
  unfold andThen
  rw [hm]
  rcases m d with ⟨d1, e | u⟩
  · rfl
  · exact hn d1 fe ge ee

theorem energies_leave_areas : LeavesAreas (andThen eliminateZeroEnergy changeEnergyUnits) := by
  apply leavesAreas_andThen
  · intro d fa ga
    unfold eliminateZeroEnergy
    dsimp only
    cases d.eventEnergy.addOffset <;> cases d.eventEnergy.scaleFactor <;> rfl
  · unfold changeEnergyUnits
    exact leavesAreas_andThen (fun _ _ _ => rfl) (leavesAreas_andThen (fun _ _ _ => rfl) (fun _ _ _ => rfl))

theorem areas_leave_energies : LeavesEnergies (andThen checkAreaOverflow checkAreaUnits) := by
  apply leavesEnergies_andThen
  · intro d fe ge ee
    unfold checkAreaOverflow
    dsimp only
    cases maxArea d.flashArea <;> cases maxArea d.groupArea <;> rfl
  · unfold checkAreaUnits
    exact leavesEnergies_andThen (fun _ _ _ _ => rfl) (fun _ _ _ _ => rfl)

theorem leavesAreas_result {m : Method} (hm : LeavesAreas m) (d : ValueVars) :
    (m d).1.flashArea = d.flashArea ∧ (m d).1.groupArea = d.groupArea := by
  have := hm d d.flashArea d.groupArea
  have e : (m d).1 = { (m d).1 with flashArea := d.flashArea, groupArea := d.groupArea } := congrArg Prod.fst this
  rw [e]
  exact ⟨rfl, rfl⟩

theorem leavesEnergies_result {m : Method} (hm : LeavesEnergies m) (d : ValueVars) :
    (m d).1.flashEnergy = d.flashEnergy ∧ (m d).1.groupEnergy = d.groupEnergy ∧ (m d).1.eventEnergy = d.eventEnergy := by
  have := hm d d.flashEnergy d.groupEnergy d.eventEnergy
  have e : (m d).1 = { (m d).1 with
      flashEnergy := d.flashEnergy
      groupEnergy := d.groupEnergy
      eventEnergy := d.eventEnergy } := congrArg Prod.fst this
  rw [e]
  exact ⟨rfl, rfl, rfl⟩

theorem openOptions_ok {order : List Int → List Int} {nav : Rat → Rat → Rat × Rat} {o : OpenOptions} {a : FileAttrs}
    {file d : GFile} {v : ValueVars} (h : openOptions order nav o a file = .ok (d, v)) :
    ∃ d0, openDataset order nav o.checkTree o.calculateParentChild file = .ok d0 ∧
      timesStep o a file d0 = .ok d ∧ openValues o.checkAreaUnits o.changeEnergyUnits (valueVars a d) = (v, .ok ()) := by
  unfold openOptions at h
  obtain ⟨d0, h0, h⟩ := bind_ok h
  obtain ⟨d1, h1, h⟩ := bind_ok h
  rcases hv : openValues o.checkAreaUnits o.changeEnergyUnits (valueVars a d1) with ⟨v', e | u⟩
  · rw [hv] at h; cases h
  · rw [hv] at h
    cases h
    exact ⟨d0, h0, h1, hv⟩

theorem openOptions_of {order : List Int → List Int} {nav : Rat → Rat → Rat × Rat} {o : OpenOptions} {a : FileAttrs}
    {file d0 d : GFile} {v : ValueVars} (h0 : openDataset order nav o.checkTree o.calculateParentChild file = .ok d0)
    (h1 : timesStep o a file d0 = .ok d) (hv : openValues o.checkAreaUnits o.changeEnergyUnits (valueVars a d) = (v, .ok ())) :
    openOptions order nav o a file = .ok (d, v) := by
  unfold openOptions
  rw [h0]
  simp only [bind, Except.bind, h1, hv]
  rfl

/-- C153: without `change_energy_units` the energies are those of the file in its unit, and nothing else is different. -/
theorem C153_energy {order : List Int → List Int} {nav : Rat → Rat → Rat × Rat} {o : OpenOptions} {a : FileAttrs}
    {file d : GFile} {v : ValueVars} (h : openOptions order nav o a file = .ok (d, v)) :
    ∃ v', openOptions order nav { o with changeEnergyUnits := false } a file = .ok (d, v') ∧
      v'.flashArea = v.flashArea ∧ v'.groupArea = v.groupArea ∧
      v'.flashEnergy = a.flashEnergy.column (d.flashes.map fun r => some r.val.energy) ∧
      v'.groupEnergy = a.groupEnergy.column (d.groups.map fun r => some r.val.energy) ∧
      v'.eventEnergy = a.eventEnergy.column (d.events.map fun r => some r.val.energy) := by
  obtain ⟨d0, h0, h1, hv⟩ := openOptions_ok h
  obtain ⟨v1, e1, e2⟩ := openValues_ok hv
  refine ⟨v1, openOptions_of h0 h1 ?_, ?_, ?_, ?_⟩
  · show openValues o.checkAreaUnits false (valueVars a d) = _
    unfold openValues
    rw [andThen_of_ok e1]
    rfl
  · cases hc : o.changeEnergyUnits with
    | false => rw [hc] at e2; cases e2; rfl
    | true =>
      rw [hc] at e2
      have := (leavesAreas_result energies_leave_areas v1).1
      rw [show (andThen eliminateZeroEnergy changeEnergyUnits v1) = (v, .ok ()) from e2] at this
      exact this.symm
  · cases hc : o.changeEnergyUnits with
    | false => rw [hc] at e2; cases e2; rfl
    | true =>
      rw [hc] at e2
      have := (leavesAreas_result energies_leave_areas v1).2
      rw [show (andThen eliminateZeroEnergy changeEnergyUnits v1) = (v, .ok ()) from e2] at this
      exact this.symm
  · cases hc : o.checkAreaUnits with
    | false => rw [hc] at e1; cases e1; exact ⟨rfl, rfl, rfl⟩
    | true =>
      rw [hc] at e1
      have := leavesEnergies_result areas_leave_energies (valueVars a d)
      rw [show (andThen checkAreaOverflow checkAreaUnits (valueVars a d)) = (v1, .ok ()) from e1] at this
      exact this

/-- C153: without `check_area_units` the areas are those of the file in its unit, missing ones are missing, and nothing else is
different. -/
theorem C153_area {order : List Int → List Int} {nav : Rat → Rat → Rat × Rat} {o : OpenOptions} {a : FileAttrs}
    {file d : GFile} {v : ValueVars} (h : openOptions order nav o a file = .ok (d, v)) :
    ∃ v', openOptions order nav { o with checkAreaUnits := false } a file = .ok (d, v') ∧
      v'.flashEnergy = v.flashEnergy ∧ v'.groupEnergy = v.groupEnergy ∧ v'.eventEnergy = v.eventEnergy ∧
      v'.flashArea = a.flashArea.column (d.flashes.map fun r => if a.noFlashArea r.id then none else some r.val.area) ∧
      v'.groupArea = a.groupArea.column (d.groups.map fun r => if a.noGroupArea r.id then none else some r.val.area) := by
  obtain ⟨d0, h0, h1, hv⟩ := openOptions_ok h
  obtain ⟨v1, e1, e2⟩ := openValues_ok hv
  have hfirst : v1 = { valueVars a d with flashArea := v1.flashArea, groupArea := v1.groupArea } := by
    cases hc : o.checkAreaUnits with
    | false => rw [hc] at e1; cases e1; rfl
    | true =>
      rw [hc] at e1
      have := leavesEnergies_result areas_leave_energies (valueVars a d)
      rw [show (andThen checkAreaOverflow checkAreaUnits (valueVars a d)) = (v1, .ok ()) from e1] at this
      obtain ⟨x, y, z⟩ := this
      obtain ⟨fe, ge, ee, fa, ga⟩ := v1
      simp only at x y z
      subst x y z
      rfl
  cases hc : o.changeEnergyUnits with
  | false =>
    rw [hc] at e2
    cases e2
    refine ⟨valueVars a d, openOptions_of h0 h1 ?_, ?_⟩
    · show openValues false false (valueVars a d) = _
      rfl
    · rw [hfirst]; exact ⟨rfl, rfl, rfl, rfl, rfl⟩
  | true =>
    rw [hc] at e2
    have e2' : andThen eliminateZeroEnergy changeEnergyUnits v1 = (v, .ok ()) := e2
    have h2 := energies_leave_areas (valueVars a d) v1.flashArea v1.groupArea
    rw [← hfirst, e2'] at h2
    have h3 : (andThen eliminateZeroEnergy changeEnergyUnits (valueVars a d)).2 = .ok () := (congrArg Prod.snd h2).symm
    have h4 : v = { (andThen eliminateZeroEnergy changeEnergyUnits (valueVars a d)).1 with
      flashArea := v1.flashArea, groupArea := v1.groupArea } := congrArg Prod.fst h2
    refine ⟨(andThen eliminateZeroEnergy changeEnergyUnits (valueVars a d)).1, openOptions_of h0 h1 ?_, ?_⟩
    · show openValues false true (valueVars a d) = _
      show andThen eliminateZeroEnergy changeEnergyUnits (valueVars a d) = _
      rw [← h3]
    · have := leavesAreas_result energies_leave_areas (valueVars a d)
      refine ⟨?_, ?_, ?_, this.1, this.2⟩ <;> rw [h4]

/-! ## Rows -/

theorem repair_rows {order : List Int → List Int} {file d : GFile} (h : repairTree order file = .ok d) :
    d.flashes ⊆ file.flashes ∧ d.groups ⊆ file.groups ∧ d.events ⊆ file.events := by
  by_cases hd : HasData file
  · by_cases hc : Consistent file
    · rw [repair_consistent order hd hc] at h
      cases h
      exact ⟨fun _ h => h, fun _ h => h, fun _ h => h⟩
    · rw [repair_inconsistent order hd hc] at h
      cases h
      refine ⟨fun r hr => ?_, fun r hr => (mem_childrenInOrder.mp hr).1, fun r hr => (mem_childrenInOrder.mp hr).1⟩
      simp only [keptFlashes, rowsInOrder, List.mem_flatMap, List.mem_filter] at hr
      obtain ⟨_, _, hr, _⟩ := hr
      exact hr
  · rw [repair_noData order hd] at h; cases h

theorem sameRows_trans {d d' d'' : GFile} (h : SameRows SameContent d d') (k : SameRows SameContent d' d'') :
    SameRows SameContent d d'' :=
  ⟨forall₂_trans_same (R := SameContent) SameContent.trans h.1 k.1,
    forall₂_trans_same (R := SameContent) SameContent.trans h.2.1 k.2.1,
    forall₂_trans_same (R := SameContent) SameContent.trans h.2.2 k.2.2⟩

theorem initParentChild_rows {d out : GFile} (h : initParentChild d = .ok out) : SameRows SameContent d out := by
  have hs := initParentChild_same h
  refine ⟨hs.1, hs.2.1, ?_⟩
  have last : ∀ (ids : List Int) (ev : List (Row GVal)) (fc gc count : List Nat),
      setVar setFlashOf d.events ids = .ok ev →
      (do let flashes ← setVar setNGroups d.flashes fc
          let groups ← setVar setNEvents d.groups gc
          let flashes ← setVar setNEvents flashes count
          pure ⟨flashes, groups, ev⟩ : Except Err GFile) = .ok out → List.Forall₂ SameContent d.events out.events := by
    intro ids ev fc gc count he hi
    obtain ⟨fl, hfl, hi⟩ := bind_ok hi
    obtain ⟨gr, hgr, hi⟩ := bind_ok hi
    obtain ⟨fl2, hfl2, hi⟩ := bind_ok hi
    cases hi
    exact setVar_same (upd := setFlashOf) (fun _ _ => ⟨rfl, rfl, rfl, rfl, rfl, rfl, rfl⟩) he
  unfold initParentChild at h
  by_cases hn : d.flashes.length = 0 ∨ d.groups.length = 0 ∨ d.events.length = 0
  · simp only [if_pos hn] at h
    obtain ⟨ids, -, h⟩ := bind_ok h
    obtain ⟨ev, he, h⟩ := bind_ok h
    obtain ⟨t, ht, h⟩ := bind_ok h
    exact last _ _ _ _ _ he h
  · simp only [if_neg hn] at h
    obtain ⟨ids, -, h⟩ := bind_ok h
    obtain ⟨ev, he, h⟩ := bind_ok h
    obtain ⟨all, -, h⟩ := bind_ok h
    match all, h with
    | fc :: gc :: _, h =>
      obtain ⟨t, ht, h⟩ := bind_ok h
      exact last _ _ _ _ _ he h
    | [], h => cases h
    | [_], h => cases h

theorem initFixedGrid_rows (nav : Rat → Rat → Rat × Rat) (d : GFile) : SameRows SameContent d (initFixedGrid nav d) := by
  have h : ∀ l : List (Row GVal), List.Forall₂ SameContent l (l.map (setXY nav)) := by
    intro l
    induction l with
    | nil => exact .nil
    | cons r l ih => exact .cons ⟨rfl, rfl, rfl, rfl, rfl, rfl, rfl⟩ ih
  exact ⟨h _, h _, h _⟩

/-- Opening is repairing, then adding variables. -/
theorem openDataset_rows {order : List Int → List Int} {nav : Rat → Rat → Rat × Rat} {tree pc : Bool} {file d : GFile}
    (h : openDataset order nav tree pc file = .ok d) :
    ∃ d0, (if tree then repairTree order file else pure file) = .ok d0 ∧ SameRows SameContent d0 d := by
  have refl : ∀ l : List (Row GVal), List.Forall₂ SameContent l l := fun l => by
    induction l with
    | nil => exact .nil
    | cons r l ih => exact .cons (sameContent_refl r) ih
  have key : ∀ d0 : GFile, (if pc then do let d ← initParentChild d0; pure (initFixedGrid nav d) else pure d0) = .ok d →
      SameRows SameContent d0 d := by
    intro d0 h
    cases pc with
    | false => cases h; exact ⟨refl _, refl _, refl _⟩
    | true =>
      obtain ⟨d1, h1, h⟩ := bind_ok h
      cases h
      exact sameRows_trans (initParentChild_rows h1) (initFixedGrid_rows nav d1)
  unfold openDataset at h
  cases tree with
  | false => exact ⟨file, rfl, key _ h⟩
  | true =>
    obtain ⟨d0, h0, h⟩ := bind_ok h
    exact ⟨d0, h0, key _ h⟩

theorem openDataset_plain {order : List Int → List Int} {nav : Rat → Rat → Rat × Rat} {tree : Bool} {file d0 : GFile}
    (h : (if tree then repairTree order file else pure file) = .ok d0) :
    openDataset order nav tree false file = .ok d0 := by
  unfold openDataset
  cases tree with
  | false => cases h; rfl
  | true =>
    simp only [if_true] at h ⊢
    rw [h]
    rfl

theorem valueVars_rows {a : FileAttrs} {d d' : GFile} {R : Row GVal → Row GVal → Prop}
    (hR : ∀ r s, R r s → r.id = s.id ∧ r.val.energy = s.val.energy ∧ r.val.area = s.val.area) (h : SameRows R d d') :
    valueVars a d = valueVars a d' := by
  have key : ∀ (f : Row GVal → Option Rat), (∀ r s, R r s → f r = f s) → ∀ {l l' : List (Row GVal)},
      List.Forall₂ R l l' → l.map f = l'.map f := by
    intro f hf l l' h
    induction h with
    | nil => rfl
    | cons hab _ ih => rw [List.map_cons, List.map_cons, hf _ _ hab, ih]
  have he : ∀ r s, R r s → some r.val.energy = some s.val.energy := fun r s h => by rw [(hR r s h).2.1]
  have ha : ∀ (p : Int → Bool) (r s : Row GVal), R r s →
      (if p r.id then none else some r.val.area) = (if p s.id then none else some s.val.area : Option Rat) :=
    fun p r s h => by rw [(hR r s h).2.2, (hR r s h).1]
  unfold valueVars
  rw [key _ he h.1, key _ he h.2.1, key _ he h.2.2, key _ (ha a.noFlashArea) h.1, key _ (ha a.noGroupArea) h.2.1]

theorem otherTimes_zip : ∀ (rows : List (Row GVal)) (ts : List (List Int)), ts.length = rows.length →
    List.Forall₂ OtherTimes (List.zipWith setTimes rows ts) rows
  | [], [], _ => .nil
  | _ :: rows, _ :: ts, h => .cons rfl (otherTimes_zip rows ts (by simpa using h))

theorem timesStep_other {o : OpenOptions} {a : FileAttrs} {file d0 d : GFile} (h : timesStep o a file d0 = .ok d) :
    SameRows OtherTimes d d0 := by
  unfold timesStep at h
  split at h
  · obtain ⟨⟨l1, l2, l3⟩, r1, r2, r3⟩ := correct_ok h
    refine ⟨?_, ?_, ?_⟩
    · rw [r3]; exact otherTimes_zip _ _ (by simpa using l3)
    · rw [r2]; exact otherTimes_zip _ _ (by simpa using l2)
    · rw [r1]; exact otherTimes_zip _ _ (by simpa using l1)
  · cases h
    have refl : ∀ l : List (Row GVal), List.Forall₂ OtherTimes l l := fun l => by
      induction l with
      | nil => exact .nil
      | cons r l ih => exact .cons rfl ih
    exact ⟨refl _, refl _, refl _⟩

/-- The rows of an opened dataset before its times are corrected. -/
theorem openDataset_from {order : List Int → List Int} {nav : Rat → Rat → Rat × Rat} {tree pc : Bool} {file d : GFile}
    (h : openDataset order nav tree pc file = .ok d) :
    FromRows file.flashes d.flashes ∧ FromRows file.groups d.groups ∧ FromRows file.events d.events := by
  obtain ⟨d0, h0, hs⟩ := openDataset_rows h
  have key : ∀ {f l l' : List (Row GVal)}, l ⊆ f → List.Forall₂ SameContent l l' → FromRows f l' := by
    intro f l l' hsub h
    induction h with
    | nil => intro r hr; cases hr
    | @cons x y _ _ hxy _ ih =>
      intro r hr
      rcases List.mem_cons.mp hr with rfl | hr
      · exact ⟨x, hsub List.mem_cons_self, hxy⟩
      · exact ih (fun _ hm => hsub (List.mem_cons_of_mem _ hm)) r hr
  cases tree with
  | false =>
    cases h0
    exact ⟨key (fun _ h => h) hs.1, key (fun _ h => h) hs.2.1, key (fun _ h => h) hs.2.2⟩
  | true =>
    obtain ⟨a, b, c⟩ := repair_rows (show repairTree order file = .ok d0 from h0)
    exact ⟨key a hs.1, key b hs.2.1, key c hs.2.2⟩

/-- C153: without `fix_bad_DO07_times` every row is a row of the file, with the times it has there; only times are different
from those with the option. -/
theorem C153_times {order : List Int → List Int} {nav : Rat → Rat → Rat × Rat} {o : OpenOptions} {a : FileAttrs}
    {file d : GFile} {v : ValueVars} (h : openOptions order nav o a file = .ok (d, v)) :
    ∃ d', openOptions order nav { o with fixTimes := false } a file = .ok (d', v) ∧ SameRows OtherTimes d d' ∧
      FromRows file.flashes d'.flashes ∧ FromRows file.groups d'.groups ∧ FromRows file.events d'.events := by
  obtain ⟨d0, h0, h1, hv⟩ := openOptions_ok h
  have hs := timesStep_other h1
  refine ⟨d0, openOptions_of h0 rfl ?_, hs, openDataset_from h0⟩
  show openValues o.checkAreaUnits o.changeEnergyUnits (valueVars a d0) = _
  rw [← valueVars_rows (R := OtherTimes) ?_ hs]
  · exact hv
  · intro r s h
    rw [h]
    exact ⟨rfl, rfl, rfl⟩

/-- C153: without `check_tree` no row of the file is dropped or moved. -/
theorem C153_all_rows {order : List Int → List Int} {nav : Rat → Rat → Rat × Rat} {o : OpenOptions} {a : FileAttrs}
    {file d : GFile} {v : ValueVars} (ht : o.checkTree = false) (hf : o.fixTimes = false)
    (h : openOptions order nav o a file = .ok (d, v)) : SameRows SameContent file d := by
  obtain ⟨d0, h0, h1, -⟩ := openOptions_ok h
  rw [ht] at h0
  obtain ⟨d1, h2, hs⟩ := openDataset_rows h0
  cases h2
  unfold timesStep at h1
  rw [hf] at h1
  cases h1
  exact hs

/-- C153: `check_tree` makes no difference to a file whose tree is consistent. -/
theorem C153_tree (order : List Int → List Int) (nav : Rat → Rat → Rat × Rat) (o : OpenOptions) (a : FileAttrs)
    {file : GFile} (hd : HasData file) (hc : Consistent file) :
    openOptions order nav { o with checkTree := true } a file = openOptions order nav { o with checkTree := false } a file := by
  have e : openDataset order nav true o.calculateParentChild file = openDataset order nav false o.calculateParentChild file := by
    unfold openDataset
    simp only [if_true, repair_consistent order hd hc]
    rfl
  unfold openOptions
  simp only
  rw [e]
  rfl

/-- C153: without `calculate_parent_child` only the variables that are computed are missing: everything that comes from the file
is the same. -/
theorem C153_parents {order : List Int → List Int} {nav : Rat → Rat → Rat × Rat} {o : OpenOptions} {a : FileAttrs}
    {file d : GFile} {v : ValueVars} (h : openOptions order nav o a file = .ok (d, v)) :
    ∃ d', openOptions order nav { o with calculateParentChild := false } a file = .ok (d', v) ∧ SameRows SameContent d' d := by
  obtain ⟨d0, h0, h1, hv⟩ := openOptions_ok h
  obtain ⟨d1, h2, hs⟩ := openDataset_rows h0
  have hp := openDataset_plain (nav := nav) h2
  obtain ⟨d2, h3, hs2⟩ : ∃ d2, timesStep o a file d1 = .ok d2 ∧ SameRows SameContent d2 d := by
    unfold timesStep at h1 ⊢
    split at h1
    · rename_i hc
      rw [if_pos hc]
      obtain ⟨⟨l1, l2, l3⟩, r1, r2, r3⟩ := correct_ok h1
      obtain ⟨d2, h4⟩ := correct_of_lengths (file := file) (d := d1) (l1.trans hs.2.2.length_eq.symm)
        (l2.trans hs.2.1.length_eq.symm) (l3.trans hs.1.length_eq.symm)
      refine ⟨d2, h4, ?_⟩
      obtain ⟨-, q1, q2, q3⟩ := correct_ok h4
      have key : ∀ {l l' : List (Row GVal)} (ts : List (List Int)), List.Forall₂ SameContent l l' →
          List.Forall₂ SameContent (List.zipWith setTimes l ts) (List.zipWith setTimes l' ts) := by
        intro l l' ts h
        induction h generalizing ts with
        | nil => simp
        | cons hab _ ih =>
          cases ts with
          | nil => simp
          | cons t ts => exact .cons ⟨hab.id, hab.pid, hab.lon, hab.lat, hab.energy, hab.area, rfl⟩ (ih ts)
      refine ⟨?_, ?_, ?_⟩
      · rw [r3, q3]; exact key _ hs.1
      · rw [r2, q2]; exact key _ hs.2.1
      · rw [r1, q1]; exact key _ hs.2.2
    · rename_i hc
      rw [if_neg hc]
      cases h1
      exact ⟨d1, rfl, hs⟩
  refine ⟨d2, openOptions_of hp h3 ?_, hs2⟩
  show openValues o.checkAreaUnits o.changeEnergyUnits (valueVars a d2) = _
  rw [valueVars_rows (R := SameContent) (fun r s h => ⟨h.id, h.energy, h.area⟩) hs2]
  exact hv

/-! ## A file for which every option matters -/

/-- Attributes of a file of October 2018 with energies and areas in units of SI. -/
def octoberAttrs : FileAttrs :=
  { plainAttrs with productMin := 1539561600, productMax := 1539561620, hasFrameTime := true }

/-- One flash of one group of one event, with times that were read as signed numbers. -/
def octoberFile : GFile where
  flashes := [⟨5, 0, { area := 100000000, energy := 3, times := [-1, 7] }⟩]
  groups := [⟨11, 5, { area := 50000000, energy := 3, times := [-1] }⟩]
  events := [⟨100, 11, { energy := 3, times := [-1] }⟩]

def octoberOpen (o : OpenOptions) : Option (List (Rat × Rat × List Int × Nat)) :=
  match openOptions id toyNav o octoberAttrs octoberFile with
  | .ok (d, v) => some ((withValues v d).flashes.map fun r => (r.val.energy, r.val.area, r.val.times, r.val.nEvents))
  | .error _ => none

/-- All hypotheses of the theorems above hold for this file, and each option makes a difference. -/
example : HasData octoberFile ∧ Consistent octoberFile := by unfold HasData; decide

example : octoberOpen {} = some [(3000000000, 100, [65535, 7], 1)] := by decide +kernel
example : octoberOpen { changeEnergyUnits := false } = some [(3, 100, [65535, 7], 1)] := by decide +kernel
example : octoberOpen { checkAreaUnits := false } = some [(3000000000, 100000000, [65535, 7], 1)] := by decide +kernel
example : octoberOpen { fixTimes := false } = some [(3000000000, 100, [-1, 7], 1)] := by decide +kernel
example : octoberOpen { calculateParentChild := false } = some [(3000000000, 100, [65535, 7], 0)] := by decide +kernel

/-- With the check of the tree an event of no group is dropped. -/
example : (openOptions id toyNav { fixTimes := false } plainAttrs brokenFile).toOption.map (·.1.events.map Row.id) =
      some [102, 103, 101, 100, 104] := by decide +kernel
example : (openOptions id toyNav { fixTimes := false, checkTree := false, calculateParentChild := false } plainAttrs
      brokenFile).toOption.map (·.1.events.map Row.id) = some [100, 101, 102, 103, 104, 105] := by decide +kernel

end Verif.Props
