import Verif.Model.InMemory
import Verif.Props.OpenOptions

/-!
# C154: datasets in memory

`GLMDataset(dataset)` for a dataset that the caller has in memory.
-/

namespace Verif.Props

open Verif.Py Verif.Model Verif.Spec Verif.Proofs

/-- C154: the dataset that is given to `GLMDataset` is not changed. -/
def C154_full : Prop := ∀ (notAFile : Err) (order : List Int → List Int) (nav : Rat → Rat → Rat × Rat) (o : OpenOptions)
  (m : Objects) (ref : Nat) (x : DataObject), m[ref]? = some x → (openObject notAFile order nav o m ref).1[ref]? = some x

theorem assignRows_ok {β : Type} {upd : Row GVal → β → Row GVal} {rows out : List (Row GVal)} {xs : List β}
    (h : setVar upd rows xs = .ok out) : assignRows upd rows xs = (out, .ok ()) := by
  unfold assignRows; rw [h]

theorem assignRows_error {β : Type} {upd : Row GVal → β → Row GVal} {rows : List (Row GVal)} {xs : List β} {e : Err}
    (h : setVar upd rows xs = .error e) : assignRows upd rows xs = (rows, .error e) := by
  unfold assignRows; rw [h]

/-- Step by step, the parent-child calculation is that of `Verif.Model.Dataset`. -/
theorem parentChildSteps_eq (d : GFile) :
    initParentChild d = (parentChildSteps d).2.map fun _ => (parentChildSteps d).1 := by
  have tail : ∀ (events : List (Row GVal)) (fc gc count : List Nat),
      (do let flashes ← setVar setNGroups d.flashes fc
          let groups ← setVar setNEvents d.groups gc
          let flashes ← setVar setNEvents flashes count
          pure ⟨flashes, groups, events⟩ : Except Err GFile) =
        (countSteps d events fc gc count).2.map fun _ => (countSteps d events fc gc count).1 := by
    intro events fc gc count
    unfold countSteps
    cases h1 : setVar setNGroups d.flashes fc with
    | error e => simp only [assignRows_error h1]; rfl
    | ok fl =>
      simp only [assignRows_ok h1, bind, Except.bind]
      cases h2 : setVar setNEvents d.groups gc with
      | error e => simp only [assignRows_error h2]; rfl
      | ok gr =>
        simp only [assignRows_ok h2]
        cases h3 : setVar setNEvents fl count with
        | error e => simp only [assignRows_error h3]; rfl
        | ok fl2 => simp only [assignRows_ok h3]; rfl
  unfold initParentChild parentChildSteps
  by_cases hn : d.flashes.length = 0 ∨ d.groups.length = 0 ∨ d.events.length = 0
  · simp only [if_pos hn]
    show (do
      let events ← setVar setFlashOf d.events []
      _) = _
    cases he : setVar setFlashOf d.events [] with
    | error e => simp only [assignRows_error he, pure, Except.pure]; rfl
    | ok events =>
      simp only [assignRows_ok he, pure, Except.pure]
      exact tail events [] [] []
  · simp only [if_neg hn]
    cases replicateParentIds d.levels "flash_id" "event_parent_group_id" with
    | error e => rfl
    | ok ids =>
      simp only [bind, Except.bind]
      cases he : setVar setFlashOf d.events ids with
      | error e => simp only [assignRows_error he]; rfl
      | ok events =>
        simp only [assignRows_ok he]
        cases countChildren d.levels "flash_id" (some "event_id") with
        | error e => rfl
        | ok all =>
          match all with
          | fc :: gc :: _ => exact tail events fc gc _
          | [] => rfl
          | [_] => rfl

theorem parentChildSteps_ok {d d' : GFile} (h : initParentChild d = .ok d') : parentChildSteps d = (d', .ok ()) := by
  rw [parentChildSteps_eq] at h
  rcases hp : parentChildSteps d with ⟨d1, e | u⟩
  · rw [hp] at h; cases h
  · rw [hp] at h; cases h; rfl

/-- What the check of the tree does to a dataset in memory. -/
theorem repairObject_consistent {order : List Int → List Int} {x : DataObject} (h : HasData x.rows) (hc : Consistent x.rows) :
    repairObject order x = .ok none := by
  obtain ⟨es, ps, h1, h2, -⟩ := check_levels h
  simp [repairObject, h1, h2, hc, repair_consistent order h hc, bind, Except.bind, pure, Except.pure]

theorem repairObject_inconsistent {order : List Int → List Int} {x : DataObject} (h : HasData x.rows)
    (hc : ¬ Consistent x.rows) : ∃ rows, repairTree order x.rows = .ok rows ∧
      repairObject order x = .ok (some (.ofFile x.attrs rows)) := by
  obtain ⟨es, ps, h1, h2, -⟩ := check_levels h
  refine ⟨_, repair_inconsistent order h hc, ?_⟩
  simp [repairObject, h1, h2, hc, repair_inconsistent order h hc, bind, Except.bind, pure, Except.pure]

theorem repairObject_noData {order : List Int → List Int} {x : DataObject} (h : ¬ HasData x.rows) :
    ∃ e, repairObject order x = .error e := by
  have hr := repair_noData order h
  unfold repairObject
  cases hc : checkParentChild x.rows.levels with
  | error e => exact ⟨e, rfl⟩
  | ok t => exact ⟨.attributeError, by simp only [bind, Except.bind, hr]⟩

/-- C154: no other dataset in memory is changed, whether the call succeeds or not. -/
theorem C154_others (notAFile : Err) (order : List Int → List Int) (nav : Rat → Rat → Rat × Rat) (o : OpenOptions)
    {m : Objects} {ref k : Nat} {y : DataObject} (hk : k ≠ ref) (hy : m[k]? = some y) :
    (openObject notAFile order nav o m ref).1[k]? = some y := by
  have hlt : k < m.length := (List.getElem?_eq_some_iff.mp hy).1
  unfold openObject
  cases hx : m[ref]? with
  | none => exact hy
  | some x =>
    simp only
    rcases (if o.checkTree then repairObject order x else pure none : Except Err (Option DataObject)) with e | (_ | z)
    · exact hy
    · simp only [List.getElem?_set]
      rw [if_neg (Ne.symm hk)]
      exact hy
    · simp only
      rw [List.getElem?_append_left hlt]
      exact hy

/-- C154, where it holds: a dataset whose tree has to be repaired is not changed, whatever the other options, and whether the call
succeeds or not.  The opened dataset is a new one. -/
theorem C154_partial (notAFile : Err) (order : List Int → List Int) (nav : Rat → Rat → Rat × Rat) {o : OpenOptions}
    {m : Objects} {ref : Nat} {x : DataObject} (ht : o.checkTree = true) (hx : m[ref]? = some x)
    (hc : ¬ (HasData x.rows ∧ Consistent x.rows)) :
    (openObject notAFile order nav o m ref).1[ref]? = some x ∧
      ∀ r, (openObject notAFile order nav o m ref).2 = .ok r → r = m.length := by
  have hlt : ref < m.length := (List.getElem?_eq_some_iff.mp hx).1
  unfold openObject
  simp only [hx, ht, if_true]
  by_cases hd : HasData x.rows
  · obtain ⟨rows, -, h⟩ := repairObject_inconsistent (order := order) hd (fun h => hc ⟨hd, h⟩)
    rw [h]
    simp only
    refine ⟨by rw [List.getElem?_append_left hlt]; exact hx, ?_⟩
    intro r hr
    revert hr
    rcases (openInPlace notAFile nav o (.ofFile x.attrs rows)).2 with e | u
    · intro hr; cases hr
    · intro hr; cases hr; rfl
  · obtain ⟨e, h⟩ := repairObject_noData (order := order) hd
    rw [h]
    exact ⟨hx, fun r hr => by cases hr⟩

/-- If there is nothing to repair, or no check, the rest happens to the given dataset. -/
theorem openObject_inPlace (notAFile : Err) (order : List Int → List Int) (nav : Rat → Rat → Rat × Rat) {o : OpenOptions}
    {m : Objects} {ref : Nat} {x : DataObject} (hx : m[ref]? = some x)
    (hc : o.checkTree = true → HasData x.rows ∧ Consistent x.rows) :
    (openObject notAFile order nav o m ref).1[ref]? = some (openInPlace notAFile nav o x).1 ∧
      (openObject notAFile order nav o m ref).2 = (openInPlace notAFile nav o x).2.map fun _ => ref := by
  have hlt : ref < m.length := (List.getElem?_eq_some_iff.mp hx).1
  have h : (if o.checkTree then repairObject order x else pure none : Except Err (Option DataObject)) = .ok none := by
    cases ht : o.checkTree with
    | false => rfl
    | true =>
      obtain ⟨h1, h2⟩ := hc ht
      exact repairObject_consistent h1 h2
  unfold openObject
  simp only [hx, h]
  exact ⟨by rw [List.getElem?_set_self hlt], trivial⟩

theorem openInPlace_values {notAFile : Err} {nav : Rat → Rat → Rat × Rat} {o : OpenOptions} {a : FileAttrs} {rows d : GFile}
    {v : ValueVars} {r : Except Err Unit} (hn : (o.fixTimes && needsTimeFix a.productMin a.productMax a.hasFrameTime) = false)
    (hr : (if o.calculateParentChild then do let d ← initParentChild rows; pure (initFixedGrid nav d) else pure rows) = .ok d)
    (hv : openValues o.checkAreaUnits o.changeEnergyUnits (valueVars a rows) = (v, r)) :
    openInPlace notAFile nav o (.ofFile a rows) = (⟨a, d, v⟩, r) := by
  unfold openInPlace DataObject.ofFile
  cases hp : o.calculateParentChild with
  | false =>
    rw [hp] at hr
    cases hr
    simp only [Bool.false_eq_true, if_false, hn, hv]
  | true =>
    rw [hp] at hr
    obtain ⟨d1, h1, hr⟩ := bind_ok hr
    cases hr
    simp only [if_true, parentChildSteps_ok h1, hn, hv, Bool.false_eq_true, if_false]

/-- C154: a dataset in memory is opened as the file it was read from. -/
theorem C154_same {notAFile : Err} {order : List Int → List Int} {nav : Rat → Rat → Rat × Rat} {o : OpenOptions}
    {a : FileAttrs} {file d : GFile} {v : ValueVars} {m : Objects} {ref : Nat}
    (hn : (o.fixTimes && needsTimeFix a.productMin a.productMax a.hasFrameTime) = false)
    (hx : m[ref]? = some (.ofFile a file)) (h : openOptions order nav o a file = .ok (d, v)) :
    ∃ r, (openObject notAFile order nav o m ref).2 = .ok r ∧
      (openObject notAFile order nav o m ref).1[r]? = some ⟨a, d, v⟩ := by
  obtain ⟨d0, h0, h1, hv⟩ := openOptions_ok h
  unfold timesStep at h1
  rw [hn] at h1
  cases h1
  obtain ⟨d1, h2, hs⟩ := openDataset_rows h0
  have hrest : (if o.calculateParentChild then do let d ← initParentChild d1; pure (initFixedGrid nav d) else pure d1) = .ok d := by
    unfold openDataset at h0
    cases ht : o.checkTree with
    | false => rw [ht] at h0 h2; cases h2; exact h0
    | true =>
      rw [ht] at h0 h2
      obtain ⟨d2, h3, h0⟩ := bind_ok h0
      rw [show repairTree order file = .ok d1 from h2] at h3
      cases h3
      exact h0
  rw [← valueVars_rows (R := SameContent) (fun r s h => ⟨h.id, h.energy, h.area⟩) hs] at hv
  have hin := openInPlace_values (notAFile := notAFile) hn hrest hv
  by_cases hc : o.checkTree = true → HasData file ∧ Consistent file
  · have hd1 : d1 = file := by
      cases ht : o.checkTree with
      | false => rw [ht] at h2; cases h2; rfl
      | true =>
        rw [ht] at h2
        obtain ⟨ha, hb⟩ := hc ht
        rw [if_pos rfl, repair_consistent order ha hb] at h2
        cases h2; rfl
    subst hd1
    obtain ⟨e1, e2⟩ := openObject_inPlace notAFile order nav (o := o) hx hc
    rw [hin] at e1 e2
    exact ⟨ref, e2, e1⟩
  · have ht : o.checkTree = true := by
      by_contra hne
      exact hc fun h => absurd h hne
    rw [ht, if_pos rfl] at h2
    have hd : HasData file := by
      by_contra hd
      rw [repair_noData order hd] at h2
      cases h2
    have hcons : ¬ Consistent file := fun h => hc fun _ => ⟨hd, h⟩
    obtain ⟨rows, h3, h4⟩ := repairObject_inconsistent (order := order) (x := .ofFile a file) hd hcons
    rw [show repairTree order (DataObject.ofFile a file).rows = .ok d1 from h2] at h3
    cases h3
    have key : openObject notAFile order nav o m ref = (m ++ [⟨a, d, v⟩], .ok m.length) := by
      unfold openObject
      simp only [hx, ht, if_true, h4]
      rw [show (DataObject.ofFile (DataObject.ofFile a file).attrs d1) = .ofFile a d1 from rfl, hin]
      rfl
    rw [key]
    exact ⟨m.length, rfl, by simp⟩

/-- C154: a dataset of the time of the bad times can not be opened from memory with the correction of times. -/
theorem C154_refused (notAFile : Err) (order : List Int → List Int) (nav : Rat → Rat → Rat × Rat) {o : OpenOptions}
    {m : Objects} {ref : Nat} {x : DataObject} (hf : o.fixTimes = true) (hx : m[ref]? = some x) (hb : badTimes x.attrs) :
    ∃ e, (openObject notAFile order nav o m ref).2 = .error e := by
  have key : ∀ y : DataObject, y.attrs = x.attrs → ∃ e, (openInPlace notAFile nav o y).2 = .error e := by
    intro y hy
    unfold openInPlace
    rcases (if o.calculateParentChild then parentChildSteps y.rows else (y.rows, .ok ()) : GFile × Except Err Unit) with
      ⟨rows, e | u⟩
    · exact ⟨e, rfl⟩
    · simp only [hf, hy, (needs_iff x.attrs).mpr hb, Bool.and_true, if_true]
      exact ⟨notAFile, rfl⟩
  unfold openObject
  simp only [hx]
  rcases h : (if o.checkTree then repairObject order x else pure none : Except Err (Option DataObject)) with e | (_ | z)
  · exact ⟨e, rfl⟩
  · obtain ⟨e, he⟩ := key x rfl
    simp only [he]
    exact ⟨e, rfl⟩
  · have hz : z.attrs = x.attrs := by
      cases ht : o.checkTree with
      | false => rw [ht] at h; cases h
      | true =>
        rw [ht, if_pos rfl] at h
        by_cases hd : HasData x.rows
        · by_cases hc : Consistent x.rows
          · rw [repairObject_consistent hd hc] at h; cases h
          · obtain ⟨rows, -, h4⟩ := repairObject_inconsistent (order := order) hd hc
            rw [h4] at h
            cases h; rfl
        · obtain ⟨e, h4⟩ := repairObject_noData (order := order) hd
          rw [h4] at h; cases h
    obtain ⟨e, he⟩ := key z hz
    simp only [he]
    exact ⟨e, rfl⟩

/-- C154, where it does not hold: with a consistent tree, or without the check, the dataset that was given is the opened one: it has
the new variables and the new units, and there is no other. -/
theorem C154_exact {notAFile : Err} {order : List Int → List Int} {nav : Rat → Rat → Rat × Rat} {o : OpenOptions}
    {a : FileAttrs} {file d : GFile} {v : ValueVars} {m : Objects} {ref : Nat}
    (hn : (o.fixTimes && needsTimeFix a.productMin a.productMax a.hasFrameTime) = false)
    (hc : o.checkTree = true → HasData file ∧ Consistent file)
    (hx : m[ref]? = some (.ofFile a file)) (h : openOptions order nav o a file = .ok (d, v)) :
    (openObject notAFile order nav o m ref).2 = .ok ref ∧ (openObject notAFile order nav o m ref).1[ref]? = some ⟨a, d, v⟩ := by
  obtain ⟨r, h1, h2⟩ := C154_same (notAFile := notAFile) hn hx h
  have h3 := (openObject_inPlace notAFile order nav (o := o) hx hc).2
  rw [h1] at h3
  have : r = ref := by
    revert h3
    rcases (openInPlace notAFile nav o (.ofFile a file)).2 with e | u
    · intro h; cases h
    · intro h; cases h; rfl
  subst this
  exact ⟨h1, h2⟩

/-- C154: a call that fails in the last step, because the event energies have lost their offset, leaves the dataset that was given
half done: everything but the energies is as if the file had been opened without their change of units. -/
theorem C154_half {notAFile : Err} {order : List Int → List Int} {nav : Rat → Rat → Rat × Rat} {o : OpenOptions}
    {a : FileAttrs} {file d : GFile} {v : ValueVars} {m : Objects} {ref : Nat}
    (hn : (o.fixTimes && needsTimeFix a.productMin a.productMax a.hasFrameTime) = false)
    (hc : o.checkTree = true → HasData file ∧ Consistent file) (he : o.changeEnergyUnits = true)
    (hoff : a.eventEnergy.addOffset = none) (hx : m[ref]? = some (.ofFile a file))
    (h : openOptions order nav { o with changeEnergyUnits := false } a file = .ok (d, v)) :
    (openObject notAFile order nav o m ref).2 = .error .keyError ∧
      (openObject notAFile order nav o m ref).1[ref]? = some ⟨a, d, v⟩ := by
  obtain ⟨d0, h0, h1, hv⟩ := openOptions_ok h
  replace h0 : openDataset order nav o.checkTree o.calculateParentChild file = .ok d0 := h0
  replace h1 : timesStep o a file d0 = .ok d := h1
  replace hv : openValues o.checkAreaUnits false (valueVars a d) = (v, .ok ()) := hv
  unfold timesStep at h1
  rw [hn] at h1
  cases h1
  obtain ⟨d1, h2, hs⟩ := openDataset_rows h0
  have hd1 : d1 = file := by
    cases ht : o.checkTree with
    | false => rw [ht] at h2; cases h2; rfl
    | true =>
      rw [ht] at h2
      obtain ⟨ha, hb⟩ := hc ht
      rw [if_pos rfl, repair_consistent order ha hb] at h2
      cases h2; rfl
  subst hd1
  have hrest : (if o.calculateParentChild then do let d ← initParentChild d1; pure (initFixedGrid nav d) else pure d1) = .ok d := by
    unfold openDataset at h0
    cases ht : o.checkTree with
    | false => rw [ht] at h0; exact h0
    | true =>
      rw [ht] at h0 h2
      obtain ⟨d2, h3, h0⟩ := bind_ok h0
      rw [show repairTree order d1 = .ok d1 from h2] at h3
      cases h3
      exact h0
  rw [← valueVars_rows (R := SameContent) (fun r s h => ⟨h.id, h.energy, h.area⟩) hs] at hv
  obtain ⟨v1, e1, e2⟩ := openValues_ok hv
  cases e2
  have hval : openValues o.checkAreaUnits o.changeEnergyUnits (valueVars a d1) = (v, .error .keyError) := by
    have hee : v.eventEnergy.addOffset = none := by
      have : v.eventEnergy = (valueVars a d1).eventEnergy := by
        cases hca : o.checkAreaUnits with
        | false => rw [hca] at e1; cases e1; rfl
        | true =>
          rw [hca] at e1
          have := leavesEnergies_result areas_leave_energies (valueVars a d1)
          rw [show (andThen checkAreaOverflow checkAreaUnits (valueVars a d1)) = (v, .ok ()) from e1] at this
          exact this.2.2
      rw [this]; exact hoff
    unfold openValues
    rw [andThen_of_ok e1, he]
    show andThen eliminateZeroEnergy changeEnergyUnits v = _
    apply andThen_of_error
    unfold eliminateZeroEnergy
    rw [hee]
  have hin := openInPlace_values (notAFile := notAFile) hn hrest hval
  obtain ⟨e1, e2⟩ := openObject_inPlace notAFile order nav (o := o) hx hc
  rw [hin] at e1 e2
  exact ⟨e2, e1⟩

theorem sameRows_consistent {d d' : GFile} (h : SameRows SameContent d d') (hc : Consistent d) : Consistent d' := by
  have fro : ∀ {l l' : List (Row GVal)}, List.Forall₂ SameContent l l' → ∀ r ∈ l', ∃ s ∈ l, SameContent s r := by
    intro l l' h
    induction h with
    | nil => intro r hr; cases hr
    | @cons x y _ _ hxy _ ih =>
      intro r hr
      rcases List.mem_cons.mp hr with rfl | hr
      · exact ⟨x, List.mem_cons_self, hxy⟩
      · obtain ⟨s, hs, k⟩ := ih r hr
        exact ⟨s, List.mem_cons_of_mem _ hs, k⟩
  have back : ∀ {l l' : List (Row GVal)}, List.Forall₂ SameContent l l' → ∀ r ∈ l, ∃ s ∈ l', SameContent r s := by
    intro l l' h
    induction h with
    | nil => intro r hr; cases hr
    | @cons x y _ _ hxy _ ih =>
      intro r hr
      rcases List.mem_cons.mp hr with rfl | hr
      · exact ⟨y, List.mem_cons_self, hxy⟩
      · obtain ⟨s, hs, k⟩ := ih r hr
        exact ⟨s, List.mem_cons_of_mem _ hs, k⟩
  constructor
  · intro g hg
    obtain ⟨g0, h0, k⟩ := fro h.2.1 g hg
    obtain ⟨f, hf, e⟩ := hc.groupHasFlash g0 h0
    obtain ⟨f', hf', k'⟩ := back h.1 f hf
    exact ⟨f', hf', by rw [← k'.id, e, k.pid]⟩
  · intro g hg
    obtain ⟨g0, h0, k⟩ := fro h.2.2 g hg
    obtain ⟨f, hf, e⟩ := hc.eventHasGroup g0 h0
    obtain ⟨f', hf', k'⟩ := back h.2.1 f hf
    exact ⟨f', hf', by rw [← k'.id, e, k.pid]⟩
  · intro g hg
    obtain ⟨g0, h0, k⟩ := fro h.1 g hg
    obtain ⟨f, hf, e⟩ := hc.flashHasGroup g0 h0
    obtain ⟨f', hf', k'⟩ := back h.2.1 f hf
    exact ⟨f', hf', by rw [← k'.pid, e, k.id]⟩
  · intro g hg
    obtain ⟨g0, h0, k⟩ := fro h.2.1 g hg
    obtain ⟨f, hf, e⟩ := hc.groupHasEvent g0 h0
    obtain ⟨f', hf', k'⟩ := back h.2.2 f hf
    exact ⟨f', hf', by rw [← k'.pid, e, k.id]⟩

theorem sameRows_hasData {d d' : GFile} (h : SameRows SameContent d d') (hc : HasData d) : HasData d' := by
  refine ⟨?_, ?_, ?_⟩
  · intro e; apply hc.1; have := h.1; rw [e] at this; exact List.forall₂_nil_right_iff.mp this
  · intro e; apply hc.2.1; have := h.2.1; rw [e] at this; exact List.forall₂_nil_right_iff.mp this
  · intro e; apply hc.2.2; have := h.2.2; rw [e] at this; exact List.forall₂_nil_right_iff.mp this

/-- C154: as the dataset that was given is the opened one, it can not be given to `GLMDataset` a second time: with the options
that change values the second call fails. -/
theorem C154_once {notAFile : Err} {order : List Int → List Int} {nav : Rat → Rat → Rat × Rat} {o : OpenOptions}
    {a : FileAttrs} {file d : GFile} {v : ValueVars} {m : Objects} {ref : Nat}
    (hn : (o.fixTimes && needsTimeFix a.productMin a.productMax a.hasFrameTime) = false)
    (ha : o.checkAreaUnits = true) (he : o.changeEnergyUnits = true) (hd : HasData file) (hc : Consistent file)
    (hx : m[ref]? = some (.ofFile a file)) (h : openOptions order nav o a file = .ok (d, v)) :
    ∃ e, (openObject notAFile order nav o (openObject notAFile order nav o m ref).1 ref).2 = .error e := by
  obtain ⟨-, h1⟩ := C154_exact (notAFile := notAFile) hn (fun _ => ⟨hd, hc⟩) hx h
  obtain ⟨d0, h2, h3, hv⟩ := openOptions_ok h
  unfold timesStep at h3
  rw [hn] at h3
  cases h3
  obtain ⟨d1, h4, hs⟩ := openDataset_rows h2
  have hd1 : d1 = file := by
    cases ht : o.checkTree with
    | false => rw [ht] at h4; cases h4; rfl
    | true =>
      rw [ht, if_pos rfl, repair_consistent order hd hc] at h4
      cases h4; rfl
  subst hd1
  rw [ha, he] at hv
  have h5 := C78_exact _ _ hv
  have h6 := (openObject_inPlace notAFile order nav (o := o) h1
    (fun _ => ⟨sameRows_hasData hs hd, sameRows_consistent hs hc⟩)).2
  rw [h6]
  unfold openInPlace
  simp only
  rcases (if o.calculateParentChild then parentChildSteps d else (d, .ok ()) : GFile × Except Err Unit) with ⟨rows, e | u⟩
  · exact ⟨e, rfl⟩
  · simp only [hn, ha, he, h5, Bool.false_eq_true, if_false]
    exact ⟨.keyError, rfl⟩

theorem parentChildSteps_error {d : GFile} {e : Err} (h : initParentChild d = .error e) : parentChildSteps d = (d, .error e) := by
  have hp := parentChildSteps_eq d
  rw [h] at hp
  have hsnd : (parentChildSteps d).2 = .error e := by
    revert hp
    rcases (parentChildSteps d).2 with e' | u
    · intro hp; cases hp; rfl
    · intro hp; cases hp
  suffices h1 : (parentChildSteps d).1 = d from Prod.ext h1 hsnd
  by_cases hd : HasData d
  · have hn : ¬ (d.flashes.length = 0 ∨ d.groups.length = 0 ∨ d.events.length = 0) := by
      simp only [List.length_eq_zero_iff]
      unfold HasData at hd
      tauto
    unfold parentChildSteps
    simp only [if_neg hn]
    cases hr : replicateParentIds d.levels "flash_id" "event_parent_group_id" with
    | error e => rfl
    | ok ids =>
      by_cases hl : ids.length = d.events.length
      · rw [initParentChild_closed hd hr hl] at h
        cases h
      · have : setVar setFlashOf d.events ids = .error .valueError := by rw [setVar, if_neg hl]
        simp only [assignRows_error this]
  · have hn : d.flashes.length = 0 ∨ d.groups.length = 0 ∨ d.events.length = 0 := by
      simp only [List.length_eq_zero_iff]
      unfold HasData at hd
      tauto
    have nothing : ∀ {upd : Row GVal → Nat → Row GVal} {rows : List (Row GVal)}, (assignRows upd rows []).1 = rows := by
      intro upd rows
      unfold assignRows setVar
      cases rows <;> rfl
    have nothing' : ∀ {rows : List (Row GVal)}, (assignRows setFlashOf rows []).1 = rows := by
      intro rows
      unfold assignRows setVar
      cases rows <;> rfl
    have steps : (countSteps d d.events [] [] []).1 = d := by
      unfold countSteps
      have a := nothing (upd := setNGroups) (rows := d.flashes)
      rcases h1 : assignRows setNGroups d.flashes [] with ⟨x, e1 | u⟩
      · rfl
      · rw [h1] at a
        simp only at a
        subst a
        have b := nothing (upd := setNEvents) (rows := d.groups)
        rcases h2 : assignRows setNEvents d.groups [] with ⟨y, e2 | u⟩
        · rfl
        · rw [h2] at b
          simp only at b
          subst b
          have c := nothing (upd := setNEvents) (rows := d.flashes)
          rcases h3 : assignRows setNEvents d.flashes [] with ⟨z, e3 | u⟩
          · simp only [h3]
          · rw [h3] at c
            simp only at c
            subst c
            simp only [h3]
    unfold parentChildSteps
    simp only [if_pos hn, pure, Except.pure]
    have a := nothing' (rows := d.events)
    rcases h1 : assignRows setFlashOf d.events [] with ⟨x, e1 | u⟩
    · rfl
    · rw [h1] at a
      simp only at a
      subst a
      exact steps

/-- C154: if the parents and counts can not be calculated, the memory is as before. -/
theorem C154_early {notAFile : Err} {order : List Int → List Int} {nav : Rat → Rat → Rat × Rat} {o : OpenOptions}
    {m : Objects} {ref : Nat} {x : DataObject} {e : Err} (hc : o.checkTree = true → HasData x.rows ∧ Consistent x.rows)
    (ho : o.calculateParentChild = true) (hx : m[ref]? = some x) (h : initParentChild x.rows = .error e) :
    openObject notAFile order nav o m ref = (m, .error e) := by
  have hin : openInPlace notAFile nav o x = (x, .error e) := by
    unfold openInPlace
    rw [if_pos ho, parentChildSteps_error h]
  have hlt : ref < m.length := (List.getElem?_eq_some_iff.mp hx).1
  have hr : (if o.checkTree then repairObject order x else pure none : Except Err (Option DataObject)) = .ok none := by
    cases ht : o.checkTree with
    | false => rfl
    | true => exact repairObject_consistent (hc ht).1 (hc ht).2
  unfold openObject
  simp only [hx, hr, hin]
  refine Prod.ext ?_ rfl
  refine List.ext_getElem? fun k => ?_
  rw [List.getElem?_set]
  by_cases hk : ref = k
  · subst hk; rw [if_pos rfl, if_pos hlt, hx]
  · rw [if_neg hk]

/-! ## Samples -/

/-- The options with which the sample of C153 can be opened from memory. -/
def memoryOptions : OpenOptions := { fixTimes := false }

theorem octoberFile_ok : HasData octoberFile ∧ Consistent octoberFile := by unfold HasData; decide

/-- The hypotheses of `C154_exact`, `C154_same` and `C154_once` hold for the sample. -/
theorem october_opens : ∃ d v, openOptions id toyNav memoryOptions octoberAttrs octoberFile = .ok (d, v) := by
  have h : (openOptions id toyNav memoryOptions octoberAttrs octoberFile).toOption.isSome := by decide +kernel
  cases h2 : openOptions id toyNav memoryOptions octoberAttrs octoberFile with
  | error e => rw [h2] at h; cases h
  | ok p => exact ⟨p.1, p.2, rfl⟩

theorem C154_full_false : ¬ C154_full := by
  intro h
  obtain ⟨d, v, hdv⟩ := october_opens
  have h1 := h .typeError id toyNav memoryOptions [.ofFile octoberAttrs octoberFile] 0 _ rfl
  rw [(C154_exact (notAFile := .typeError) (m := [.ofFile octoberAttrs octoberFile]) (ref := 0) (by rfl)
    (fun _ => octoberFile_ok) rfl hdv).2] at h1
  injection h1 with h1
  injection h1 with _ h1 _
  subst h1
  have h2 : (openOptions id toyNav memoryOptions octoberAttrs octoberFile).toOption.map (·.1) = some octoberFile := by
    rw [hdv]; rfl
  revert h2
  decide +kernel

example : ∃ e, (openObject .typeError id toyNav memoryOptions
    (openObject .typeError id toyNav memoryOptions [.ofFile octoberAttrs octoberFile] 0).1 0).2 = .error e := by
  obtain ⟨d, v, h⟩ := october_opens
  exact C154_once (by rfl) rfl rfl octoberFile_ok.1 octoberFile_ok.2 rfl h

/-- The correction of times is refused for the sample. -/
example : ∃ e, (openObject .typeError id toyNav {} [.ofFile octoberAttrs octoberFile] 0).2 = .error e :=
  C154_refused .typeError id toyNav rfl rfl (by decide)

/-- A dataset to be repaired is not changed, and the new one is at the end. -/
example : (openObject .typeError id toyNav memoryOptions [.ofFile plainAttrs brokenFile] 0).1[0]? =
    some (.ofFile plainAttrs brokenFile) :=
  (C154_partial .typeError id toyNav rfl rfl (fun h => brokenFile_ok.2.1 h.2)).1

example : (openObject .typeError id toyNav memoryOptions [.ofFile plainAttrs brokenFile] 0).2.toOption = some 1 := by
  decide +kernel

/-- Half done: areas in km2, energies in J. -/
def noOffsetAttrs : FileAttrs := { plainAttrs with eventEnergy := ⟨some "J", none, none, none⟩ }

example : (openObject .typeError id toyNav {} [.ofFile noOffsetAttrs octoberFile] 0).2.toOption = none ∧
    ((openObject .typeError id toyNav {} [.ofFile noOffsetAttrs octoberFile] 0).1.map fun x =>
      (x.values.flashArea.units, x.values.flashArea.values, x.values.flashEnergy.units)) =
      [(some "km2", [some 100], some "J")] := by
  decide +kernel

/-- The counts of a file with an event of no group can not be calculated without the check. -/
example : (initParentChild { octoberFile with events := octoberFile.events ++ [⟨101, 12, {}⟩] }).toOption = none := by decide +kernel

end Verif.Props
