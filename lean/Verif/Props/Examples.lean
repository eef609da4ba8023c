import Verif.Model.Examples
import Verif.Props.Dataset
import Verif.Props.Values
import Verif.Props.Call
import Verif.Props.Collection

/-!
# C95 - C97: the programs in `examples/`
-/

namespace Verif.Props

open Verif.Py Verif.Model Verif.Spec Verif.Proofs

/-! ## C95: the program that checks files -/

/-- The property: the program runs to the end and prints the names of exactly the files with an event whose group is
not in the file or a group whose flash is not in the file. -/
def C95_full : Prop := ∀ (order : List Int → List Int) nav (files : List (String × GFile)),
  (∀ l, (order l).Perm l) →
  ∃ printed, checkFiles (openDataset order nav true true) files = (printed, none) ∧
    ∀ name, name ∈ printed ↔ ∃ d, (name, d) ∈ files ∧
      ¬ ((∀ e ∈ d.events, ∃ g ∈ d.groups, g.id = e.pid) ∧ ∀ g ∈ d.groups, ∃ f ∈ d.flashes, f.id = g.pid)

theorem replicate_not_keyError {d : GFile} (h : ∀ e ∈ d.events, ∃ g ∈ d.groups, g.id = e.pid) :
    replicateParentIds d.levels "flash_id" "event_parent_group_id" ≠ .error .keyError := by
  have hl : lookupAll (⟨"group_id", some "group_parent_flash_id", d.groups⟩ : Level GVal)
      (d.events.map Row.pid) = .ok ((d.events.map Row.pid).map (positions (d.groups.map Row.id))) := by
    apply lookupAll_ok
    intro i hi
    obtain ⟨e, he, rfl⟩ := List.mem_map.mp hi
    obtain ⟨g, hg, h2⟩ := h e he
    exact List.mem_map.mpr ⟨g, hg, h2⟩
  have hf : flattenIdx ((d.events.map Row.pid).map (positions (d.groups.map Row.id))) ≠ .error .keyError := by
    unfold flattenIdx
    split
    · simp
    · split <;> simp
  unfold replicateParentIds GFile.levels
  simp only [List.reverse_cons, List.reverse_nil, List.nil_append, List.cons_append, List.foldlM_cons,
    List.foldlM_nil, replStep, bind, Except.bind, pure, Except.pure, Level.pids]
  simp only [String.reduceEq, if_false, if_true, Option.some.injEq, Option.getD_some, hl,
    Bool.false_eq_true]
  cases hx : flattenIdx ((d.events.map Row.pid).map (positions (d.groups.map Row.id))) with
  | ok v => simp
  | error e =>
    simp only []
    intro hc
    rw [hx] at hf
    cases hc
    exact hf rfl

theorem setVar_not_keyError {β : Type} (upd : Row GVal → β → Row GVal) (rows : List (Row GVal)) (xs : List β) :
    setVar upd rows xs ≠ .error .keyError := by
  unfold setVar; split <;> simp

theorem bind_not {α β : Type} {e : Err} {x : Except Err α} {f : α → Except Err β} (hx : x ≠ .error e)
    (hf : ∀ v, f v ≠ .error e) : (x >>= f) ≠ .error e := by
  cases x with
  | ok v => exact hf v
  | error e' => intro h; apply hx; cases h; rfl

theorem init_not_keyError {d : GFile} (h : ∀ e ∈ d.events, ∃ g ∈ d.groups, g.id = e.pid) :
    initParentChild d ≠ .error .keyError := by
  by_cases hd : HasData d
  · cases hr : replicateParentIds d.levels "flash_id" "event_parent_group_id" with
    | error e =>
      have he : e ≠ .keyError := by
        rintro rfl; exact replicate_not_keyError h hr
      have hn : ¬ (d.flashes.length = 0 ∨ d.groups.length = 0 ∨ d.events.length = 0) := by
        simp only [List.length_eq_zero_iff]
        unfold HasData at hd
        tauto
      simp only [initParentChild, hn, if_false, hr, bind, Except.bind]
      intro hc; cases hc; exact he rfl
    | ok ids =>
      by_cases hl : ids.length = d.events.length
      · rw [initParentChild_closed hd hr hl]; simp
      · have hn : ¬ (d.flashes.length = 0 ∨ d.groups.length = 0 ∨ d.events.length = 0) := by
          simp only [List.length_eq_zero_iff]
          unfold HasData at hd
          tauto
        simp only [initParentChild, hn, if_false, hr, bind, Except.bind, setVar, hl]
        simp
  · have hn : d.flashes.length = 0 ∨ d.groups.length = 0 ∨ d.events.length = 0 := by
      simp only [List.length_eq_zero_iff]
      unfold HasData at hd
      tauto
    simp only [initParentChild, hn, if_true, pure_bind]
    exact bind_not (setVar_not_keyError _ _ _) fun _ => bind_not (setVar_not_keyError _ _ _) fun _ =>
      bind_not (setVar_not_keyError _ _ _) fun _ => bind_not (setVar_not_keyError _ _ _) fun _ => by
        simp [pure, Except.pure]

/-- With default options no file whatever raises KeyError. -/
theorem open_not_keyError (order : List Int → List Int) (nav) (d : GFile) :
    openDataset order nav true true d ≠ .error .keyError := by
  have key : ∀ d' : GFile, repairTree order d = .ok d' →
      (∀ e ∈ d'.events, ∃ g ∈ d'.groups, g.id = e.pid) →
      openDataset order nav true true d ≠ .error .keyError := by
    intro d' hr hk
    have := init_not_keyError hk
    simp only [openDataset, if_true, hr, bind, Except.bind]
    cases hi : initParentChild d' with
    | ok v => simp [pure, Except.pure]
    | error e => simp only []; intro h; cases h; exact this hi
  by_cases hd : HasData d
  · by_cases hc : Consistent d
    · exact key d (repair_consistent order hd hc) hc.eventHasGroup
    · refine key _ (repair_inconsistent order hd hc) ?_
      intro e he
      simp only [keptFlashes] at he ⊢
      obtain ⟨g, hg, h2⟩ := List.mem_map.mp (mem_childrenInOrder.mp he).2
      exact ⟨g, hg, h2⟩
  · rw [C11_check_tree_fails order nav true d hd]; simp

theorem checkFiles_quiet {glm : GFile → Except Err GFile} (hk : ∀ d, glm d ≠ .error .keyError)
    (files : List (String × GFile)) :
    (checkFiles glm files).1 = [] ∧
      ((checkFiles glm files).2 = none ↔ ∀ f ∈ files, ∃ d, glm f.2 = .ok d) := by
  induction files with
  | nil => simp [checkFiles]
  | cons f rest ih =>
    obtain ⟨name, d⟩ := f
    unfold checkFiles
    cases hg : glm d with
    | ok v =>
      refine ⟨ih.1, ih.2.trans ⟨?_, fun h f hf => h f (by simp [hf])⟩⟩
      intro h f hf
      rcases List.mem_cons.mp hf with rfl | hf
      · exact ⟨v, hg⟩
      · exact h f hf
    | error e =>
      have he : e ≠ .keyError := by rintro rfl; exact hk d hg
      cases e <;> simp [hg] at he ⊢

/-- What the program does, for every list of files: it never prints a name, whatever is wrong with the files, and it
runs to the end exactly if every file can be opened. -/
theorem C95_exact (order : List Int → List Int) (nav) (files : List (String × GFile)) :
    (checkFiles (openDataset order nav true true) files).1 = [] ∧
      ((checkFiles (openDataset order nav true true) files).2 = none ↔
        ∀ f ∈ files, ∃ d, openDataset order nav true true f.2 = .ok d) :=
  checkFiles_quiet (open_not_keyError order nav) files

/-- A file without flashes, groups or events ends the program, and the files after it are not looked at. -/
theorem C95_no_data_ends (order : List Int → List Int) (nav) (name : String) (d : GFile) (h : ¬ HasData d)
    (rest : List (String × GFile)) :
    checkFiles (openDataset order nav true true) ((name, d) :: rest) = ([], some .attributeError) := by
  simp [checkFiles, C11_check_tree_fails order nav true d h]

/-- Files with nothing wrong give what the property asks for.  Missing from the full property: every file with a
wrong parent id, which is not reported, and files without data. -/
theorem C95_partial (order : List Int → List Int) (nav) (files : List (String × GFile))
    (h : ∀ f ∈ files, HasData f.2 ∧ Consistent f.2 ∧ UniqueIds f.2.groups) :
    checkFiles (openDataset order nav true true) files = ([], none) := by
  obtain ⟨h1, h2⟩ := C95_exact order nav files
  refine Prod.ext h1 (h2.mpr ?_)
  intro f hf
  obtain ⟨a, b, c⟩ := h f hf
  obtain ⟨d', hd, -⟩ := C12_derived_variables order nav true a b c
  exact ⟨d', hd⟩

/-- Without the check of the tree the exception that the program waits for does occur, for events whose group is not
in the file (but not for groups whose flash is not in the file). -/
theorem C95_check_off (order : List Int → List Int) (nav) {d : GFile} (h : HasData d) :
    openDataset order nav false true d = .error .keyError ↔ ∃ e ∈ d.events, ∀ g ∈ d.groups, g.id ≠ e.pid := by
  constructor
  · intro ho
    by_contra hc
    push Not at hc
    have := init_not_keyError hc
    simp only [openDataset, bind, Except.bind, pure, Except.pure, Bool.false_eq_true, if_false, if_true] at ho
    cases hi : initParentChild d with
    | ok v => rw [hi] at ho; simp at ho
    | error e => rw [hi] at ho; simp only [] at ho; cases ho; exact this hi
  · rintro ⟨e, he, hg⟩
    have hk : replicateParentIds d.levels "flash_id" "event_parent_group_id" = .error .keyError := by
      have hl : lookupAll (⟨"group_id", some "group_parent_flash_id", d.groups⟩ : Level GVal)
          (d.events.map Row.pid) = .error .keyError := by
        apply lookupAll_keyError h.2.1
        refine ⟨e.pid, List.mem_map.mpr ⟨e, he, rfl⟩, ?_⟩
        intro hc
        obtain ⟨g, hg1, hg2⟩ := List.mem_map.mp hc
        exact hg g hg1 hg2
      unfold replicateParentIds GFile.levels
      simp only [List.reverse_cons, List.reverse_nil, List.nil_append, List.cons_append, List.foldlM_cons,
        List.foldlM_nil, replStep, bind, Except.bind, pure, Except.pure, Level.pids]
      simp only [String.reduceEq, if_false, if_true, Option.some.injEq, Option.getD_some, hl,
        Bool.false_eq_true]
    have hn : ¬ (d.flashes.length = 0 ∨ d.groups.length = 0 ∨ d.events.length = 0) := by
      simp only [List.length_eq_zero_iff]
      unfold HasData at h
      tauto
    simp only [openDataset, initParentChild, hn, hk, bind, Except.bind, pure, Except.pure, Bool.false_eq_true,
      if_false, if_true]

/-- What the loop does for any way of opening files: it goes on until the first exception other than KeyError and
prints the names of the files with KeyError up to there, in order. -/
theorem C95_loop (glm : GFile → Except Err GFile) (files : List (String × GFile)) :
    ∃ seen rest, files = seen ++ rest ∧
      (∀ f ∈ seen, (∃ o, glm f.2 = .ok o) ∨ glm f.2 = .error .keyError) ∧
      (∀ f, rest.head? = some f → ∃ e, glm f.2 = .error e ∧ e ≠ .keyError ∧ (checkFiles glm files).2 = some e) ∧
      (rest = [] → (checkFiles glm files).2 = none) ∧
      (checkFiles glm files).1 = seen.filterMap fun f => match glm f.2 with
        | .error .keyError => some f.1
        | _ => none := by
  induction files with
  | nil => exact ⟨[], [], rfl, by simp, by simp, fun _ => rfl, rfl⟩
  | cons f files ih =>
    obtain ⟨name, d⟩ := f
    obtain ⟨seen, rest, h1, h2, h3, h4, h5⟩ := ih
    cases hd : glm d with
    | ok o =>
      refine ⟨(name, d) :: seen, rest, by rw [h1]; rfl, ?_, ?_, ?_, ?_⟩
      · intro f hf
        rcases List.mem_cons.mp hf with rfl | hf
        · exact Or.inl ⟨o, hd⟩
        · exact h2 f hf
      · simpa [checkFiles, hd] using h3
      · simpa [checkFiles, hd] using h4
      · simpa [checkFiles, hd] using h5
    | error e =>
      by_cases he : e = .keyError
      · subst he
        refine ⟨(name, d) :: seen, rest, by rw [h1]; rfl, ?_, ?_, ?_, ?_⟩
        · intro f hf
          rcases List.mem_cons.mp hf with rfl | hf
          · exact Or.inr hd
          · exact h2 f hf
        · simpa [checkFiles, hd] using h3
        · simpa [checkFiles, hd] using h4
        · simpa [checkFiles, hd] using h5
      · refine ⟨[], (name, d) :: files, rfl, by simp, ?_, by simp, ?_⟩
        · intro f hf
          cases hf
          refine ⟨e, hd, he, ?_⟩
          cases e <;> simp_all [checkFiles]
        · cases e <;> simp_all [checkFiles]

/-- The property fails: `brokenFile` has an event of a missing group and is not reported. -/
theorem C95_full_false : ¬ C95_full := by
  intro hf
  obtain ⟨printed, h1, h2⟩ := hf id toyNav [("broken", brokenFile)] id_perm
  have hp := (C95_exact id toyNav [("broken", brokenFile)]).1
  rw [h1] at hp
  simp only [] at hp
  subst hp
  have := (h2 "broken").mpr ⟨brokenFile, by simp, by decide⟩
  simp at this

/-- The program on three files, the second without data, the third not looked at. -/
example : checkFiles (openDataset id toyNav true true)
    [("a", brokenFile), ("b", ⟨[], [], []⟩), ("c", brokenFile)] = ([], some .attributeError) := by
  decide +kernel

/-- `C95_partial` applies to the sample. -/
example : ∀ f ∈ [("a", sampleFile)], HasData f.2 ∧ Consistent f.2 ∧ UniqueIds f.2.groups := by
  simp [sampleFile_ok.1, sampleFile_ok.2.1, sampleFile_ok.2.2.2]

example : openDataset id toyNav false true brokenFile = .error .keyError := by decide +kernel

/-! ## C96: the place of initiation of a flash -/

theorem firstGroup_fold (l : List (Row GVal)) (pre : List (Row GVal)) (r : Row GVal) (mid : List (Row GVal))
    (h1 : ∀ h ∈ pre, frameTime r < frameTime h) (h2 : ∀ h ∈ mid, frameTime r ≤ frameTime h) :
    ∃ before after g, l.foldl (fun best g => if frameTime g < frameTime best then g else best) r = g ∧
      pre ++ r :: mid ++ l = before ++ g :: after ∧ (∀ h ∈ before, frameTime g < frameTime h) ∧
      ∀ h ∈ after, frameTime g ≤ frameTime h := by
  induction l generalizing pre r mid with
  | nil => exact ⟨pre, mid, r, rfl, by simp, h1, h2⟩
  | cons a l ih =>
    rw [List.foldl_cons]
    by_cases ha : frameTime a < frameTime r
    · rw [if_pos ha]
      obtain ⟨b, c, g, e1, e2, e3, e4⟩ := ih (pre ++ r :: mid) a [] (by
        intro h hh
        rcases List.mem_append.mp hh with hh | hh
        · exact lt_trans ha (h1 h hh)
        · rcases List.mem_cons.mp hh with rfl | hh
          · exact ha
          · exact lt_of_lt_of_le ha (h2 h hh)) (by simp)
      exact ⟨b, c, g, e1, by rw [← e2]; simp, e3, e4⟩
    · rw [if_neg ha]
      obtain ⟨b, c, g, e1, e2, e3, e4⟩ := ih pre r (mid ++ [a]) h1 (by
        intro h hh
        rcases List.mem_append.mp hh with hh | hh
        · exact h2 h hh
        · rw [List.mem_singleton] at hh
          subst hh
          exact not_lt.mp ha)
      exact ⟨b, c, g, e1, by rw [← e2]; simp, e3, e4⟩

/-- The earliest of the groups of a flash. -/
def firstG (d : GFile) (i : Int) : Row GVal :=
  ((getFirstGroup (d.groups.filter fun h => h.pid = i)).toOption).getD ⟨0, 0, {}⟩

theorem firstG_spec {d : GFile} {i : Int} (h : ∃ g ∈ d.groups, g.pid = i) :
    getFirstGroup (d.groups.filter fun h => h.pid = i) = .ok (firstG d i) ∧ EarliestGroup d i (firstG d i) := by
  cases hr : d.groups.filter (fun h => h.pid = i) with
  | nil =>
    obtain ⟨g, hg, hi⟩ := h
    have : g ∈ d.groups.filter (fun h => h.pid = i) := by simp [hg, hi]
    rw [hr] at this
    simp at this
  | cons r rs =>
    have hg : getFirstGroup (r :: rs) = .ok (firstG d i) := by
      unfold firstG
      rw [hr]
      rfl
    refine ⟨hg, ?_⟩
    obtain ⟨b, c, g, e1, e2, e3, e4⟩ := firstGroup_fold rs [] r [] (by simp) (by simp)
    have : firstG d i = g := by
      simp only [getFirstGroup] at hg
      rw [e1] at hg
      exact (Except.ok.inj hg).symm
    rw [this]
    exact ⟨b, c, by rw [hr, ← e2]; simp, e3, e4⟩

/-- The earliest group is one of the groups of the flash, and no other is earlier. -/
theorem earliest_least {d : GFile} {i : Int} {g : Row GVal} (h : EarliestGroup d i g) :
    g ∈ d.groups ∧ g.pid = i ∧
      ∀ k ∈ d.groups, k.pid = i → g.val.times.getD 1 0 ≤ k.val.times.getD 1 0 := by
  obtain ⟨b, c, e1, e2, e3⟩ := h
  have hm : ∀ k, k ∈ b ++ g :: c ↔ k ∈ d.groups ∧ k.pid = i := by
    intro k; rw [← e1]; simp
  refine ⟨((hm g).mp (by simp)).1, ((hm g).mp (by simp)).2, ?_⟩
  intro k hk hp
  have := (hm k).mpr ⟨hk, hp⟩
  rcases List.mem_append.mp this with h | h
  · exact le_of_lt (e2 k h)
  · rcases List.mem_cons.mp h with rfl | h
    · exact le_rfl
    · exact e3 k h

theorem groupsByFlash_ok {d : GFile} (h : d.groups ≠ []) :
    groupsByFlash d = .ok ((npUnique (d.groups.map Row.pid)).map fun i =>
      (i, d.groups.filter fun g => g.pid = i)) := by
  unfold groupsByFlash
  rw [if_neg h]
  simp only [groups, List.map_map, Function.comp_def, take_positions]

theorem mapM_ok_map {α β : Type} {f : α → Except Err β} {g : α → β} {l : List α} (h : ∀ a ∈ l, f a = .ok (g a)) :
    l.mapM f = .ok (l.map g) := by
  induction l with
  | nil => rfl
  | cons a l ih =>
    rw [List.mapM_cons, h a (by simp), ih fun b hb => h b (by simp [hb])]
    rfl

theorem pid_group {d : GFile} {i : Int} (hi : i ∈ npUnique (d.groups.map Row.pid)) : ∃ g ∈ d.groups, g.pid = i := by
  rw [mem_npUnique, List.mem_map] at hi
  exact hi

theorem flashInitManual_ok {d : GFile} (h : d.groups ≠ []) :
    flashInitManual d = .ok ((npUnique (d.groups.map Row.pid)).map fun i =>
      (i, (firstG d i).val.lat, (firstG d i).val.lon)) := by
  unfold flashInitManual
  rw [groupsByFlash_ok h]
  simp only [bind, Except.bind]
  rw [mapM_ok_map (g := fun kv : Int × List (Row GVal) =>
    (kv.1, (firstG d kv.1).val.lat, (firstG d kv.1).val.lon))]
  · simp [Function.comp_def]
  · intro kv hkv
    obtain ⟨i, hi, rfl⟩ := List.mem_map.mp hkv
    simp only [(firstG_spec (pid_group hi)).1]
    rfl

theorem getFlashInitData_ok (single : Rat → Rat) {d : GFile} (h : d.groups ≠ []) :
    getFlashInitData single d = .ok ((npUnique (d.groups.map Row.pid)).map fun i =>
      (i, single (firstG d i).val.lon, single (firstG d i).val.lat)) := by
  unfold getFlashInitData
  rw [groupsByFlash_ok h]
  simp only [bind, Except.bind]
  rw [mapM_ok_map (g := fun kv : Int × List (Row GVal) =>
    (kv.1, single (firstG d kv.1).val.lon, single (firstG d kv.1).val.lat))]
  · simp [Function.comp_def]
  · intro kv hkv
    obtain ⟨i, hi, rfl⟩ := List.mem_map.mp hkv
    have hs := firstG_spec (pid_group hi)
    simp only [hs.1]
    simp only [pure, Except.pure, (earliest_least hs.2).2.1]

theorem find_map_pair {β : Type} {l : List Int} {F : Int → β} {i : Int} (h : i ∈ l) :
    (l.map fun j => (j, F j)).find? (fun e => e.1 = i) = some (i, F i) := by
  induction l with
  | nil => simp at h
  | cons a l ih =>
    rw [List.map_cons, List.find?_cons]
    by_cases ha : a = i
    · simp [ha]
    · rcases List.mem_cons.mp h with h | h
      · exact absurd h.symm ha
      · simp [ha, ih h]

theorem addFlashInitData_ok (single : Rat → Rat) {d : GFile} (h : d.groups ≠ []) (hu : UniqueIds d.flashes)
    (hg : ∀ f ∈ d.flashes, ∃ g ∈ d.groups, g.pid = f.id) :
    addFlashInitData single d = .ok (d.flashes.map fun f =>
      (f.id, single (firstG d f.id).val.lon, single (firstG d f.id).val.lat)) := by
  unfold addFlashInitData
  rw [getFlashInitData_ok single h]
  have hu' : ¬ ¬ (d.flashes.map Row.id).Nodup := not_not.mpr hu
  simp only [bind, Except.bind, hu', if_false]
  apply mapM_ok_map
  intro f hf
  have hi : f.id ∈ npUnique (d.groups.map Row.pid) := by
    rw [mem_npUnique, List.mem_map]; exact hg f hf
  rw [find_map_pair (F := fun i => (single (firstG d i).val.lon, single (firstG d i).val.lat)) hi]
  rfl

theorem positionsFrom_nodup {l : List Int} (h : l.Nodup) {i : Int} (hi : i ∈ l) (n : Nat) :
    positionsFrom n l i = [n + l.idxOf i] := by
  induction l generalizing n with
  | nil => simp at hi
  | cons a l ih =>
    rw [List.nodup_cons] at h
    unfold positionsFrom
    by_cases ha : a = i
    · subst ha
      have : positionsFrom (n + 1) l a = [] := by
        apply List.eq_nil_of_length_eq_zero
        rw [positionsFrom_length]
        exact List.count_eq_zero_of_not_mem h.1
      simp [this]
    · rcases List.mem_cons.mp hi with hi | hi
      · exact absurd hi.symm ha
      · rw [if_neg ha, ih h.2 hi, List.idxOf_cons_ne _ ha]
        simp; omega

theorem calculateFlashInit_ok {d : GFile} (hf : d.flashes ≠ []) (h : d.groups ≠ []) (hu : UniqueIds d.flashes)
    (hg : ∀ f ∈ d.flashes, ∃ g ∈ d.groups, g.pid = f.id) :
    calculateFlashInit d = .ok (d.flashes.map fun f =>
      (f.id, (firstG d f.id).val.lon, (firstG d f.id).val.lat)) := by
  unfold calculateFlashInit
  rw [if_neg hf]
  have hap : (groups (d.flashes.map Row.id)).mapM (fun kv => do
      let p ← assignFlashInit d kv.1 kv.2
      pure (kv.2.map fun k => (k, kv.1, p.1, p.2))) =
      .ok ((groups (d.flashes.map Row.id)).map fun kv => kv.2.map fun k =>
        (k, kv.1, (firstG d kv.1).val.lon, (firstG d kv.1).val.lat)) := by
    apply mapM_ok_map
    intro kv hkv
    obtain ⟨i, hi, rfl⟩ := List.mem_map.mp hkv
    rw [mem_npUnique] at hi
    obtain ⟨f, hf', rfl⟩ := List.mem_map.mp hi
    have hl : (positions (d.flashes.map Row.id) f.id).length = 1 := by
      rw [positions, positionsFrom_nodup hu hi]; rfl
    have hp : f.id ∈ d.groups.map Row.pid := by
      rw [List.mem_map]; exact hg f hf'
    simp only [assignFlashInit, hl, ne_eq, not_true_eq_false, if_false, h, dictGet_groups, hp, if_true,
      take_positions, bind, Except.bind, (firstG_spec (hg f hf')).1, pure, Except.pure]
  rw [hap]
  simp only [bind, Except.bind, pure, Except.pure]
  congr 1
  apply List.ext_getElem?
  intro n
  have hfm : ∀ n ∈ List.range d.flashes.length,
      ((((groups (d.flashes.map Row.id)).map fun kv => kv.2.map fun k =>
        (k, kv.1, (firstG d kv.1).val.lon, (firstG d kv.1).val.lat)).flatten.find? fun e =>
          e.1 = n).map fun e => e.2) =
      some ((d.flashes.map fun f => (f.id, (firstG d f.id).val.lon, (firstG d f.id).val.lat)).getD n (0, 0, 0)) := by
    intro n hn
    rw [List.mem_range] at hn
    have hn' : n < (d.flashes.map Row.id).length := by simpa using hn
    have hmem : ∀ e, e ∈ ((groups (d.flashes.map Row.id)).map fun kv => kv.2.map fun k =>
        (k, kv.1, (firstG d kv.1).val.lon, (firstG d kv.1).val.lat)).flatten ↔
        ∃ i ∈ d.flashes.map Row.id, e = ((d.flashes.map Row.id).idxOf i, i, (firstG d i).val.lon,
          (firstG d i).val.lat) := by
      intro e
      simp only [List.mem_flatten, List.mem_map, groups, mem_npUnique]
      constructor
      · rintro ⟨l, ⟨kv, ⟨i, hi, rfl⟩, rfl⟩, he⟩
        rw [positions, positionsFrom_nodup hu (List.mem_map.mpr hi)] at he
        simp only [List.map_cons, List.map_nil, List.mem_singleton, Nat.zero_add] at he
        exact ⟨i, hi, he⟩
      · rintro ⟨i, hi, rfl⟩
        refine ⟨_, ⟨_, ⟨i, hi, rfl⟩, rfl⟩, ?_⟩
        rw [positions, positionsFrom_nodup hu (List.mem_map.mpr hi)]
        simp
    cases hfd : ((groups (d.flashes.map Row.id)).map fun kv => kv.2.map fun k =>
        (k, kv.1, (firstG d kv.1).val.lon, (firstG d kv.1).val.lat)).flatten.find? (fun e => e.1 = n) with
    | none =>
      rw [List.find?_eq_none] at hfd
      have := hfd _ ((hmem _).mpr ⟨_, List.getElem_mem hn', rfl⟩)
      rw [hu.idxOf_getElem n hn'] at this
      simp at this
    | some e =>
      obtain ⟨i, hi, rfl⟩ := (hmem e).mp (List.mem_of_find?_eq_some hfd)
      have he := List.find?_some hfd
      simp only [decide_eq_true_eq] at he
      have : i = d.flashes[n].id := by
        have h1 := List.getElem_idxOf (List.idxOf_lt_length_of_mem hi)
        simp only [he] at h1
        rw [← h1]; simp
      simp [List.getD_eq_getElem?_getD, hn, this]
  rw [List.filterMap_congr hfm]
  simp only [List.filterMap_eq_map', List.getElem?_map]
  by_cases hn : n < d.flashes.length
  · simp [hn]
  · simp [hn]

theorem sameContent_refl (r : Row GVal) : SameContent r r := ⟨rfl, rfl, rfl, rfl, rfl, rfl, rfl⟩

theorem SameContent.trans {r s t : Row GVal} (h : SameContent r s) (k : SameContent s t) : SameContent r t :=
  ⟨h.id.trans k.id, h.pid.trans k.pid, h.lon.trans k.lon, h.lat.trans k.lat, h.energy.trans k.energy,
    h.area.trans k.area, h.times.trans k.times⟩

theorem setVar_same {β : Type} {upd : Row GVal → β → Row GVal} (hupd : ∀ r x, SameContent r (upd r x))
    {rows out : List (Row GVal)} {xs : List β} (h : setVar upd rows xs = .ok out) :
    List.Forall₂ SameContent rows out := by
  unfold setVar at h
  split at h
  · rename_i hl
    cases h
    induction rows generalizing xs with
    | nil => simp
    | cons a l ih =>
      cases xs with
      | nil => simp at hl
      | cons x xs => exact List.Forall₂.cons (hupd a x) (ih (by simpa using hl))
  · simp at h

theorem forall₂_trans_same {α : Type} {R : α → α → Prop} (ht : ∀ {a b c}, R a b → R b c → R a c) {l m n : List α}
    (h : List.Forall₂ R l m) (k : List.Forall₂ R m n) : List.Forall₂ R l n := by
  induction h generalizing n with
  | nil => cases k; exact List.Forall₂.nil
  | cons hab _ ih =>
    cases k with
    | cons hbc k => exact List.Forall₂.cons (ht hab hbc) (ih k)

theorem initParentChild_same {d out : GFile} (h : initParentChild d = .ok out) :
    List.Forall₂ SameContent d.flashes out.flashes ∧ List.Forall₂ SameContent d.groups out.groups ∧
      (d.flashes = [] → d.groups = []) := by
  have tail : ∀ (ev : List (Row GVal)) (fc gc count : List Nat),
      (do let flashes ← setVar setNGroups d.flashes fc
          let groups ← setVar setNEvents d.groups gc
          let flashes ← setVar setNEvents flashes count
          pure ⟨flashes, groups, ev⟩ : Except Err GFile) = .ok out →
      List.Forall₂ SameContent d.flashes out.flashes ∧ List.Forall₂ SameContent d.groups out.groups ∧
        gc.length = d.groups.length := by
    intro ev fc gc count hi
    obtain ⟨fl, hfl, hi⟩ := bind_ok hi
    obtain ⟨gr, hgr, hi⟩ := bind_ok hi
    obtain ⟨fl2, hfl2, hi⟩ := bind_ok hi
    cases hi
    exact ⟨forall₂_trans_same (R := SameContent) SameContent.trans
        (setVar_same (upd := setNGroups) (fun _ _ => ⟨rfl, rfl, rfl, rfl, rfl, rfl, rfl⟩) hfl)
        (setVar_same (upd := setNEvents) (fun _ _ => ⟨rfl, rfl, rfl, rfl, rfl, rfl, rfl⟩) hfl2),
      setVar_same (upd := setNEvents) (fun _ _ => ⟨rfl, rfl, rfl, rfl, rfl, rfl, rfl⟩) hgr, (setVar_ok hgr).1⟩
  unfold initParentChild at h
  by_cases hn : d.flashes.length = 0 ∨ d.groups.length = 0 ∨ d.events.length = 0
  · simp only [if_pos hn] at h
    obtain ⟨ids, -, h⟩ := bind_ok h
    obtain ⟨ev, he, h⟩ := bind_ok h
    obtain ⟨t, ht, h⟩ := bind_ok h
    cases ht
    obtain ⟨a, b, c⟩ := tail ev _ _ _ h
    exact ⟨a, b, fun _ => List.length_eq_zero_iff.mp c.symm⟩
  · simp only [if_neg hn] at h
    obtain ⟨ids, -, h⟩ := bind_ok h
    obtain ⟨ev, he, h⟩ := bind_ok h
    obtain ⟨all, -, h⟩ := bind_ok h
    have hf : d.flashes ≠ [] := fun hc => hn (Or.inl (by simp [hc]))
    match all, h with
    | fc :: gc :: _, h =>
      obtain ⟨t, ht, h⟩ := bind_ok h
      cases ht
      obtain ⟨a, b, -⟩ := tail ev _ _ _ h
      exact ⟨a, b, fun hc => absurd hc hf⟩
    | [], h => cases h
    | [_], h => cases h

theorem childrenInOrder_filter {ids : List Int} (hn : ids.Nodup) {i : Int} (hi : i ∈ ids) (rows : List (Row GVal)) :
    (childrenInOrder ids rows).filter (fun r => r.pid = i) = rows.filter fun r => r.pid = i := by
  unfold childrenInOrder
  rw [List.filter_flatMap]
  induction ids with
  | nil => simp at hi
  | cons a ids ih =>
    rw [List.nodup_cons] at hn
    rw [List.flatMap_cons]
    by_cases ha : a = i
    · subst ha
      have h0 : (ids.flatMap fun p => (rows.filter fun r => r.pid = p).filter fun r => r.pid = a) = [] := by
        rw [List.flatMap_eq_nil_iff]
        intro p hp
        rw [List.filter_filter, List.filter_eq_nil_iff]
        intro r _
        have : p ≠ a := fun hc => hn.1 (hc ▸ hp)
        simp only [Bool.and_eq_true, decide_eq_true_eq, not_and]
        intro h1 h2; exact this (h2.symm.trans h1)
      rw [h0, List.append_nil, List.filter_filter]
      simp
    · rcases List.mem_cons.mp hi with h | h
      · exact absurd h.symm ha
      · have h0 : (rows.filter fun r => r.pid = a).filter (fun r => r.pid = i) = [] := by
          rw [List.filter_filter, List.filter_eq_nil_iff]
          intro r _
          simp only [Bool.and_eq_true, decide_eq_true_eq, not_and]
          intro h1 h2; exact ha (h2.symm.trans h1)
        rw [h0, List.nil_append]
        exact ih hn.2 h

theorem forall₂_filter {R : Row GVal → Row GVal → Prop} (hR : ∀ {a b}, R a b → a.pid = b.pid) (i : Int)
    {l m : List (Row GVal)} (h : List.Forall₂ R l m) :
    List.Forall₂ R (l.filter fun r => r.pid = i) (m.filter fun r => r.pid = i) := by
  induction h with
  | nil => simp
  | @cons a b l m hab _ ih =>
    rw [List.filter_cons, List.filter_cons]
    have := hR hab
    by_cases ha : a.pid = i
    · rw [if_pos (by simpa using ha), if_pos (by simpa [← this] using ha)]
      exact List.Forall₂.cons hab ih
    · rw [if_neg (by simpa using ha), if_neg (by simpa [← this] using ha)]
      exact ih

/-- The earliest group in a dataset with the same rows for a flash. -/
theorem earliest_same {d out : GFile} {i : Int} {g' : Row GVal}
    (h : List.Forall₂ SameContent (d.groups.filter fun r => r.pid = i) (out.groups.filter fun r => r.pid = i))
    (he : EarliestGroup out i g') : ∃ g, EarliestGroup d i g ∧ SameContent g g' := by
  obtain ⟨b, c, e1, e2, e3⟩ := he
  rw [e1] at h
  have hb : List.Forall₂ SameContent ((d.groups.filter fun r => r.pid = i).take b.length) b := by
    have := List.forall₂_take b.length h
    rwa [List.take_left] at this
  have hc := List.forall₂_drop b.length h
  rw [List.drop_left] at hc
  cases hd : (d.groups.filter fun r => r.pid = i).drop b.length with
  | nil => rw [hd] at hc; cases hc
  | cons g c0 =>
    rw [hd] at hc
    cases hc with
    | cons hg hc =>
      refine ⟨g, ⟨(d.groups.filter fun r => r.pid = i).take b.length, c0, ?_, ?_, ?_⟩, hg⟩
      · rw [← hd, List.take_append_drop]
      · intro k hk
        obtain ⟨k', hk', hs⟩ := mem_of_forall₂_left hb hk
        rw [hg.times, hs.times]
        exact e2 k' hk'
      · intro k hk
        obtain ⟨k', hk', hs⟩ := mem_of_forall₂_left hc hk
        rw [hg.times, hs.times]
        exact e3 k' hk'

/-- What is known of a dataset that was opened with default options: there are flashes and groups, every flash has a
group, flash ids are those of the file, and the groups of a flash are those in the file, in that order. -/
theorem open_default {order : List Int → List Int} (ho : ∀ l, (order l).Perm l) {nav} {d out : GFile}
    (h : openDataset order nav true true d = .ok out) :
    out.groups ≠ [] ∧ out.flashes ≠ [] ∧ (∀ f ∈ out.flashes, ∃ g ∈ out.groups, g.pid = f.id) ∧
    (UniqueIds d.flashes → UniqueIds out.flashes) ∧
    (∀ i, (∃ g ∈ out.groups, g.pid = i) ↔ ∃ g ∈ d.groups, g.pid = i) ∧
    ∀ i, (∃ g ∈ d.groups, g.pid = i) →
      List.Forall₂ SameContent (d.groups.filter fun r => r.pid = i) (out.groups.filter fun r => r.pid = i) := by
  have hd : HasData d := by
    by_contra hc
    rw [C11_check_tree_fails order nav true d hc] at h
    cases h
  have key : ∀ d0 : GFile, repairTree order d = .ok d0 → d0.groups ≠ [] →
      (∀ f ∈ d0.flashes, ∃ g ∈ d0.groups, g.pid = f.id) →
      (UniqueIds d.flashes → UniqueIds d0.flashes) →
      (∀ i, (∃ g ∈ d0.groups, g.pid = i) ↔ ∃ g ∈ d.groups, g.pid = i) →
      (∀ i, (∃ g ∈ d.groups, g.pid = i) →
        (d0.groups.filter fun r => r.pid = i) = d.groups.filter fun r => r.pid = i) →
      out.groups ≠ [] ∧ out.flashes ≠ [] ∧ (∀ f ∈ out.flashes, ∃ g ∈ out.groups, g.pid = f.id) ∧
      (UniqueIds d.flashes → UniqueIds out.flashes) ∧
      (∀ i, (∃ g ∈ out.groups, g.pid = i) ↔ ∃ g ∈ d.groups, g.pid = i) ∧
      ∀ i, (∃ g ∈ d.groups, g.pid = i) →
        List.Forall₂ SameContent (d.groups.filter fun r => r.pid = i) (out.groups.filter fun r => r.pid = i) := by
    intro d0 hr hg0 hfg huq hpid hfl
    unfold openDataset at h
    simp only [if_true] at h
    obtain ⟨d1, hr', h⟩ := bind_ok h
    rw [hr] at hr'
    cases hr'
    obtain ⟨d1, hi, h⟩ := bind_ok h
    cases h
    obtain ⟨s1, s2, s3⟩ := initParentChild_same hi
    have t1 : List.Forall₂ SameContent d0.flashes (initFixedGrid nav d1).flashes := by
      refine forall₂_trans_same (R := SameContent) SameContent.trans s1 ?_
      simp only [initFixedGrid, List.forall₂_map_right_iff, List.forall₂_same]
      exact fun r _ => ⟨rfl, rfl, rfl, rfl, rfl, rfl, rfl⟩
    have t2 : List.Forall₂ SameContent d0.groups (initFixedGrid nav d1).groups := by
      refine forall₂_trans_same (R := SameContent) SameContent.trans s2 ?_
      simp only [initFixedGrid, List.forall₂_map_right_iff, List.forall₂_same]
      exact fun r _ => ⟨rfl, rfl, rfl, rfl, rfl, rfl, rfl⟩
    have hpid' : ∀ i, (∃ g ∈ (initFixedGrid nav d1).groups, g.pid = i) ↔ ∃ g ∈ d0.groups, g.pid = i := by
      intro i
      constructor
      · rintro ⟨g, hg, rfl⟩
        obtain ⟨g0, hg0, hs⟩ := mem_of_forall₂_right t2 hg
        exact ⟨g0, hg0, hs.pid⟩
      · rintro ⟨g, hg, rfl⟩
        obtain ⟨g0, hg0, hs⟩ := mem_of_forall₂_left t2 hg
        exact ⟨g0, hg0, hs.pid.symm⟩
    refine ⟨?_, ?_, ?_, ?_, fun i => (hpid' i).trans (hpid i), ?_⟩
    · intro hc
      rw [hc] at t2
      cases hx : d0.groups with
      | nil => exact hg0 hx
      | cons a l => rw [hx] at t2; cases t2
    · intro hc; rw [hc] at t1
      have : d0.flashes = [] := by
        cases hx : d0.flashes with
        | nil => rfl
        | cons a l => rw [hx] at t1; cases t1
      exact hg0 (s3 this)
    · intro f hf
      obtain ⟨f0, hf0, hs⟩ := mem_of_forall₂_right t1 hf
      rw [hpid', ← hs.id]
      exact hfg f0 hf0
    · intro hu
      have := huq hu
      unfold UniqueIds at this ⊢
      have e : d0.flashes.map Row.id = (initFixedGrid nav d1).flashes.map Row.id := by
        clear this hu huq hfg
        generalize (initFixedGrid nav d1).flashes = o at t1
        generalize d0.flashes = l at t1
        induction t1 with
        | nil => rfl
        | cons hab _ ih => rw [List.map_cons, List.map_cons, ih, hab.id]
      rwa [← e]
    · intro i hi'
      rw [← hfl i hi']
      exact forall₂_filter (fun h => h.pid) i t2
  by_cases hc : Consistent d
  · exact key d (repair_consistent order hd hc) hd.2.1 hc.flashHasGroup (fun h => h) (fun _ => Iff.rfl)
      (fun _ _ => rfl)
  · have hn : (order (npUnique (d.groups.map Row.pid))).Nodup :=
      (ho _).nodup_iff.mpr (npUnique_nodup _)
    have hmem : ∀ i, i ∈ order (npUnique (d.groups.map Row.pid)) ↔ ∃ g ∈ d.groups, g.pid = i := by
      intro i; rw [perm_mem_order ho, mem_npUnique, List.mem_map]
    have hpid : ∀ i, (∃ g ∈ childrenInOrder (order (npUnique (d.groups.map Row.pid))) d.groups, g.pid = i) ↔
        ∃ g ∈ d.groups, g.pid = i := by
      intro i
      constructor
      · rintro ⟨g, hg, rfl⟩
        exact ⟨g, (mem_childrenInOrder.mp hg).1, rfl⟩
      · rintro ⟨g, hg, rfl⟩
        exact ⟨g, mem_childrenInOrder.mpr ⟨hg, (hmem _).mpr ⟨g, hg, rfl⟩⟩, rfl⟩
    refine key _ (repair_inconsistent order hd hc) ?_ ?_ ?_ hpid ?_
    · obtain ⟨g, hg⟩ := List.exists_mem_of_ne_nil _ hd.2.1
      intro h0
      obtain ⟨g', hg', -⟩ := (hpid g.pid).mpr ⟨g, hg, rfl⟩
      have h0' : childrenInOrder (order (npUnique (d.groups.map Row.pid))) d.groups = [] := h0
      rw [h0'] at hg'
      simp at hg'
    · intro f hf
      have := (mem_rowsInOrder.mp hf).2
      exact (hpid f.id).mpr ((hmem f.id).mp this)
    · intro hu
      have := (rowsInOrder_perm hn d.flashes).map Row.id
      exact this.nodup_iff.mpr ((List.filter_sublist.map Row.id).nodup hu)
    · intro i hi
      exact childrenInOrder_filter hn ((hmem i).mpr hi) d.groups

/-- C96: both functions that add the place of initiation to a dataset give every flash the place of its earliest
group, for every file that can be opened and whatever the order of flashes and groups.  `single` is the conversion to
four byte floats in one of them. -/
theorem C96_flash_init {order : List Int → List Int} (ho : ∀ l, (order l).Perm l) {nav} {d out : GFile}
    (h : openDataset order nav true true d = .ok out) (hu : UniqueIds d.flashes) (single : Rat → Rat) :
    ∃ firsts, List.Forall₂ (fun (f g : Row GVal) => EarliestGroup d f.id g) out.flashes firsts ∧
      calculateFlashInit out = .ok (List.zipWith (fun f g => (f.id, g.val.lon, g.val.lat)) out.flashes firsts) ∧
      addFlashInitData single out =
        .ok (List.zipWith (fun f g => (f.id, single g.val.lon, single g.val.lat)) out.flashes firsts) := by
  obtain ⟨h1, h2, h3, h4, h5, h6⟩ := open_default ho h
  have hx : ∀ f ∈ out.flashes, ∃ g, EarliestGroup d f.id g ∧ SameContent g (firstG out f.id) := by
    intro f hf
    exact earliest_same (h6 f.id ((h5 f.id).mp (h3 f hf))) (firstG_spec (h3 f hf)).2
  have hy : ∀ l : List (Row GVal), (∀ f ∈ l, ∃ g, EarliestGroup d f.id g ∧ SameContent g (firstG out f.id)) →
      ∃ firsts, List.Forall₂ (fun (f g : Row GVal) => EarliestGroup d f.id g) l firsts ∧
        ∀ F : Rat → Rat, l.map (fun f => (f.id, F (firstG out f.id).val.lon, F (firstG out f.id).val.lat)) =
          List.zipWith (fun f g => (f.id, F g.val.lon, F g.val.lat)) l firsts := by
    intro l
    induction l with
    | nil => exact fun _ => ⟨[], List.Forall₂.nil, fun _ => rfl⟩
    | cons f l ih =>
      intro hl
      obtain ⟨g, hg, hs⟩ := hl f (by simp)
      obtain ⟨fs, hfs, he⟩ := ih fun f hf => hl f (by simp [hf])
      refine ⟨g :: fs, List.Forall₂.cons hg hfs, fun F => ?_⟩
      rw [List.map_cons, List.zipWith_cons_cons, he F, hs.lon, hs.lat]
  obtain ⟨firsts, hf, he⟩ := hy out.flashes hx
  refine ⟨firsts, hf, ?_, ?_⟩
  · rw [calculateFlashInit_ok h2 h1 (h4 hu) h3]
    exact congrArg _ (he id)
  · rw [addFlashInitData_ok single h1 (h4 hu) h3]
    exact congrArg _ (he single)

/-- C96 for the function that prints: one line for every flash id of a group, in increasing order, with the same
place. -/
theorem C96_printed {order : List Int → List Int} (ho : ∀ l, (order l).Perm l) {nav} {d out : GFile}
    (h : openDataset order nav true true d = .ok out) :
    ∃ ids firsts, ids.Pairwise (· < ·) ∧ (∀ i, i ∈ ids ↔ ∃ g ∈ d.groups, g.pid = i) ∧
      List.Forall₂ (fun (i : Int) (g : Row GVal) => EarliestGroup d i g) ids firsts ∧
      flashInitManual out = .ok (List.zipWith (fun i (g : Row GVal) => (i, g.val.lat, g.val.lon)) ids firsts) := by
  obtain ⟨h1, h2, h3, h4, h5, h6⟩ := open_default ho h
  have hids : ∀ i, i ∈ npUnique (out.groups.map Row.pid) ↔ ∃ g ∈ d.groups, g.pid = i := by
    intro i; rw [mem_npUnique, List.mem_map]; exact h5 i
  have hy : ∀ l : List Int, (∀ i ∈ l, ∃ g ∈ out.groups, g.pid = i) →
      ∃ firsts, List.Forall₂ (fun (i : Int) (g : Row GVal) => EarliestGroup d i g) l firsts ∧
        l.map (fun i => (i, (firstG out i).val.lat, (firstG out i).val.lon)) =
          List.zipWith (fun i (g : Row GVal) => (i, g.val.lat, g.val.lon)) l firsts := by
    intro l
    induction l with
    | nil => exact fun _ => ⟨[], List.Forall₂.nil, rfl⟩
    | cons i l ih =>
      intro hl
      have hi := hl i (by simp)
      obtain ⟨g, hg, hs⟩ := earliest_same (h6 i ((h5 i).mp hi)) (firstG_spec hi).2
      obtain ⟨fs, hfs, he⟩ := ih fun i hi => hl i (by simp [hi])
      refine ⟨g :: fs, List.Forall₂.cons hg hfs, ?_⟩
      rw [List.map_cons, List.zipWith_cons_cons, he, hs.lon, hs.lat]
  obtain ⟨firsts, hf, he⟩ := hy _ fun i hi => (h5 i).mpr ((hids i).mp hi)
  refine ⟨_, firsts, npUnique_sorted _, hids, hf, ?_⟩
  rw [flashInitManual_ok h1, he]

/-- C96 with the check of the tree off: a flash without groups makes both functions fail, although the one that
prints goes on. -/
theorem C96_no_groups {d : GFile} (hg : d.groups ≠ []) (single : Rat → Rat)
    (h : ∃ f ∈ d.flashes, ∀ g ∈ d.groups, g.pid ≠ f.id) :
    (∃ e, calculateFlashInit d = .error e) ∧ addFlashInitData single d = .error .valueError ∧
      ∃ l, flashInitManual d = .ok l := by
  obtain ⟨f, hf, hno⟩ := h
  refine ⟨?_, ?_, _, flashInitManual_ok hg⟩
  · cases hc : calculateFlashInit d with
    | error e => exact ⟨e, rfl⟩
    | ok l =>
      exfalso
      have hne : d.flashes ≠ [] := List.ne_nil_of_mem hf
      unfold calculateFlashInit at hc
      rw [if_neg hne] at hc
      obtain ⟨a, ha, -⟩ := bind_ok hc
      have hmem : f.id ∈ (groups (d.flashes.map Row.id)).map Prod.fst := by
        rw [groups_keys, mem_npUnique]
        exact List.mem_map_of_mem hf
      obtain ⟨kv, hkv, hk⟩ := List.mem_map.mp hmem
      obtain ⟨y, -, hy⟩ := mem_of_forall₂_left (mapM_ok_forall₂ ha) hkv
      obtain ⟨p, hp, -⟩ := bind_ok hy
      unfold assignFlashInit at hp
      split at hp
      · cases hp
      · have hk2 : dictGet (groups (d.groups.map Row.pid)) kv.1 = none := by
          rw [hk, dictGet_groups, if_neg]
          intro hm
          obtain ⟨g, hg', he⟩ := List.mem_map.mp hm
          exact hno g hg' he
        rw [hk2] at hp
        simp at hp
  · unfold addFlashInitData
    rw [getFlashInitData_ok single hg]
    simp only [bind, Except.bind]
    split
    · rfl
    · refine mapM_error_of _ ?_ ⟨f, hf, ?_⟩
      · intro a _
        split
        · exact Or.inl ⟨_, rfl⟩
        · exact Or.inr rfl
      · rw [List.find?_eq_none.mpr]
        intro x hx
        obtain ⟨i, hi, rfl⟩ := List.mem_map.mp hx
        obtain ⟨g, hg', he⟩ := pid_group hi
        have := hno g hg'
        simpa [← he] using this

/-- The sample with frame times: the second group of flash 5 is earlier than the first, those of flash 3 and the
missing flash are alone. -/
def initFile : GFile where
  flashes := brokenFile.flashes
  groups := [⟨11, 5, { lon := -75, lat := 1, times := [9, 9] }⟩, ⟨12, 3, { lon := -80, lat := 2, times := [4, 4] }⟩,
    ⟨13, 5, { lon := -76, lat := 3, times := [3, 3] }⟩, ⟨14, 5, { lon := -77, lat := 3, times := [1, 3] }⟩]
  events := [⟨100, 13, { energy := 2 }⟩, ⟨101, 11, { energy := 3 }⟩, ⟨102, 12, { energy := 4 }⟩]

/-- C96 applies to a file with a flash without groups: opening drops flash 7, and the place of flash 5 is that of its
second group. -/
example : ∃ out, openDataset id toyNav true true initFile = .ok out ∧ UniqueIds initFile.flashes ∧
    calculateFlashInit out = .ok [(3, -80, 2), (5, -76, 3)] ∧
    addFlashInitData id out = .ok [(3, -80, 2), (5, -76, 3)] ∧
    flashInitManual out = .ok [(3, 2, -80), (5, 3, -76)] := by
  unfold UniqueIds
  refine ⟨_, rfl, by decide, ?_, ?_, ?_⟩ <;> decide +kernel

/-- `C96_no_groups` applies to the file as it is. -/
example : (∃ f ∈ initFile.flashes, ∀ g ∈ initFile.groups, g.pid ≠ f.id) ∧
    calculateFlashInit initFile = .error .keyError := by decide +kernel

/-! ## C97: filtering flashes by area, altitude and energy -/

/-- The property as one would want it: what is left of the events of every window are the events of the flashes
left, and the flashes left are those within the bounds. -/
def C97_full : Prop := ∀ (events : List (List ChildRow)) (flashes : List (List ParentRow))
    (a A z Z e E : Rat),
    List.Forall₂ (fun ev fl => Linked2 (ev, fl)) events flashes →
    List.Forall₂ (fun (out : List ChildRow × List ParentRow) (inp : List ChildRow × List ParentRow) =>
      out.2 = inp.2.filter (fun p => decide (a ≤ p.area ∧ p.area ≤ A ∧ z * 1000 ≤ p.ctrAlt ∧ p.ctrAlt ≤ Z * 1000 ∧
        e ≤ p.totalEnergy ∧ p.totalEnergy ≤ E)) ∧
      ∀ c, c ∈ out.1 ↔ c ∈ inp.1 ∧ ∃ p ∈ out.2, p.flashId = c.flashId)
      (filteredTimeSeries events flashes (lassoBounds a A z Z e E)) (events.zip flashes)

theorem goodRecord_fold {β : Type} (field : β → String → Option (Option Rat)) (bounds : List (String × Rat × Rat))
    (r : β) (b : Bool) :
    bounds.foldl (goodStep field r) b = true ↔
    b = true ∧ ∀ x ∈ bounds, ∀ v, field r x.1 = some v → ∃ q, v = some q ∧ x.2.1 ≤ q ∧ q ≤ x.2.2 := by
  induction bounds generalizing b with
  | nil => simp
  | cons x l ih =>
    rw [List.foldl_cons, ih]
    cases hx : field r x.1 with
    | none => simp [goodStep, hx]
    | some v =>
      cases v with
      | none => simp [goodStep, hx]
      | some q => simp [goodStep, hx, and_assoc]

/-- C97 for any bounds: a record is kept iff every bounded field that it has is within its bounds. -/
theorem C97_any_bounds {β : Type} (field : β → String → Option (Option Rat)) (bounds : List (String × Rat × Rat))
    (r : β) : goodRecord field bounds r = true ↔
      ∀ x ∈ bounds, ∀ v, field r x.1 = some v → ∃ q, v = some q ∧ x.2.1 ≤ q ∧ q ≤ x.2.2 := by
  unfold goodRecord
  rw [goodRecord_fold]
  simp

theorem lasso_flash (a A z Z e E : Rat) (p : ParentRow) :
    goodRecord ParentRow.field (lassoBounds a A z Z e E) p = decide (a ≤ p.area ∧ p.area ≤ A ∧
      z * 1000 ≤ p.ctrAlt ∧ p.ctrAlt ≤ Z * 1000 ∧ e ≤ p.totalEnergy ∧ p.totalEnergy ≤ E) := by
  rw [Bool.eq_iff_iff, C97_any_bounds]
  simp [lassoBounds, ParentRow.field, and_assoc]

theorem lasso_event (a A z Z e E : Rat) (c : ChildRow) :
    goodRecord ChildRow.field (lassoBounds a A z Z e E) c = true := by
  rw [C97_any_bounds]
  simp [lassoBounds, ChildRow.field]

/-- What the program does: as many windows as before; in each, the flashes within the bounds, in the same order, and
all the events. -/
theorem C97_exact (events : List (List ChildRow)) (flashes : List (List ParentRow)) (a A z Z e E : Rat) :
    List.Forall₂ (fun (out : List ChildRow × List ParentRow) (inp : List ChildRow × List ParentRow) =>
      out.2 = inp.2.filter (fun p => decide (a ≤ p.area ∧ p.area ≤ A ∧ z * 1000 ≤ p.ctrAlt ∧ p.ctrAlt ≤ Z * 1000 ∧
        e ≤ p.totalEnergy ∧ p.totalEnergy ≤ E)) ∧ out.1 = inp.1)
      (filteredTimeSeries events flashes (lassoBounds a A z Z e E)) (events.zip flashes) := by
  unfold filteredTimeSeries
  rw [List.forall₂_map_left_iff, List.forall₂_same]
  intro ef _
  refine ⟨?_, ?_⟩
  · exact List.filter_congr fun p _ => lasso_flash a A z Z e E p
  · exact List.filter_eq_self.mpr fun c _ => lasso_event a A z Z e E c

/-- The property holds for the windows none of whose events is of a flash out of bounds. -/
theorem C97_partial (events : List (List ChildRow)) (flashes : List (List ParentRow)) (a A z Z e E : Rat)
    (hl : List.Forall₂ (fun ev fl => Linked2 (ev, fl)) events flashes)
    (hin : ∀ fl ∈ flashes, ∀ p ∈ fl, a ≤ p.area ∧ p.area ≤ A ∧ z * 1000 ≤ p.ctrAlt ∧ p.ctrAlt ≤ Z * 1000 ∧
        e ≤ p.totalEnergy ∧ p.totalEnergy ≤ E) :
    filteredTimeSeries events flashes (lassoBounds a A z Z e E) = events.zip flashes ∧
    ∀ ef ∈ filteredTimeSeries events flashes (lassoBounds a A z Z e E), Linked2 ef := by
  have h : filteredTimeSeries events flashes (lassoBounds a A z Z e E) = events.zip flashes := by
    unfold filteredTimeSeries
    conv_rhs => rw [← List.map_id (events.zip flashes)]
    refine List.map_congr_left fun ef hef => ?_
    refine Prod.ext ?_ ?_
    · exact List.filter_eq_self.mpr fun c _ => lasso_event a A z Z e E c
    · refine List.filter_eq_self.mpr fun p hp => ?_
      rw [lasso_flash]
      exact decide_eq_true (hin ef.2 (List.of_mem_zip hef).2 p hp)
  refine ⟨h, ?_⟩
  rw [h]
  intro ef hef
  exact List.forall₂_iff_zip.mp hl |>.2 hef

/-- The events of a window are those of the flashes left exactly if each is of some flash within the bounds. -/
theorem C97_iff (ev : List ChildRow) (fl : List ParentRow) (a A z Z e E : Rat) :
    ∃ out, filteredTimeSeries [ev] [fl] (lassoBounds a A z Z e E) = [out] ∧
      ((∀ c, c ∈ out.1 ↔ c ∈ ev ∧ ∃ p ∈ out.2, p.flashId = c.flashId) ↔
        ∀ c ∈ ev, ∃ p ∈ fl, p.flashId = c.flashId ∧ a ≤ p.area ∧ p.area ≤ A ∧ z * 1000 ≤ p.ctrAlt ∧
          p.ctrAlt ≤ Z * 1000 ∧ e ≤ p.totalEnergy ∧ p.totalEnergy ≤ E) := by
  have h := C97_exact [ev] [fl] a A z Z e E
  rw [List.zip_cons_cons, List.zip_nil_right] at h
  cases hx : filteredTimeSeries [ev] [fl] (lassoBounds a A z Z e E) with
  | nil => rw [hx] at h; cases h
  | cons out r =>
    rw [hx] at h
    cases h with
    | cons h1 h2 =>
      cases h2
      refine ⟨out, rfl, ?_⟩
      rw [h1.1, h1.2]
      simp only [List.mem_filter, decide_eq_true_eq]
      constructor
      · intro h c hc
        obtain ⟨-, p, ⟨hp, hb⟩, hi⟩ := (h c).mp hc
        exact ⟨p, hp, hi, hb⟩
      · intro h c
        refine ⟨fun hc => ⟨hc, ?_⟩, fun hc => hc.1⟩
        obtain ⟨p, hp, hi, hb⟩ := h c hc
        exact ⟨p, ⟨hp, hb⟩, hi⟩

/-- Altitudes of flashes from GLM are zero: bounds on altitude that leave out zero leave no flash, others make no
difference. -/
theorem C97_altitude (mem : Nat → ChildRow) (pmem : Nat → ParentRow) {d : GFile} (base : Option Int) (h : HasData d)
    (a A z Z e E : Rat) :
    ∃ f, mimicLmaDataset mem pmem d base none none none = .ok f ∧
      ((0 < z ∨ Z < 0) → f.flash.2.filter (goodRecord ParentRow.field (lassoBounds a A z Z e E)) = []) ∧
      (z ≤ 0 → 0 ≤ Z → f.flash.2.filter (goodRecord ParentRow.field (lassoBounds a A z Z e E)) =
        f.flash.2.filter fun p => decide (a ≤ p.area ∧ p.area ≤ A ∧ e ≤ p.totalEnergy ∧ p.totalEnergy ≤ E)) := by
  obtain ⟨f, hf, -, -, -, hp, -⟩ := mimic_plain mem pmem base h
  have h0 : ∀ p ∈ f.flash.2, p.ctrAlt = 0 := fun p hp' => by
    obtain ⟨r, -, hr⟩ := mem_of_forall₂_right hp hp'
    exact hr.alt.1
  refine ⟨f, hf, ?_, ?_⟩
  · intro hz
    rw [List.filter_eq_nil_iff]
    intro p hp'
    rw [lasso_flash, h0 p hp']
    simp only [decide_eq_true_eq, not_and]
    intro _ _ h1 h2
    exfalso
    rcases hz with hz | hz <;> linarith
  · intro h1 h2
    refine List.filter_congr fun p hp' => ?_
    rw [lasso_flash, h0 p hp']
    refine decide_eq_decide.mpr ⟨fun ⟨x1, x2, _, _, x3, x4⟩ => ⟨x1, x2, x3, x4⟩, fun ⟨x1, x2, x3, x4⟩ =>
      ⟨x1, x2, by linarith, by linarith, x3, x4⟩⟩

/-- A window with one flash of area 5 and its event. -/
def lassoWindow : List ChildRow × List ParentRow :=
  ([⟨1, 0, 0, 0, none, 0, 0, 0, 2⟩], [⟨5, 2, 0, 0, 0, 0, none, none, 0, 0, 0, 1, 1⟩])

/-- C97 does not hold: the event of a flash that is too small stays. -/
theorem C97_full_false : ¬ C97_full := by
  intro h
  have hl : Linked2 (lassoWindow.1, lassoWindow.2) := by
    simp [Linked2, lassoWindow]
  have := h [lassoWindow.1] [lassoWindow.2] 10 1000 (-1) 100 0 1000
    (List.Forall₂.cons hl List.Forall₂.nil)
  have e1 : filteredTimeSeries [lassoWindow.1] [lassoWindow.2] (lassoBounds 10 1000 (-1) 100 0 1000) =
      [(lassoWindow.1, [])] := by decide +kernel
  rw [e1] at this
  cases this with
  | cons h1 _ =>
    have := (h1.2 ⟨1, 0, 0, 0, none, 0, 0, 0, 2⟩).mp (by simp [lassoWindow])
    simp at this

/-- `C97_partial` applies to the window. -/
example : Linked2 (lassoWindow.1, lassoWindow.2) ∧ ∀ p ∈ lassoWindow.2, 5 ≤ p.area ∧ p.area ≤ 5 ∧
    -1 * 1000 ≤ p.ctrAlt ∧ p.ctrAlt ≤ 100 * 1000 ∧ 2 ≤ p.totalEnergy ∧ p.totalEnergy ≤ 2 := by
  constructor
  · simp [Linked2, lassoWindow]
  · decide +kernel

/-- Bounds that the flash meets. -/
example : filteredTimeSeries [lassoWindow.1] [lassoWindow.2] (lassoBounds 5 5 (-1) 100 2 2) =
    [lassoWindow] := by decide +kernel

end Verif.Props
