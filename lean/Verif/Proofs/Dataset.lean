import Verif.Proofs.Consistency
import Verif.Spec.Dataset

/-! Lemmas about `GLMDataset`. -/

namespace Verif.Proofs

open Verif.Py Verif.Model Verif.Spec

theorem levels_wf (d : GFile) : WellFormed d.levels := by
  constructor
  · intro l hl
    simp only [GFile.levels, List.head?_cons, Option.mem_some_iff] at hl
    rw [← hl]
  · intro l hl
    simp only [GFile.levels, List.tail_cons, List.mem_cons, List.not_mem_nil, or_false] at hl
    rcases hl with rfl | rfl <;> simp
  · simp [GFile.levels]
  · simp [GFile.levels]

theorem levels_noEmpty {d : GFile} : NoEmptyLevel d.levels ↔ HasData d := by
  simp only [NoEmptyLevel, GFile.levels, List.mem_cons, List.not_mem_nil, or_false, forall_eq_or_imp,
    forall_eq, HasData]

theorem levels_noOrphans {d : GFile} : NoOrphans d.levels ↔
    (∀ g ∈ d.groups, ∃ f ∈ d.flashes, f.id = g.pid) ∧
    (∀ e ∈ d.events, ∃ g ∈ d.groups, g.id = e.pid) := by
  rw [noOrphans_iff]
  simp [GFile.levels, HasParents]

theorem levels_noChildless {d : GFile} : NoChildless d.levels ↔
    (∀ f ∈ d.flashes, ∃ g ∈ d.groups, g.pid = f.id) ∧
    (∀ g ∈ d.groups, ∃ e ∈ d.events, e.pid = g.id) := by
  rw [noChildless_iff]
  simp [GFile.levels, HasChildren]

/-- What `reduce_to_entities('flash_id', ids)` leaves. -/
def keptFlashes (d : GFile) (ids : List Int) : GFile :=
  ⟨rowsInOrder ids d.flashes, childrenInOrder ids d.groups,
    childrenInOrder ((childrenInOrder ids d.groups).map Row.id) d.events⟩

theorem reduce_levels {d : GFile} (h : HasData d) (ids : List Int) :
    reduceToEntities d.levels "flash_id" ids = .ok (keptFlashes d ids).levels := by
  have := reduce_closed (t := d.levels) (above := []) (L := ⟨"flash_id", none, d.flashes⟩)
    (below := [⟨"group_id", some "group_parent_flash_id", d.groups⟩,
      ⟨"event_id", some "event_parent_group_id", d.events⟩]) ids (levels_wf d) rfl
    (levels_noEmpty.mpr h)
  rw [this]
  rfl

theorem getFlashes_ok {d : GFile} (h : HasData d) (ids : List Int) :
    getFlashes d ids = .ok (keptFlashes d ids) := by
  simp only [getFlashes, reduce_levels h, bind, Except.bind]
  rfl

theorem getFlashes_error {d : GFile} (h : ¬ HasData d) (ids : List Int) :
    getFlashes d ids = .error .attributeError := by
  have he : ∃ l ∈ d.levels, l.rows = [] := by
    rw [← levels_noEmpty] at h
    simpa [NoEmptyLevel] using h
  have := reduce_error (t := d.levels) (above := []) (L := ⟨"flash_id", none, d.flashes⟩)
    (below := [⟨"group_id", some "group_parent_flash_id", d.groups⟩,
      ⟨"event_id", some "event_parent_group_id", d.events⟩]) ids (levels_wf d) rfl he
  rw [getFlashes, this]
  rfl

theorem blocks_perm {α : Type} (f : Row α → Int) {ids : List Int} (hn : ids.Nodup)
    (rows : List (Row α)) :
    (ids.flatMap fun i => rows.filter fun r => f r = i).Perm
      (rows.filter fun r => f r ∈ ids) := by
  induction rows with
  | nil =>
    have : (ids.flatMap fun _ => ([] : List (Row α))) = [] := by
      induction ids with
      | nil => rfl
      | cons a l ih => simp
    simp only [List.filter_nil, this]
    exact List.Perm.refl _
  | cons r rs ih =>
    by_cases hr : f r ∈ ids
    · rw [List.filter_cons_of_pos (by simpa using hr)]
      refine List.Perm.trans ?_ (ih.cons r)
      clear ih
      induction ids with
      | nil => simp at hr
      | cons a l ih =>
        rw [List.nodup_cons] at hn
        simp only [List.flatMap_cons]
        by_cases ha : f r = a
        · rw [List.filter_cons_of_pos (by simpa using ha)]
          have : (l.flatMap fun i => (r :: rs).filter fun r => f r = i) =
              l.flatMap fun i => rs.filter fun r => f r = i := by
            rw [List.flatMap_def, List.flatMap_def]
            congr 1
            apply List.map_congr_left
            intro i hi
            rw [List.filter_cons_of_neg]
            simp only [decide_eq_true_eq]
            intro h
            apply hn.1
            rw [← ha, h]; exact hi
          rw [this]
          exact List.Perm.refl _
        · have hl : f r ∈ l := by
            rw [List.mem_cons] at hr; tauto
          rw [List.filter_cons_of_neg (by simpa using ha)]
          refine List.Perm.trans (List.Perm.append_left _ (ih hn.2 hl)) ?_
          exact List.perm_middle
    · rw [List.filter_cons_of_neg (by simpa using hr)]
      have : (ids.flatMap fun i => (r :: rs).filter fun r => f r = i) =
          ids.flatMap fun i => rs.filter fun r => f r = i := by
        rw [List.flatMap_def, List.flatMap_def]
        congr 1
        apply List.map_congr_left
        intro i hi
        rw [List.filter_cons_of_neg]
        simp only [decide_eq_true_eq]
        intro h
        apply hr
        rw [h]; exact hi
      rw [this]
      exact ih

theorem rowsInOrder_perm {α : Type} {ids : List Int} (hn : ids.Nodup) (rows : List (Row α)) :
    (rowsInOrder ids rows).Perm (rows.filter fun r => r.id ∈ ids) := blocks_perm Row.id hn rows

theorem childrenInOrder_perm {α : Type} {ids : List Int} (hn : ids.Nodup) (rows : List (Row α)) :
    (childrenInOrder ids rows).Perm (rows.filter fun r => r.pid ∈ ids) := blocks_perm Row.pid hn rows

/-! ### repair -/

/-- The value of `checkPair_ok`. -/
def pairStats (p c : Level GVal) : Stat × Stat :=
  (⟨p.evar, (npUnique p.ids).length, ((npUnique p.ids).filter (· ∉ c.pids)).length,
    (npUnique p.ids).filter (· ∉ c.pids)⟩,
   ⟨c.pvar.getD "", (npUnique c.pids).length, ((npUnique c.pids).filter (· ∉ p.ids)).length,
    (npUnique c.pids).filter (· ∉ p.ids)⟩)

theorem checkPair_stats {p c : Level GVal} (hpv : c.pvar ≠ none) (hp : p.rows ≠ [])
    (hc : c.rows ≠ []) : checkPair p c = .ok (pairStats p c) := checkPair_ok hpv hp hc

/-- `check_parent_child` on the three levels. -/
theorem check_levels {d : GFile} (h : HasData d) :
    ∃ es ps, checkParentChild d.levels = .ok (es, ps) ∧
      (es.any (fun s => 0 < s.badCount) || ps.any (fun s => 0 < s.badCount)) =
        !decide (Consistent d) ∧
      ∃ s, es.find? (fun s => s.var == "flash_id") = some s ∧
        s.bad = (npUnique (d.flashes.map Row.id)).filter (· ∉ d.groups.map Row.pid) := by
  obtain ⟨hf, hg, he⟩ := h
  have h1 := checkPair_stats (p := ⟨"flash_id", none, d.flashes⟩)
    (c := ⟨"group_id", some "group_parent_flash_id", d.groups⟩) (by simp) hf hg
  have h2 := checkPair_stats (p := ⟨"group_id", some "group_parent_flash_id", d.groups⟩)
    (c := ⟨"event_id", some "event_parent_group_id", d.events⟩) (by simp) hg he
  let F : Level GVal := ⟨"flash_id", none, d.flashes⟩
  let G : Level GVal := ⟨"group_id", some "group_parent_flash_id", d.groups⟩
  let E : Level GVal := ⟨"event_id", some "event_parent_group_id", d.events⟩
  refine ⟨[(pairStats F G).1, (pairStats G E).1], [(pairStats F G).2, (pairStats G E).2], ?_, ?_,
    (pairStats F G).1, ?_, ?_⟩
  · simp only [checkParentChild, GFile.levels, checkLoop, h1, h2, bind, Except.bind, pure,
      Except.pure]
    rfl
  · have key : ∀ (p : Int → Bool) (a b : List Int), (∀ x, p x = true ↔ x ∉ b) →
        (0 < ((npUnique a).filter p).length ↔ ¬ ∀ x ∈ a, x ∈ b) := by
      intro p a b hp
      rw [List.length_pos_iff_exists_mem]
      simp [mem_npUnique, hp]
    have hc : Consistent d ↔ (∀ x ∈ d.flashes.map Row.id, x ∈ d.groups.map Row.pid) ∧
        (∀ x ∈ d.groups.map Row.id, x ∈ d.events.map Row.pid) ∧
        (∀ x ∈ d.groups.map Row.pid, x ∈ d.flashes.map Row.id) ∧
        (∀ x ∈ d.events.map Row.pid, x ∈ d.groups.map Row.id) := by
      constructor
      · rintro ⟨a, b, c, e⟩
        simp only [List.mem_map, forall_exists_index, and_imp, forall_apply_eq_imp_iff₂]
        exact ⟨c, e, a, b⟩
      · simp only [List.mem_map, forall_exists_index, and_imp, forall_apply_eq_imp_iff₂]
        intro c e a b
        exact ⟨a, b, c, e⟩
    simp only [pairStats, F, G, E, Level.ids, Level.pids]
    rw [Bool.eq_iff_iff]
    simp only [List.any_cons, List.any_nil, Bool.or_false, Bool.or_eq_true, decide_eq_true_eq,
      Bool.not_eq_true', decide_eq_false_iff_not, hc]
    rw [key _ _ (d.groups.map Row.pid) (by simp), key _ _ (d.events.map Row.pid) (by simp),
      key _ _ (d.flashes.map Row.id) (by simp), key _ _ (d.groups.map Row.id) (by simp)]
    tauto
  · rfl
  · rfl

theorem repair_consistent {d : GFile} (order : List Int → List Int) (h : HasData d)
    (hc : Consistent d) : repairTree order d = .ok d := by
  obtain ⟨es, ps, h1, h2, -⟩ := check_levels h
  simp [repairTree, h1, h2, hc, bind, Except.bind, pure, Except.pure]

theorem repair_inconsistent {d : GFile} (order : List Int → List Int) (h : HasData d)
    (hc : ¬ Consistent d) :
    repairTree order d = .ok (keptFlashes d (order (npUnique (d.groups.map Row.pid)))) := by
  obtain ⟨es, ps, h1, h2, s, h3, h4⟩ := check_levels h
  have hgood : (npUnique (d.groups.map Row.pid)).filter (fun i => decide (i ∉ s.bad)) =
      npUnique (d.groups.map Row.pid) := by
    rw [List.filter_eq_self]
    intro i hi
    rw [mem_npUnique] at hi
    simp only [h4, List.mem_filter, decide_eq_true_eq, not_and, not_not]
    intro _; exact hi
  simp only [repairTree, h1, h2, hc, bind, Except.bind, decide_false, Bool.not_false, if_true, h3,
    hgood, reduce_levels h]
  rfl

theorem repair_noData {d : GFile} (order : List Int → List Int) (h : ¬ HasData d) :
    repairTree order d = .error .attributeError := by
  have he : ∃ l ∈ d.levels, l.rows = [] := by
    rw [← levels_noEmpty] at h
    simpa [NoEmptyLevel] using h
  have key : checkParentChild d.levels = .error .attributeError := by
    show checkLoop _ [_, _] = _
    have hp : ∀ p c : Level GVal, c.pvar ≠ none → p.rows = [] ∨ c.rows = [] →
        checkPair p c = .error .attributeError := by
      intro p c hpv h
      unfold checkPair
      by_cases hc : c.rows = []
      · simp [parentGroups_empty hc, bind, Except.bind]
      · have hp : p.rows = [] := by tauto
        simp [parentGroups_ok hpv hc, entityGroups_empty hp, bind, Except.bind]
    by_cases h1 : d.flashes = [] ∨ d.groups = []
    · simp [checkLoop, hp ⟨"flash_id", none, d.flashes⟩
        ⟨"group_id", some "group_parent_flash_id", d.groups⟩ (by simp) h1, bind, Except.bind]
    · have h3 : d.events = [] := by
        unfold HasData at h; tauto
      rw [not_or] at h1
      simp [checkLoop, checkPair_ok (p := ⟨"flash_id", none, d.flashes⟩)
        (c := ⟨"group_id", some "group_parent_flash_id", d.groups⟩) (by simp) h1.1 h1.2,
        hp ⟨"group_id", some "group_parent_flash_id", d.groups⟩
        ⟨"event_id", some "event_parent_group_id", d.events⟩ (by simp) (Or.inr h3),
        bind, Except.bind]
  simp [repairTree, key, bind, Except.bind]

/-! ### derived variables -/

theorem forall₂_count {β γ : Type} [DecidableEq γ] {R : β → γ → Prop} {xs : List β} {ys : List γ}
    (h : List.Forall₂ R xs ys) (i : γ) (Q : β → Bool) (hq : ∀ x y, R x y → (y = i ↔ Q x = true)) :
    ys.count i = (xs.filter Q).length := by
  induction h with
  | nil => rfl
  | @cons a b _ _ hab _ ih =>
    have := hq _ _ hab
    rw [List.count_cons, List.filter_cons, ih]
    by_cases hb : b = i
    · simp [hb, this.mp hb]
    · have : ¬ Q a = true := fun hc => hb (this.mpr hc)
      simp [hb, this]

theorem setVar_map {β : Type} (upd : Row GVal → β → Row GVal) (rows : List (Row GVal))
    (f : Row GVal → β) : setVar upd rows (rows.map f) = .ok (rows.map fun r => upd r (f r)) := by
  rw [setVar, if_pos (by simp)]
  congr 1
  induction rows with
  | nil => rfl
  | cons a l ih => simp [ih]

theorem mem_zipWith_forall₂ {β : Type} {R : Row GVal → β → Prop} {rows : List (Row GVal)}
    {xs : List β} (h : List.Forall₂ R rows xs) (upd : Row GVal → β → Row GVal) :
    ∀ r' ∈ List.zipWith upd rows xs, ∃ r ∈ rows, ∃ x, R r x ∧ r' = upd r x := by
  induction h with
  | nil => simp
  | cons hab _ ih =>
    intro r' hr'
    simp only [List.zipWith_cons_cons, List.mem_cons] at hr'
    rcases hr' with rfl | hr'
    · exact ⟨_, by simp, _, hab, rfl⟩
    · obtain ⟨r, hr, x, h1, h2⟩ := ih r' hr'
      exact ⟨r, by simp [hr], x, h1, h2⟩

theorem zipWith_flashOf (rows : List (Row GVal)) (xs : List Int) (h : xs.length = rows.length) :
    (List.zipWith setFlashOf rows xs).map (fun e => e.val.flashOf) = xs := by
  induction rows generalizing xs with
  | nil =>
    simp only [List.length_nil, List.length_eq_zero_iff] at h
    simp [h]
  | cons a l ih =>
    cases xs with
    | nil => simp at h
    | cons x xs =>
      simp only [List.length_cons, Nat.add_right_cancel_iff] at h
      simp [ih xs h, setFlashOf]

theorem countLine_count (keys last : List Int) :
    countLine (groups keys) last = last.map fun i => keys.count i := by
  unfold countLine
  apply List.map_congr_left
  intro i _
  rw [dictGet_groups]
  by_cases hi : i ∈ keys
  · simp only [hi, if_true, positions_length]
  · simp only [hi, if_false]
    exact (List.count_eq_zero_of_not_mem hi).symm

theorem initParentChild_closed {d : GFile} (h : HasData d) {ids : List Int}
    (hr : replicateParentIds d.levels "flash_id" "event_parent_group_id" = .ok ids)
    (hl : ids.length = d.events.length) :
    initParentChild d = .ok
      ⟨d.flashes.map (fun f => setNEvents
          (setNGroups f (childCount d.groups f.id)) (ids.count f.id)),
        d.groups.map (fun g => setNEvents g (childCount d.events g.id)),
        List.zipWith setFlashOf d.events ids⟩ := by
  have hc := countChildren_closed (t := d.levels) (above := []) (mids :=
    [⟨"group_id", some "group_parent_flash_id", d.groups⟩]) (rest := [])
    (L := ⟨"flash_id", none, d.flashes⟩) (C := ⟨"event_id", some "event_parent_group_id", d.events⟩)
    (levels_wf d) rfl (by simpa using h.2.1) h.2.2
  have hn : ¬ (d.flashes.length = 0 ∨ d.groups.length = 0 ∨ d.events.length = 0) := by
    simp only [List.length_eq_zero_iff]
    unfold HasData at h
    tauto
  simp only [initParentChild, hn, if_false, hr, bind, Except.bind, pure, Except.pure]
  have hev : setVar setFlashOf d.events ids = .ok (List.zipWith setFlashOf d.events ids) := by
    rw [setVar, if_pos hl]
  simp only [hev, hc, countsDown, List.cons_append, List.nil_append, Level.ids, List.map_map,
    Function.comp_def, zipWith_flashOf _ _ hl]
  rw [setVar_map, setVar_map]
  simp only []
  rw [countLine_count, List.map_map]
  have hcount2 : (d.flashes.map ((fun i => ids.count i) ∘ Row.id)) =
      (d.flashes.map fun r => setNGroups r (childCount d.groups r.id)).map
        fun f => ids.count f.id := by
    simp [setNGroups, Function.comp_def]
  rw [hcount2, setVar_map]
  simp [setNGroups, Function.comp_def]

/-- With unique group ids and no orphan event, `replicate_parent_ids` finds the flash of every
event. -/
theorem replicate_levels {d : GFile} (hu : UniqueIds d.groups)
    (ho : ∀ e ∈ d.events, ∃ g ∈ d.groups, g.id = e.pid) :
    ∃ ids, replicateParentIds d.levels "flash_id" "event_parent_group_id" = .ok ids ∧
      List.Forall₂ (fun (e : Row GVal) a => EventOfFlash d a e) d.events ids := by
  have hl : Linked (d.events.map Row.pid)
      [(⟨"group_id", some "group_parent_flash_id", d.groups⟩ : Level GVal)] := by
    refine ⟨?_, hu, by simp, trivial⟩
    intro i hi
    obtain ⟨e, he, rfl⟩ := List.mem_map.mp hi
    obtain ⟨g, hg, hg2⟩ := ho e he
    exact List.mem_map.mpr ⟨g, hg, hg2⟩
  obtain ⟨ids, h1, h2⟩ := replicate_closed (t := d.levels) (above := [])
    (mids := [⟨"group_id", some "group_parent_flash_id", d.groups⟩]) (rest := [])
    (E := ⟨"flash_id", none, d.flashes⟩) (C := ⟨"event_id", some "event_parent_group_id", d.events⟩)
    (p := "event_parent_group_id") (levels_wf d) rfl rfl hl
  refine ⟨ids, h1, ?_⟩
  refine h2.imp ?_
  intro e a ha
  obtain ⟨g, hg, hg1, hg2⟩ := ha

  exact ⟨g, hg, hg1, (show a = g.pid from hg2).symm⟩

theorem eventOfFlash_unique {d : GFile} (hu : UniqueIds d.groups) {e : Row GVal} {i j : Int}
    (h1 : EventOfFlash d i e) (h2 : EventOfFlash d j e) : i = j := by
  obtain ⟨g, hg, hg1, rfl⟩ := h1
  obtain ⟨g', hg', hg1', rfl⟩ := h2
  have : g = g' := List.inj_on_of_nodup_map hu hg hg' (by rw [hg1, hg1'])
  rw [this]

end Verif.Proofs
