import Verif.Proofs.Py
import Verif.Spec.Tree

/-! Helper lemmas for the traversal model. -/

namespace Verif.Proofs

open Verif.Py Verif.Model Verif.Spec

variable {α : Type}

theorem take_chain_ids (l : Level α) (ids : List Int) :
    take l.rows (chainIdx (groups l.ids) ids) = rowsInOrder ids l.rows := by
  unfold chainIdx rowsInOrder
  rw [take_flatMap]
  congr 1
  funext k
  rw [dictGet_groups]
  by_cases h : k ∈ l.ids
  · simp only [h, if_true, Option.getD_some]
    exact take_positions l.rows Row.id k
  · have := take_positions l.rows Row.id k
    rw [show positions (l.rows.map Row.id) k = [] from positions_eq_nil h] at this
    simp only [h, if_false, Option.getD_none]
    exact this

theorem take_chain_pids (l : Level α) (ids : List Int) :
    take l.rows (chainIdx (groups l.pids) ids) = childrenInOrder ids l.rows := by
  unfold chainIdx childrenInOrder
  rw [take_flatMap]
  congr 1
  funext k
  rw [dictGet_groups]
  by_cases h : k ∈ l.pids
  · simp only [h, if_true, Option.getD_some]
    exact take_positions l.rows Row.pid k
  · have := take_positions l.rows Row.pid k
    rw [show positions (l.rows.map Row.pid) k = [] from positions_eq_nil h] at this
    simp only [h, if_false, Option.getD_none]
    exact this

theorem entityGroups_ok {l : Level α} (h : l.rows ≠ []) :
    entityGroups l = .ok (groups l.ids) := by simp [entityGroups, h]

theorem entityGroups_empty {l : Level α} (h : l.rows = []) :
    entityGroups l = .error .attributeError := by simp [entityGroups, h]

theorem parentGroups_ok {l : Level α} (hp : l.pvar ≠ none) (h : l.rows ≠ []) :
    parentGroups l = .ok (groups l.pids) := by simp [parentGroups, h, hp]

theorem parentGroups_empty {l : Level α} (h : l.rows = []) :
    parentGroups l = .error .attributeError := by simp [parentGroups, h]

/-! ### descending -/

theorem descendLoop_skip (e : String) (ids : List Int) (x : List Int) (above rest : List (Level α))
    (h : ∀ l ∈ above, l.evar ≠ e) :
    descendLoop e ids ⟨false, x⟩ (above ++ rest) =
      (do let r ← descendLoop e ids ⟨false, x⟩ rest; pure (above ++ r)) := by
  induction above with
  | nil =>
    simp only [List.nil_append]
    cases descendLoop e ids ⟨false, x⟩ rest <;> rfl
  | cons a l ih =>
    have ha : a.evar ≠ e := h a (by simp)
    have ih := ih (fun m hm => h m (by simp [hm]))
    simp only [List.cons_append, descendLoop, descendStep, ha, if_false, Bool.false_eq_true]
    simp only [bind, Except.bind, pure, Except.pure] at ih ⊢
    rw [ih]
    cases descendLoop e ids ⟨false, x⟩ rest <;> rfl

/-- The level of the entity after indexing. -/
def entityLevel (l : Level α) (ids : List Int) : Level α :=
  { l with rows := rowsInOrder ids l.rows }

/-- The levels below after indexing. -/
def belowLevels (parents : List Int) : List (Level α) → List (Level α)
  | [] => []
  | l :: ls =>
    { l with rows := childrenInOrder parents l.rows } ::
      belowLevels ((childrenInOrder parents l.rows).map Row.id) ls

theorem descendLoop_below (e : String) (ids last : List Int) (below : List (Level α))
    (hn : ∀ l ∈ below, l.evar ≠ e) (hp : ∀ l ∈ below, l.pvar ≠ none)
    (he : ∀ l ∈ below, l.rows ≠ []) :
    descendLoop e ids ⟨true, last⟩ below = .ok (belowLevels last below) := by
  induction below generalizing last with
  | nil => rfl
  | cons a l ih =>
    have ha : a.evar ≠ e := hn a (by simp)
    have hpa := hp a (by simp)
    have hea := he a (by simp)
    have ih := fun last => ih last (fun m hm => hn m (by simp [hm])) (fun m hm => hp m (by simp [hm]))
      (fun m hm => he m (by simp [hm]))
    simp only [descendLoop, descendStep, ha, if_false, if_true, parentGroups_ok hpa hea,
      bind, Except.bind, pure, Except.pure, take_chain_pids, ih, Level.ids, belowLevels]

theorem descendLoop_below_error (e : String) (ids last : List Int) (below : List (Level α))
    (hn : ∀ l ∈ below, l.evar ≠ e) (hp : ∀ l ∈ below, l.pvar ≠ none)
    (he : ∃ l ∈ below, l.rows = []) :
    descendLoop e ids ⟨true, last⟩ below = .error .attributeError := by
  induction below generalizing last with
  | nil => simp at he
  | cons a l ih =>
    have ha : a.evar ≠ e := hn a (by simp)
    have hpa := hp a (by simp)
    by_cases hea : a.rows = []
    · simp only [descendLoop, descendStep, if_true, parentGroups_empty hea,
      bind, Except.bind]
    · have ih := fun last => ih last (fun m hm => hn m (by simp [hm]))
        (fun m hm => hp m (by simp [hm]))
        (by obtain ⟨m, hm, hm2⟩ := he
            rcases List.mem_cons.mp hm with h | h
            · subst h; exact absurd hm2 hea
            · exact ⟨m, h, hm2⟩)
      simp only [descendLoop, descendStep, ha, if_false, if_true, parentGroups_ok hpa hea,
        bind, Except.bind, pure, Except.pure, ih]

/-! ### ascending -/

theorem ascendLoop_skip (e : String) (x : List Int) (below : List (Level α × Level α))
    (rest : List (Level α × Level α))
    (h : ∀ l ∈ below, l.2.evar ≠ e) :
    ∃ y, ascendLoop e ⟨false, x⟩ (below ++ rest) =
      (do let r ← ascendLoop e ⟨false, y⟩ rest; pure (below.map Prod.snd ++ r)) := by
  induction below generalizing x with
  | nil =>
    refine ⟨x, ?_⟩
    simp only [List.nil_append, List.map_nil]
    cases ascendLoop e ⟨false, x⟩ rest <;> rfl
  | cons a l ih =>
    obtain ⟨o, c⟩ := a
    have ha : c.evar ≠ e := h (o, c) (by simp)
    have ih := fun x => ih x (fun m hm => h m (by simp [hm]))
    by_cases hp : c.pvar = none
    · obtain ⟨y, hy⟩ := ih x
      refine ⟨y, ?_⟩
      simp only [List.cons_append, ascendLoop, ascendStep, Bool.false_eq_true, if_false, ha, hp,
        bind, Except.bind, pure, Except.pure, false_and, ne_eq, not_true_eq_false] at hy ⊢
      rw [hy]
      cases ascendLoop e ⟨false, y⟩ rest <;> rfl
    · obtain ⟨y, hy⟩ := ih (npUnique c.pids)
      refine ⟨y, ?_⟩
      simp only [List.cons_append, ascendLoop, ascendStep, Bool.false_eq_true, if_false, ha, hp,
        bind, Except.bind, pure, Except.pure, false_and, ne_eq, not_false_eq_true, if_true] at hy ⊢
      rw [hy]
      cases ascendLoop e ⟨false, y⟩ rest <;> rfl

/-- The levels above after indexing, nearest first. -/
def aboveLevels (pids : List Int) : List (Level α) → List (Level α)
  | [] => []
  | l :: ls =>
    { l with rows := rowsInOrder (npUnique pids) l.rows } ::
      aboveLevels ((rowsInOrder (npUnique pids) l.rows).map Row.pid) ls

theorem ascendLoop_above (e : String) (pids : List Int) (above : List (Level α)) (top : Level α)
    (hn : ∀ l ∈ above, l.evar ≠ e) (hp : ∀ l ∈ above, l.pvar ≠ none)
    (he : ∀ l ∈ above, l.rows ≠ []) (het : top.rows ≠ []) :
    ascendLoop e ⟨true, npUnique pids⟩ ((above ++ [top]).map fun l => (l, l)) =
      .ok (aboveLevels pids (above ++ [top])) := by
  induction above generalizing pids with
  | nil =>
    simp only [List.nil_append, List.map_cons, List.map_nil, ascendLoop, ascendStep, if_true,
      entityGroups_ok het, bind, Except.bind, pure, Except.pure, take_chain_ids, aboveLevels]
  | cons a l ih =>
    have ha : a.evar ≠ e := hn a (by simp)
    have hpa := hp a (by simp)
    have hea := he a (by simp)
    have ih := fun p => ih p (fun m hm => hn m (by simp [hm])) (fun m hm => hp m (by simp [hm]))
      (fun m hm => he m (by simp [hm]))
    simp only [List.cons_append, List.map_cons, ascendLoop, ascendStep, if_true,
      entityGroups_ok hea, bind, Except.bind, pure, Except.pure, take_chain_ids, aboveLevels,
      ha, false_and, if_false, ne_eq, hpa, not_false_eq_true, Level.pids, ih]

theorem ascendLoop_above_error (e : String) (pids : List Int) (above : List (Level α))
    (hn : ∀ l ∈ above, l.evar ≠ e) (hp : ∀ l ∈ above.dropLast, l.pvar ≠ none)
    (he : ∃ l ∈ above, l.rows = []) :
    ascendLoop e ⟨true, pids⟩ (above.map fun l => (l, l)) = .error .attributeError := by
  induction above generalizing pids with
  | nil => simp at he
  | cons a l ih =>
    have ha : a.evar ≠ e := hn a (by simp)
    by_cases hea : a.rows = []
    · simp only [List.map_cons, ascendLoop, ascendStep, if_true, entityGroups_empty hea,
        bind, Except.bind]
    · cases l with
      | nil =>
        simp only [List.mem_singleton] at he
        obtain ⟨m, rfl, hm⟩ := he
        exact absurd hm hea
      | cons b l' =>
        have hpa : a.pvar ≠ none := hp a (by simp)
        have ih := fun p => ih p (fun m hm => hn m (by simp [hm]))
          (fun m hm => hp m (by rw [List.dropLast_cons_of_ne_nil (by simp)]; simp [hm]))
          (by obtain ⟨m, hm, hm2⟩ := he
              rcases List.mem_cons.mp hm with h | h
              · subst h; exact absurd hm2 hea
              · exact ⟨m, h, hm2⟩)
        simp only [List.map_cons] at ih ⊢
        rw [ascendLoop]
        simp only [ascendStep, if_true,
          entityGroups_ok hea, bind, Except.bind, pure, Except.pure,
          ha, false_and, if_false, ne_eq, hpa, not_false_eq_true]
        rw [ih]

/-! ### putting both loops together -/

/-- How a well-formed hierarchy looks around one of its levels. -/
theorem wf_split {t above below : List (Level α)} {L : Level α} (wf : WellFormed t)
    (ht : t = above ++ L :: below) :
    (∀ l ∈ above, l.evar ≠ L.evar) ∧ (∀ l ∈ below, l.evar ≠ L.evar) ∧
    (∀ l ∈ below, l.pvar ≠ none) ∧
    (above = [] → L.pvar = none) ∧ (above ≠ [] → L.pvar ≠ none) ∧
    (∀ top mids, above = top :: mids → top.pvar = none ∧ ∀ l ∈ mids, l.pvar ≠ none) := by
  subst ht
  have hev := wf.evars
  simp only [List.map_append, List.map_cons, List.nodup_append, List.nodup_cons,
    List.mem_cons, List.mem_map] at hev
  obtain ⟨_, ⟨h2, _⟩, h4⟩ := hev
  have hrest := wf.rest
  have htop := wf.top
  refine ⟨?_, ?_, ?_, ?_, ?_, ?_⟩
  · intro l hl heq
    exact h4 l.evar ⟨l, hl, rfl⟩ L.evar (Or.inl rfl) heq
  · intro l hl heq
    exact h2 ⟨l, hl, heq⟩
  · intro l hl
    apply hrest
    cases above <;> simp [hl]
  · rintro rfl
    apply htop; simp
  · intro h
    apply hrest
    cases above with
    | nil => exact absurd rfl h
    | cons a b => simp
  · rintro top mids rfl
    refine ⟨htop top (by simp), fun l hl => hrest l (by simp [hl])⟩

theorem belowLevels_length (ids : List Int) (below : List (Level α)) :
    (belowLevels ids below).length = below.length := by
  induction below generalizing ids with
  | nil => rfl
  | cons a l ih => simp [belowLevels, ih]

theorem zip_belowLevels_evar (ids : List Int) (below : List (Level α)) :
    ∀ p ∈ below.zip (belowLevels ids below), p.2.evar = p.1.evar := by
  induction below generalizing ids with
  | nil => simp [belowLevels]
  | cons a l ih =>
    intro p hp
    simp only [belowLevels, List.zip_cons_cons, List.mem_cons] at hp
    rcases hp with rfl | hp
    · rfl
    · exact ih _ p hp

theorem zip_self_map (l : List (Level α)) : l.zip l = l.map fun x => (x, x) := by
  induction l with
  | nil => rfl
  | cons a l ih => simp [ih]

/-- Result of `reduce_to_entities` when no level is empty. -/
def reduced (above : List (Level α)) (L : Level α) (below : List (Level α)) (ids : List Int) :
    List (Level α) :=
  (aboveLevels ((rowsInOrder ids L.rows).map Row.pid) above.reverse).reverse ++
    entityLevel L ids :: belowLevels ids below

theorem descendLoop_eq {above below : List (Level α)} {L : Level α} (ids : List Int)
    (ha : ∀ l ∈ above, l.evar ≠ L.evar) (hb : ∀ l ∈ below, l.evar ≠ L.evar)
    (hp : ∀ l ∈ below, l.pvar ≠ none)
    (hL : L.rows ≠ []) (he : ∀ l ∈ below, l.rows ≠ []) :
    descendLoop L.evar ids ⟨false, []⟩ (above ++ L :: below) =
      .ok (above ++ entityLevel L ids :: belowLevels ids below) := by
  rw [descendLoop_skip _ _ _ _ _ ha]
  simp only [descendLoop, descendStep, Bool.false_eq_true, if_false, if_true, entityGroups_ok hL,
    bind, Except.bind, pure, Except.pure, take_chain_ids,
    descendLoop_below _ _ _ _ hb hp he, entityLevel]

theorem reduce_closed {t above below : List (Level α)} {L : Level α} (ids : List Int)
    (wf : WellFormed t) (ht : t = above ++ L :: below) (hne : NoEmptyLevel t) :
    reduceToEntities t L.evar ids = .ok (reduced above L below ids) := by
  obtain ⟨h1, h2, h3, h4, h5, h6⟩ := wf_split wf ht
  subst ht
  have hL : L.rows ≠ [] := hne L (by simp)
  have hb : ∀ l ∈ below, l.rows ≠ [] := fun l hl => hne l (by simp [hl])
  have ha : ∀ l ∈ above, l.rows ≠ [] := fun l hl => hne l (by simp [hl])
  unfold reduceToEntities
  rw [descendLoop_eq ids h1 h2 h3 hL hb]
  simp only [bind, Except.bind, pure, Except.pure]
  have hz : ((above ++ L :: below).zip (above ++ entityLevel L ids :: belowLevels ids below)).reverse
      = (below.zip (belowLevels ids below)).reverse ++
        (L, entityLevel L ids) :: (above.reverse.map fun x => (x, x)) := by
    rw [List.zip_append rfl, zip_self_map]
    simp [List.zip_cons_cons, List.map_reverse]
  rw [hz]
  obtain ⟨y, hy⟩ := ascendLoop_skip L.evar [] (below.zip (belowLevels ids below)).reverse
    ((L, entityLevel L ids) :: (above.reverse.map fun x => (x, x))) (by
      intro p hp
      have hp' := List.mem_reverse.mp hp
      rw [zip_belowLevels_evar ids below p hp']
      exact h2 p.1 (List.of_mem_zip hp').1)
  rw [hy]
  have hsnd : List.map Prod.snd (below.zip (belowLevels ids below)) = belowLevels ids below := by
    apply List.map_snd_zip
    rw [belowLevels_length]
  cases above with
  | nil =>
    have hLp := h4 rfl
    simp [ascendLoop, ascendStep, bind, Except.bind, pure, Except.pure, entityLevel, hLp,
      reduced, aboveLevels, hsnd]
  | cons top mids =>
    have hLp := h5 (by simp)
    obtain ⟨h6a, h6b⟩ := h6 top mids rfl
    have := ascendLoop_above L.evar ((rowsInOrder ids L.rows).map Row.pid) mids.reverse top
      (fun l hl => h1 l (by simp at hl; simp [hl])) (fun l hl => h6b l (by simpa using hl))
      (fun l hl => ha l (by simp at hl; simp [hl])) (ha top (by simp))
    simp only [ascendLoop, ascendStep, bind, Except.bind, pure, Except.pure, entityLevel,
      reduced, Bool.false_eq_true, if_false, ne_eq, hLp, not_false_eq_true, if_true, and_self,
      List.reverse_cons, Level.pids] at this ⊢
    rw [this]
    simp [hsnd]

/-- `reduce_to_entities` fails with AttributeError as soon as any level is empty. -/
theorem reduce_error {t above below : List (Level α)} {L : Level α} (ids : List Int)
    (wf : WellFormed t) (ht : t = above ++ L :: below) (he : ∃ l ∈ t, l.rows = []) :
    reduceToEntities t L.evar ids = .error .attributeError := by
  obtain ⟨h1, h2, h3, h4, h5, h6⟩ := wf_split wf ht
  subst ht
  unfold reduceToEntities
  by_cases hL : L.rows = []
  · rw [descendLoop_skip _ _ _ _ _ h1]
    simp only [descendLoop, descendStep, Bool.false_eq_true, if_false, if_true,
      entityGroups_empty hL, bind, Except.bind, pure, Except.pure]
  by_cases hb : ∃ l ∈ below, l.rows = []
  · rw [descendLoop_skip _ _ _ _ _ h1]
    simp only [descendLoop, descendStep, Bool.false_eq_true, if_false, if_true,
      entityGroups_ok hL, bind, Except.bind, pure, Except.pure,
      descendLoop_below_error _ _ _ _ h2 h3 hb]
  have hb' : ∀ l ∈ below, l.rows ≠ [] := fun l hl h => hb ⟨l, hl, h⟩
  have ha : ∃ l ∈ above, l.rows = [] := by
    obtain ⟨l, hl, hl2⟩ := he
    rcases List.mem_append.mp hl with h | h
    · exact ⟨l, h, hl2⟩
    · rcases List.mem_cons.mp h with h | h
      · subst h; exact absurd hl2 hL
      · exact absurd hl2 (hb' l h)
  rw [descendLoop_eq ids h1 h2 h3 hL hb']
  simp only [bind, Except.bind, pure, Except.pure]
  have hz : ((above ++ L :: below).zip (above ++ entityLevel L ids :: belowLevels ids below)).reverse
      = (below.zip (belowLevels ids below)).reverse ++
        (L, entityLevel L ids) :: (above.reverse.map fun x => (x, x)) := by
    rw [List.zip_append rfl, zip_self_map]
    simp [List.zip_cons_cons, List.map_reverse]
  rw [hz]
  obtain ⟨y, hy⟩ := ascendLoop_skip L.evar [] (below.zip (belowLevels ids below)).reverse
    ((L, entityLevel L ids) :: (above.reverse.map fun x => (x, x))) (by
      intro p hp
      have hp' := List.mem_reverse.mp hp
      rw [zip_belowLevels_evar ids below p hp']
      exact h2 p.1 (List.of_mem_zip hp').1)
  rw [hy]
  cases above with
  | nil => simp at ha
  | cons top mids =>
    have hLp := h5 (by simp)
    obtain ⟨h6a, h6b⟩ := h6 top mids rfl
    have := ascendLoop_above_error L.evar (npUnique ((rowsInOrder ids L.rows).map Row.pid))
      (top :: mids).reverse
      (fun l hl => h1 l (List.mem_reverse.mp hl))
      (fun l hl => h6b l (by simpa [List.reverse_cons] using hl))
      (by obtain ⟨l, hl, h⟩ := ha; exact ⟨l, List.mem_reverse.mpr hl, h⟩)
    simp only [ascendLoop, ascendStep, bind, Except.bind, pure, Except.pure, entityLevel,
      Bool.false_eq_true, if_false, ne_eq, hLp, not_false_eq_true, if_true, and_self,
      Level.pids] at this ⊢
    rw [this]

/-- An entity variable that is not part of the hierarchy leaves the dataset as it is. -/
theorem reduce_unknown (t : List (Level α)) (e : String) (ids : List Int)
    (h : ∀ l ∈ t, l.evar ≠ e) : reduceToEntities t e ids = .ok t := by
  unfold reduceToEntities
  have h1 := descendLoop_skip e ids [] t [] h
  simp only [List.append_nil, descendLoop, bind, Except.bind, pure, Except.pure] at h1
  rw [h1]
  simp only [bind, Except.bind, pure, Except.pure]
  obtain ⟨y, hy⟩ := ascendLoop_skip e [] (t.zip t).reverse [] (by
    intro p hp
    have := List.of_mem_zip (List.mem_reverse.mp hp)
    exact h p.2 this.2)
  simp only [List.append_nil, ascendLoop, bind, Except.bind, pure, Except.pure] at hy
  rw [hy]
  simp [zip_self_map, Function.comp_def]

/-! ### counting -/

theorem countLine_eq (l : Level α) (last : List Int) :
    countLine (groups l.pids) last = last.map (childCount l.rows) := by
  unfold countLine
  apply List.map_congr_left
  intro i _
  rw [dictGet_groups]
  have hc : (positions l.pids i).length = childCount l.rows i := by
    rw [positions_length]
    unfold childCount Level.pids
    rw [count_map_eq, List.countP_eq_length_filter]
  by_cases h : i ∈ l.pids
  · simp [h, hc]
  · simp only [h, if_false]
    rw [← hc, positions_eq_nil h]; rfl

/-- Counts of the rows of each level by the ids of the level above it. -/
def countsDown (parentIds : List Int) : List (Level α) → List (List Nat)
  | [] => []
  | l :: ls => parentIds.map (childCount l.rows) :: countsDown l.ids ls

/-- Ids of the last level, or `x` if there is none. -/
def lastIds (x : List Int) : List (Level α) → List Int
  | [] => x
  | l :: ls => lastIds l.ids ls

theorem countFold_skip (e : String) (c : Option String) (x : List Int) (cs : List (List Nat))
    (ls : List (Level α)) (h : ∀ l ∈ ls, l.evar ≠ e) :
    ls.foldlM (countStep e c) ⟨false, x, cs⟩ = .ok ⟨false, x, cs⟩ := by
  induction ls with
  | nil => rfl
  | cons a l ih =>
    have ha : a.evar ≠ e := h a (by simp)
    have ih := ih (fun m hm => h m (by simp [hm]))
    simp only [List.foldlM_cons, countStep, Bool.false_eq_true, if_false, ha, bind, Except.bind,
      pure, Except.pure, ite_self]
    exact ih

theorem countFold_on (e : String) (c : Option String) (x : List Int) (cs : List (List Nat))
    (ls : List (Level α)) (h : ∀ l ∈ ls, l.evar ≠ e) (hc : c ≠ none)
    (h' : ∀ l ∈ ls, c ≠ some l.evar)
    (hp : ∀ l ∈ ls, l.pvar ≠ none) (he : ∀ l ∈ ls, l.rows ≠ []) :
    ls.foldlM (countStep e c) ⟨true, x, cs⟩ =
      .ok ⟨true, lastIds x ls, cs ++ countsDown x ls⟩ := by
  induction ls generalizing x cs with
  | nil => simp [countsDown, pure, Except.pure, lastIds]
  | cons a l ih =>
    have ha : a.evar ≠ e := h a (by simp)
    have ha' := h' a (by simp)
    have hpa := hp a (by simp)
    have hea := he a (by simp)
    have ih := fun x cs => ih x cs (fun m hm => h m (by simp [hm]))
      (fun m hm => h' m (by simp [hm]))
      (fun m hm => hp m (by simp [hm])) (fun m hm => he m (by simp [hm]))
    simp only [List.foldlM_cons, countStep, if_true, parentGroups_ok hpa hea, countLine_eq,
      bind, Except.bind, pure, Except.pure, ha, ha', hc, or_self, if_false, ih]
    simp only [countsDown, List.append_assoc, List.singleton_append, lastIds]

theorem countStep_last (e : String) (c : Option String) (x : List Int) (cs : List (List Nat))
    (C : Level α) (h : C.evar ≠ e) (hc : c = none ∨ c = some C.evar)
    (hp : C.pvar ≠ none) (he : C.rows ≠ []) :
    countStep e c ⟨true, x, cs⟩ C = .ok ⟨false, C.ids, cs ++ [x.map (childCount C.rows)]⟩ := by
  simp only [countStep, if_true, parentGroups_ok hp he, countLine_eq,
      bind, Except.bind, pure, Except.pure, h, hc, if_false]

/-- `count_children` down to a level below the entity. -/
theorem countChildren_closed {t above mids rest : List (Level α)} {L C : Level α}
    (wf : WellFormed t) (ht : t = above ++ L :: (mids ++ C :: rest))
    (he : ∀ l ∈ mids, l.rows ≠ []) (heC : C.rows ≠ []) :
    countChildren t L.evar (some C.evar) = .ok (countsDown L.ids (mids ++ [C])) := by
  obtain ⟨h1, h2, h3, -, -, -⟩ := wf_split wf ht
  have h1' := (wf_split (L := C) (above := above ++ L :: mids) (below := rest) wf
    (by rw [ht]; simp)).1
  subst ht
  unfold countChildren
  rw [List.foldlM_append, countFold_skip _ _ _ _ _ h1]
  simp only [bind, Except.bind, pure, Except.pure, List.foldlM_cons]
  have hstep : countStep L.evar (some C.evar) ⟨false, [], []⟩ L = .ok ⟨true, L.ids, []⟩ := by
    simp [countStep, bind, Except.bind, pure, Except.pure]
  rw [hstep]
  simp only []
  rw [List.foldlM_append, countFold_on _ _ _ _ _ (fun l hl => h2 l (by simp [hl])) (by simp)
    (fun l hl heq => h1' l (by simp [hl]) (by injection heq with h; exact h.symm))
    (fun l hl => h3 l (by simp [hl])) he]
  simp only [bind, Except.bind, List.foldlM_cons]
  rw [countStep_last _ _ _ _ _ (h2 C (by simp)) (Or.inr rfl) (h3 C (by simp)) heC]
  simp only []
  rw [countFold_skip _ _ _ _ _ (fun l hl => h2 l (by simp [hl]))]
  simp only [List.nil_append]
  congr 1
  clear hstep h1 h2 h3 h1' wf he
  generalize L.ids = x
  induction mids generalizing x with
  | nil => simp [countsDown, lastIds]
  | cons a l ih =>
    have := ih a.ids
    simp only [countsDown, List.cons_append, lastIds] at this ⊢
    rw [← this]

/-- `count_children` with the child level left out. -/
theorem countChildren_none_closed {t above rest : List (Level α)} {L C : Level α}
    (wf : WellFormed t) (ht : t = above ++ L :: C :: rest) (heC : C.rows ≠ []) :
    countChildren t L.evar none = .ok [L.ids.map (childCount C.rows)] := by
  obtain ⟨h1, h2, h3, -, -, -⟩ := wf_split wf ht
  subst ht
  unfold countChildren
  rw [List.foldlM_append, countFold_skip _ _ _ _ _ h1]
  simp only [bind, Except.bind, pure, Except.pure, List.foldlM_cons]
  have hstep : countStep L.evar none ⟨false, [], []⟩ L = .ok ⟨true, L.ids, []⟩ := by
    simp [countStep, bind, Except.bind, pure, Except.pure]
  rw [hstep]
  simp only []
  rw [countStep_last _ _ _ _ _ (h2 C (by simp)) (Or.inl rfl) (h3 C (by simp)) heC]
  simp only []
  rw [countFold_skip _ _ _ _ _ (fun l hl => h2 l (by simp [hl]))]
  simp

/-- `count_children` with a child level that is not below the entity counts to the bottom. -/
theorem countChildren_other_closed {t above below : List (Level α)} {L : Level α} {c : String}
    (wf : WellFormed t) (ht : t = above ++ L :: below)
    (hc : ∀ l ∈ below, l.evar ≠ c) (he : ∀ l ∈ below, l.rows ≠ []) :
    countChildren t L.evar (some c) = .ok (countsDown L.ids below) := by
  obtain ⟨h1, h2, h3, -, -, -⟩ := wf_split wf ht
  subst ht
  unfold countChildren
  rw [List.foldlM_append, countFold_skip _ _ _ _ _ h1]
  simp only [bind, Except.bind, pure, Except.pure, List.foldlM_cons]
  have hstep : countStep L.evar (some c) ⟨false, [], []⟩ L = .ok ⟨true, L.ids, []⟩ := by
    by_cases h : c = L.evar <;> simp [countStep, bind, Except.bind, pure, Except.pure, h]
  rw [hstep]
  simp only []
  rw [countFold_on _ _ _ _ _ h2 (by simp)
    (fun l hl heq => hc l hl (by injection heq with h; exact h.symm)) h3 he]
  simp

theorem countsDown_zipWith (L : Level α) (ls : List (Level α)) :
    countsDown L.ids ls = List.zipWith
      (fun p c => p.rows.map fun q => childCount c.rows q.id) (L :: ls) ls := by
  induction ls generalizing L with
  | nil => rfl
  | cons a l ih =>
    rw [countsDown, List.zipWith_cons_cons, ih a]
    simp only [Level.ids, List.map_map, Function.comp_def]

/-! ### replicating parent ids -/

theorem positions_length_of_unique {l : Level α} (hu : UniqueIds l.rows) {i : Int}
    (hi : i ∈ l.ids) : (positions l.ids i).length = 1 := by
  rw [positions_length]
  exact List.count_eq_one_of_mem hu hi

theorem lookupAll_ok {l : Level α} {ids : List Int} (h : ∀ i ∈ ids, i ∈ l.ids) :
    lookupAll l ids = .ok (ids.map (positions l.ids)) := by
  cases ids with
  | nil => rfl
  | cons a as =>
    have hne : l.rows ≠ [] := by
      intro h0
      have := h a (by simp)
      simp [Level.ids, h0] at this
    unfold lookupAll
    rw [entityGroups_ok hne]
    simp only [bind, Except.bind]
    generalize a :: as = xs at h ⊢
    induction xs with
    | nil => rfl
    | cons b bs ih =>
      have hb := h b (by simp)
      have ih := ih (fun i hi => h i (by simp [hi]))
      rw [List.mapM_cons, dictGet_groups]
      simp only [hb, if_true, bind, Except.bind, pure, Except.pure] at ih ⊢
      rw [ih]; rfl

theorem lookupAll_keyError {l : Level α} {ids : List Int} (hne : l.rows ≠ [])
    (h : ∃ i ∈ ids, i ∉ l.ids) : lookupAll l ids = .error .keyError := by
  cases ids with
  | nil => simp at h
  | cons a as =>
    unfold lookupAll
    rw [entityGroups_ok hne]
    simp only [bind, Except.bind]
    generalize a :: as = xs at h ⊢
    induction xs with
    | nil => simp at h
    | cons b bs ih =>
      rw [List.mapM_cons, dictGet_groups]
      by_cases hb : b ∈ l.ids
      · have ih := ih (by
          obtain ⟨i, hi, hi2⟩ := h
          rcases List.mem_cons.mp hi with h | h
          · subst h; exact absurd hb hi2
          · exact ⟨i, h, hi2⟩)
        simp only [hb, if_true, bind, Except.bind, pure, Except.pure] at ih ⊢
        rw [ih]
      · simp only [hb, if_false, bind, Except.bind]

theorem flattenIdx_ok {e : List (List Nat)} (h : ∀ x ∈ e, x.length = 1) :
    flattenIdx e = .ok e.flatten := by
  cases e with
  | nil => rfl
  | cons x xs =>
    have hx := h x (by simp)
    unfold flattenIdx
    simp only []
    rw [if_pos]
    rw [List.all_eq_true]
    intro y hy
    have := h y (by simp [hy])
    simp [hx, this]

theorem filter_unique_spec {rows : List (Row α)} (hu : UniqueIds rows) {i : Int}
    (hi : i ∈ rows.map Row.id) : ∃ r ∈ rows, r.id = i ∧ rows.filter (fun r => r.id = i) = [r] := by
  have h1 : (rows.filter (fun r => r.id = i)).length = 1 := by
    rw [← count_map_eq rows Row.id i]
    exact List.count_eq_one_of_mem hu hi
  obtain ⟨r, hr⟩ := List.length_eq_one_iff.mp h1
  have : r ∈ rows.filter (fun r => r.id = i) := by rw [hr]; simp
  simp only [List.mem_filter, decide_eq_true_eq] at this
  exact ⟨r, this.1, this.2, hr⟩

/-- With unique ids and all ids present, selecting rows by id gives one row per id. -/
theorem rowsInOrder_forall₂ {rows : List (Row α)} (hu : UniqueIds rows) {ids : List Int}
    (h : ∀ i ∈ ids, i ∈ rows.map Row.id) :
    List.Forall₂ (fun i r => r ∈ rows ∧ r.id = i) ids (rowsInOrder ids rows) := by
  induction ids with
  | nil => simp [rowsInOrder]
  | cons a as ih =>
    obtain ⟨r, hr, hr2, hr3⟩ := filter_unique_spec hu (h a (by simp))
    have ih := ih (fun i hi => h i (by simp [hi]))
    simp only [rowsInOrder, List.flatMap_cons, hr3, List.singleton_append] at ih ⊢
    exact List.Forall₂.cons ⟨hr, hr2⟩ ih

/-- Ids unique and all links resolvable, from `ids` upwards through `ups`, nearest first. -/
def Linked (ids : List Int) : List (Level α) → Prop
  | [] => True
  | u :: us => (∀ i ∈ ids, i ∈ u.ids) ∧ UniqueIds u.rows ∧ u.pvar ≠ none ∧ Linked u.pids us

theorem Linked.mono {ids ids' : List Int} {ups : List (Level α)} (h : Linked ids ups)
    (hs : ∀ i ∈ ids', i ∈ ids) : Linked ids' ups := by
  cases ups with
  | nil => trivial
  | cons u us => exact ⟨fun i hi => h.1 i (hs i hi), h.2.1, h.2.2.1, h.2.2.2⟩

theorem replFold_on (e p : String) (ids : List Int) (ups : List (Level α))
    (hn : ∀ l ∈ ups, l.evar ≠ e) (hp : ∀ l ∈ ups, l.pvar ≠ some p) (hl : Linked ids ups) :
    ∃ ids', ups.foldlM (replStep e p) ⟨true, some ids⟩ = .ok ⟨true, some ids'⟩ ∧
      List.Forall₂ (LeadsTo (ups.map Level.rows)) ids ids' := by
  induction ups generalizing ids with
  | nil =>
    refine ⟨ids, rfl, ?_⟩
    rw [List.forall₂_same]
    intro x _; rfl
  | cons u us ih =>
    obtain ⟨hl1, hl2, hl3, hl4⟩ := hl
    have hidx : take u.rows (ids.map (positions u.ids)).flatten = rowsInOrder ids u.rows := by
      rw [take_flatten]
      unfold rowsInOrder
      rw [List.flatMap_def, List.map_map]
      congr 1
      apply List.map_congr_left
      intro i _
      exact take_positions u.rows Row.id i
    obtain ⟨ids', h1, h2⟩ := ih ((rowsInOrder ids u.rows).map Row.pid)
      (fun m hm => hn m (by simp [hm])) (fun m hm => hp m (by simp [hm])) (hl4.mono (by
        intro i hi
        simp only [rowsInOrder, List.mem_map, List.mem_flatMap, List.mem_filter] at hi
        obtain ⟨r, ⟨_, _, hr, _⟩, rfl⟩ := hi
        exact List.mem_map.mpr ⟨r, hr, rfl⟩))
    refine ⟨ids', ?_, ?_⟩
    · have hu := hn u (by simp)
      have hpu := hp u (by simp)
      rw [List.foldlM_cons]
      obtain ⟨pv, hpv⟩ := Option.ne_none_iff_exists'.mp hl3
      have hstep : replStep e p ⟨true, some ids⟩ u =
          .ok ⟨true, some ((rowsInOrder ids u.rows).map Row.pid)⟩ := by
        unfold replStep
        simp only [hu, if_false, if_true, Option.getD_some, lookupAll_ok hl1, bind, Except.bind,
          pure, Except.pure]
        rw [flattenIdx_ok (by
          intro x hx
          obtain ⟨i, hi, rfl⟩ := List.mem_map.mp hx
          exact positions_length_of_unique hl2 (hl1 i hi))]
        simp only [hidx, hpv]
        rw [hpv] at hpu
        simp only [hpu, if_false]
      rw [hstep]
      exact h1
    · have h3 := rowsInOrder_forall₂ hl2 hl1
      have h4 := List.forall₂_map_left_iff.mp h2
      clear h1 h2 hidx
      generalize rowsInOrder ids u.rows = rs at h3 h4
      clear ih hl1
      induction h3 generalizing ids' with
      | nil => cases h4; exact List.Forall₂.nil
      | cons hab _ ih =>
        cases h4 with
        | cons h5 h6 =>
          refine List.Forall₂.cons ⟨_, hab.1, hab.2, h5⟩ (ih _ h6)

theorem replFold_skip (e p : String) (o : Option (List Int)) (ls : List (Level α))
    (hp : ∀ l ∈ ls, l.pvar ≠ some p) :
    ls.foldlM (replStep e p) ⟨false, o⟩ = .ok ⟨false, o⟩ := by
  induction ls with
  | nil => rfl
  | cons a l ih =>
    have ha := hp a (by simp)
    have ih := ih (fun m hm => hp m (by simp [hm]))
    rw [List.foldlM_cons]
    have : replStep e p ⟨false, o⟩ a = .ok ⟨false, o⟩ := by
      simp only [replStep, ite_self, Bool.false_eq_true, if_false, bind, Except.bind, pure,
        Except.pure, ha]
    rw [this]
    exact ih

theorem wf_pvars {t : List (Level α)} (wf : WellFormed t) {above rest : List (Level α)}
    {C : Level α} {p : String} (ht : t = above ++ C :: rest) (hC : C.pvar = some p) :
    (∀ l ∈ above, l.pvar ≠ some p) ∧ (∀ l ∈ rest, l.pvar ≠ some p) := by
  subst ht
  have hpv := wf.pvars
  have htop := wf.top
  cases above with
  | nil =>
    have := htop C (by simp)
    rw [hC] at this; simp at this
  | cons top mids =>
    simp only [List.cons_append, List.tail_cons, List.map_append, List.map_cons,
      List.nodup_append, List.nodup_cons, List.mem_cons, List.mem_map] at hpv
    obtain ⟨_, ⟨h2, _⟩, h4⟩ := hpv
    constructor
    · intro l hl heq
      rcases List.mem_cons.mp hl with rfl | hl
      · have := htop l (by simp)
        rw [heq] at this; simp at this
      · exact h4 _ ⟨l, hl, rfl⟩ _ (Or.inl rfl) (heq.trans hC.symm)
    · intro l hl heq
      exact h2 ⟨l, hl, heq.trans hC.symm⟩

/-- `replicate_parent_ids` from the level of `C` up to the level of `E`. -/
theorem replicate_closed {t above mids rest : List (Level α)} {E C : Level α} {p : String}
    (wf : WellFormed t) (ht : t = above ++ E :: (mids ++ C :: rest)) (hC : C.pvar = some p)
    (hl : Linked C.pids mids.reverse) :
    ∃ ids, replicateParentIds t E.evar p = .ok ids ∧
      List.Forall₂ (fun (r : Row α) a => LeadsTo (mids.reverse.map Level.rows) r.pid a) C.rows ids := by
  obtain ⟨h1, h2, h3, -, -, -⟩ := wf_split wf ht
  obtain ⟨hp1, hp2⟩ := wf_pvars (above := above ++ E :: mids) (rest := rest) wf
    (by rw [ht]; simp) hC
  obtain ⟨ids', h5, h6⟩ := replFold_on E.evar p C.pids mids.reverse
    (fun l hl => h2 l (by simp at hl; simp [hl])) (fun l hl => hp1 l (by simp at hl; simp [hl])) hl
  refine ⟨ids', ?_, ?_⟩
  · subst ht
    unfold replicateParentIds
    have hrev : (above ++ E :: (mids ++ C :: rest)).reverse =
        rest.reverse ++ C :: (mids.reverse ++ E :: above.reverse) := by simp
    rw [hrev, List.foldlM_append, replFold_skip _ _ _ _ (fun l hl => hp2 l (by simpa using hl))]
    simp only [bind, Except.bind, List.foldlM_cons]
    have hstep : replStep E.evar p ⟨false, none⟩ C = .ok ⟨true, some C.pids⟩ := by
      simp only [replStep, ite_self, Bool.false_eq_true, if_false, bind, Except.bind, pure,
        Except.pure, hC, if_true]
    rw [hstep]
    simp only [List.foldlM_append, h5, bind, Except.bind, List.foldlM_cons]
    have hE := hp1 E (by simp)
    have hstep2 : replStep E.evar p ⟨true, some ids'⟩ E = .ok ⟨false, some ids'⟩ := by
      simp only [replStep, if_true, Bool.false_eq_true, if_false, bind, Except.bind, pure,
        Except.pure, hE]
    rw [hstep2]
    simp only []
    rw [replFold_skip _ _ _ _ (fun l hl => hp1 l (by simp at hl; simp [hl]))]
    rfl
  · exact List.forall₂_map_left_iff.mp h6

/-! ### checking -/

theorem checkPair_ok {p c : Level α} (hpv : c.pvar ≠ none) (hp : p.rows ≠ []) (hc : c.rows ≠ []) :
    checkPair p c = .ok
      (⟨p.evar, (npUnique p.ids).length, ((npUnique p.ids).filter (· ∉ c.pids)).length,
        (npUnique p.ids).filter (· ∉ c.pids)⟩,
       ⟨c.pvar.getD "", (npUnique c.pids).length, ((npUnique c.pids).filter (· ∉ p.ids)).length,
        (npUnique c.pids).filter (· ∉ p.ids)⟩) := by
  simp only [checkPair, entityGroups_ok hp, parentGroups_ok hpv hc, bind, Except.bind, pure,
    Except.pure, groups_keys]
  have h1 : (npUnique p.ids).filter
      (fun x => decide (x ∉ (npUnique p.ids).filter fun x => decide (x ∈ npUnique c.pids))) =
      (npUnique p.ids).filter (fun x => decide (x ∉ c.pids)) := by
    apply List.filter_congr
    intro x hx
    simp only [List.mem_filter, decide_eq_true_eq, mem_npUnique] at hx ⊢
    simp [hx]
  have h2 : (npUnique c.pids).filter
      (fun x => decide (x ∉ (npUnique p.ids).filter fun x => decide (x ∈ npUnique c.pids))) =
      (npUnique c.pids).filter (fun x => decide (x ∉ p.ids)) := by
    apply List.filter_congr
    intro x hx
    simp only [List.mem_filter, decide_eq_true_eq, mem_npUnique] at hx ⊢
    simp [hx]
  rw [h1, h2]

end Verif.Proofs
