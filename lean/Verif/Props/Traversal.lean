import Verif.Proofs.Consistency
import Verif.Props.Samples
import Mathlib.Data.Finset.Card

/-!
# C01 - C09: `OneToManyTraversal`

`t` is the dataset, top level first.  An entity level `L` is named by splitting
`t = above ++ L :: below`.
-/

namespace Verif.Props

open Verif.Py Verif.Model Verif.Spec Verif.Proofs Verif.Samples

variable {α : Type}

/-! ## C01 -/

/-- The constructor raises ValueError exactly when the number of parent variables is not one less
than the number of entity variables, and nothing else can go wrong: the tables (which may be
empty) are arbitrary. -/
theorem C01_ctor_checks (tables : String → List (Row α)) (es ps : List String) :
    (mkTraversal tables es ps = .error .valueError ↔ ps.length + 1 ≠ es.length) ∧
    (ps.length + 1 = es.length → ∃ t, mkTraversal tables es ps = .ok t ∧
      t.map Level.evar = es ∧ t.map Level.pvar = none :: ps.map some ∧
      t.map Level.rows = es.map tables) := by
  unfold mkTraversal
  constructor
  · split
    · rename_i h
      simp only [true_iff]
      omega
    · rename_i h
      simp only [reduceCtorEq, false_iff, not_not]
      omega
  · intro h
    rw [if_neg (by omega)]
    have hl : (none :: ps.map some : List (Option String)).length = es.length := by simpa using h
    refine ⟨_, rfl, ?_, ?_, ?_⟩
    · simp only [List.map_map, Function.comp_def]
      exact List.map_fst_zip (by omega)
    · simp only [List.map_map, Function.comp_def]
      exact List.map_snd_zip (by omega)
    · simp only [List.map_map, Function.comp_def]
      have : es = ((es.zip (none :: ps.map some))).map Prod.fst :=
        (List.map_fst_zip (by omega)).symm
      conv_rhs => rw [this, List.map_map]
      rfl

/-- What the constructor returns is a well formed hierarchy as soon as names are distinct. -/
theorem C01_ctor_wellFormed (tables : String → List (Row α)) (es ps : List String)
    (t : List (Level α)) (h : mkTraversal tables es ps = .ok t) (he : es.Nodup) (hp : ps.Nodup) :
    WellFormed t := by
  have hl : ps.length + 1 = es.length := by
    by_contra hc
    rw [((C01_ctor_checks tables es ps).1).mpr hc] at h
    simp at h
  obtain ⟨t', h1, h2, h3, h4⟩ := (C01_ctor_checks tables es ps).2 hl
  rw [h] at h1
  cases h1
  cases t with
  | nil => simp at h3
  | cons a l =>
    simp only [List.map_cons, List.cons.injEq] at h3
    refine ⟨?_, ?_, ?_, ?_⟩
    · intro x hx
      simp only [List.head?_cons, Option.mem_some_iff] at hx
      rw [← hx]; exact h3.1
    · intro x hx hn
      have : x.pvar ∈ l.map Level.pvar := List.mem_map.mpr ⟨x, hx, rfl⟩
      rw [h3.2, hn] at this
      simp at this
    · rw [h2]; exact he
    · rw [List.tail_cons, h3.2]
      exact hp.map (fun _ _ h => Option.some.inj h)

/-- A three-level dataset with an empty middle level is accepted; a wrong number of parents is
not. -/
example : ∃ t, mkTraversal (fun n => if n = "g" then [] else [(⟨1, 1, ()⟩ : Row Unit)])
    ["f", "g", "e"] ["gp", "ep"] = .ok t ∧ t.map (fun l => l.rows.length) = [1, 0, 1] :=
  ⟨_, rfl, rfl⟩
example : mkTraversal (fun _ => ([] : List (Row Unit))) ["f", "g"] ["a", "b"] =
    .error .valueError := rfl

/-! ## C02 -/

/-- `count_children(L, C)` gives one array per level from the one just below `L` down to `C`.  The
array of level `c` under level `p` has, for every row of `p` in order, the number of rows of `c`
that refer to it. -/
theorem C02_count_children {t above mids rest : List (Level α)} {L C : Level α}
    (wf : WellFormed t) (ht : t = above ++ L :: (mids ++ C :: rest)) (hne : NoEmptyLevel t) :
    countChildren t L.evar (some C.evar) = .ok (List.zipWith
      (fun p c => p.rows.map fun q => c.rows.countP fun r => r.pid = q.id)
      (L :: mids) (mids ++ [C])) := by
  have h := countChildren_closed wf ht
    (fun l hl => hne l (by rw [ht]; simp [hl])) (hne C (by rw [ht]; simp))
  rw [h, countsDown_zipWith]
  congr 1
  clear h hne wf ht
  induction mids generalizing L with
  | nil => simp [childCount]
  | cons a l ih =>
    simp only [List.cons_append, List.zipWith_cons_cons, List.cons.injEq]
    exact ⟨rfl, ih⟩

/-- Without a child variable only the next level is counted. -/
theorem C02_count_children_default {t above rest : List (Level α)} {L C : Level α}
    (wf : WellFormed t) (ht : t = above ++ L :: C :: rest) (hne : NoEmptyLevel t) :
    countChildren t L.evar none =
      .ok [L.rows.map fun q => C.rows.countP fun r => r.pid = q.id] := by
  rw [countChildren_none_closed wf ht (hne C (by rw [ht]; simp))]
  simp [Level.ids, childCount, Function.comp_def]

/-- A child variable that is not the name of a lower level gives all levels to the bottom. -/
theorem C02_count_children_to_bottom {t above below : List (Level α)} {L : Level α} {c : String}
    (wf : WellFormed t) (ht : t = above ++ L :: below) (hne : NoEmptyLevel t)
    (hc : ∀ l ∈ below, l.evar ≠ c) :
    countChildren t L.evar (some c) = .ok (List.zipWith
      (fun p c => p.rows.map fun q => c.rows.countP fun r => r.pid = q.id) (L :: below) below) := by
  rw [countChildren_other_closed wf ht hc (fun l hl => hne l (by rw [ht]; simp [hl])),
    countsDown_zipWith]
  rfl

/-- Two levels down from the top of the sample, orphans included. -/
example : countChildren bad "flash_id" (some "event_id") =
    .ok [[3, 2, 0], [2, 1, 1, 1, 1, 0]] ∧
    WellFormed bad ∧ NoEmptyLevel bad ∧
    bad = [] ++ badFlashes :: ([badGroups] ++ badEvents :: []) :=
  ⟨by rfl, bad_wf, bad_nonempty, rfl⟩

/-! ## C03 -/

/-- The counts of the children of a level with unique ids add up to the number of rows below,
less the orphans. -/
theorem C03_counts_add_up {t above rest : List (Level α)} {L C : Level α}
    (wf : WellFormed t) (ht : t = above ++ L :: C :: rest) (hne : NoEmptyLevel t)
    (hu : UniqueIds L.rows) :
    ∃ counts, countChildren t L.evar none = .ok [counts] ∧
      counts.sum + (C.rows.filter fun r => ∀ q ∈ L.rows, q.id ≠ r.pid).length = C.rows.length := by
  refine ⟨_, countChildren_none_closed wf ht (hne C (by rw [ht]; simp)), ?_⟩
  rw [show L.ids = L.rows.map Row.id from rfl, sum_count_of_nodup hu]
  rw [← List.countP_eq_length_filter]
  have : (fun r : Row α => decide (∀ q ∈ L.rows, q.id ≠ r.pid)) =
      fun r => !(decide (r.pid ∈ L.rows.map Row.id)) := by
    funext r
    rw [← decide_not, decide_eq_decide]
    simp [List.mem_map]
  rw [this]
  have hl := List.length_eq_countP_add_countP
    (fun r : Row α => decide (r.pid ∈ L.rows.map Row.id)) (l := C.rows)
  simp only [decide_not, Bool.decide_eq_true] at hl
  simp only [hl, ← decide_not]

/-- With no orphans the counts add up to the number of rows below. -/
theorem C03_counts_add_up_consistent {t above rest : List (Level α)} {L C : Level α}
    (wf : WellFormed t) (ht : t = above ++ L :: C :: rest) (hne : NoEmptyLevel t)
    (hu : UniqueIds L.rows) (ho : ∀ r ∈ C.rows, ∃ q ∈ L.rows, q.id = r.pid) :
    ∃ counts, countChildren t L.evar none = .ok [counts] ∧ counts.sum = C.rows.length := by
  obtain ⟨counts, h1, h2⟩ := C03_counts_add_up wf ht hne hu
  refine ⟨counts, h1, ?_⟩
  have : (C.rows.filter fun r => ∀ q ∈ L.rows, q.id ≠ r.pid) = [] := by
    rw [List.filter_eq_nil_iff]
    intro r hr
    obtain ⟨q, hq, hq2⟩ := ho r hr
    simp only [decide_eq_true_eq, not_forall, not_not]
    exact ⟨q, hq, hq2⟩
  rw [this] at h2
  simpa using h2

example : UniqueIds badGroups.rows ∧ bad = [badFlashes] ++ badGroups :: badEvents :: [] ∧
    badEvents.rows.length = 7 ∧
    (badEvents.rows.filter fun r => ∀ q ∈ badGroups.rows, q.id ≠ r.pid).length = 1 :=
  ⟨by unfold UniqueIds; decide, rfl, rfl, by decide⟩

/-! ## C04 -/

/-- `replicate_parent_ids(E, p)`, for the parent variable `p` of a level `C` below `E`: one id per
row of `C`, in order, and following parent links from the row leads to it. -/
theorem C04_replicate_parent_ids {t above mids rest : List (Level α)} {E C : Level α} {p : String}
    (wf : WellFormed t) (ht : t = above ++ E :: (mids ++ C :: rest)) (hC : C.pvar = some p)
    (hu : ∀ l ∈ mids, UniqueIds l.rows) (ho : NoOrphans t) :
    ∃ ids, replicateParentIds t E.evar p = .ok ids ∧
      List.Forall₂ (fun (r : Row α) a => LeadsTo (mids.reverse.map Level.rows) r.pid a ∧
        ∃ q ∈ E.rows, q.id = a) C.rows ids := by
  have h3 := (wf_split wf ht).2.2.1
  have hch := noOrphans_iff.mp ho
  rw [ht, List.isChain_split] at hch
  have hch := hch.2
  rw [← List.cons_append, List.isChain_split] at hch
  have hch := hch.1
  -- climb
  have key : ∀ (E : Level α) (ups : List (Level α)) (c : Level α),
      (c :: (ups ++ [E])).IsChain (flip HasParents) →
      (∀ l ∈ ups, UniqueIds l.rows ∧ l.pvar ≠ none) →
      Linked c.pids ups := by
    intro E ups
    induction ups with
    | nil => intros; trivial
    | cons u us ih =>
      intro c hc hu
      rw [List.cons_append, List.isChain_cons_cons] at hc
      refine ⟨?_, (hu u (by simp)).1, (hu u (by simp)).2, ih u hc.2 (fun l hl => hu l (by simp [hl]))⟩
      intro i hi
      obtain ⟨r, hr, rfl⟩ := List.mem_map.mp hi
      obtain ⟨q, hq, hq2⟩ := hc.1 r hr
      exact List.mem_map.mpr ⟨q, hq, hq2⟩
  have hrev : (C :: (mids.reverse ++ [E])).IsChain (flip HasParents) := by
    rw [show C :: (mids.reverse ++ [E]) = (E :: mids ++ [C]).reverse by simp,
      List.isChain_reverse]
    exact hch
  have hl := key E mids.reverse C hrev (fun l hl => by
    rw [List.mem_reverse] at hl
    exact ⟨hu l hl, h3 l (by simp [hl])⟩)
  obtain ⟨ids, h1, h2⟩ := replicate_closed wf ht hC hl
  refine ⟨ids, h1, ?_⟩
  -- the id reached is one of the entity level
  have key2 : ∀ (ups : List (Level α)) (c : Level α),
      (c :: (ups ++ [E])).IsChain (flip HasParents) → ∀ r ∈ c.rows, ∀ a,
      LeadsTo (ups.map Level.rows) r.pid a → ∃ q ∈ E.rows, q.id = a := by
    intro ups
    induction ups with
    | nil =>
      intro c hc r hr a ha
      rw [List.nil_append, List.isChain_cons_cons] at hc
      obtain ⟨q, hq, hq2⟩ := hc.1 r hr
      simp only [List.map_nil, LeadsTo] at ha
      exact ⟨q, hq, by rw [hq2, ha]⟩
    | cons u us ih =>
      intro c hc r hr a ha
      rw [List.cons_append, List.isChain_cons_cons] at hc
      obtain ⟨s, hs, _, hs2⟩ := ha
      exact ih u hc.2 s hs a hs2
  rw [List.forall₂_iff_zip] at h2 ⊢
  refine ⟨h2.1, ?_⟩
  intro r a hra
  have := h2.2 hra
  exact ⟨this, key2 mids.reverse C hrev r (List.of_mem_zip hra).1 a this⟩

/-- The link that `C04_replicate_parent_ids` speaks of determines the ancestor: with unique ids no
other id can be reached. -/
theorem C04_ancestor_unique {mids : List (List (Row α))} (hu : ∀ rows ∈ mids, UniqueIds rows)
    {p a b : Int} (ha : LeadsTo mids p a) (hb : LeadsTo mids p b) : a = b := by
  induction mids generalizing p with
  | nil =>
    simp only [LeadsTo] at ha hb
    rw [ha, hb]
  | cons m ms ih =>
    obtain ⟨r, hr, hr1, hr2⟩ := ha
    obtain ⟨s, hs, hs1, hs2⟩ := hb
    have : r = s := List.inj_on_of_nodup_map (hu m (by simp)) hr hs (by rw [hr1, hs1])
    subst this
    exact ih (fun x hx => hu x (by simp [hx])) hr2 hs2

/-- An orphan whose parent would be needed on the way makes the call fail. -/
theorem C04_orphan_keyError {t above rest : List (Level α)} {E M C : Level α} {p : String}
    (wf : WellFormed t) (ht : t = above ++ E :: M :: C :: rest) (hC : C.pvar = some p)
    (hM : M.rows ≠ []) (horph : ∃ r ∈ C.rows, ∀ q ∈ M.rows, q.id ≠ r.pid) :
    replicateParentIds t E.evar p = .error .keyError := by
  obtain ⟨h1, h2, h3, -, -, -⟩ := wf_split wf ht
  obtain ⟨hp1, hp2⟩ := wf_pvars (above := above ++ [E, M]) (rest := rest) wf
    (by rw [ht]; simp) hC
  unfold replicateParentIds
  rw [ht]
  have hrev : (above ++ E :: M :: C :: rest).reverse =
      rest.reverse ++ (C :: M :: E :: above.reverse) := by simp
  rw [hrev, List.foldlM_append, replFold_skip _ _ _ _ (fun l hl => hp2 l (by simpa using hl))]
  simp only [bind, Except.bind, List.foldlM_cons]
  have hCe : C.evar ≠ E.evar := h2 C (by simp)
  have hMe : M.evar ≠ E.evar := h2 M (by simp)
  have hs1 : replStep E.evar p ⟨false, none⟩ C = .ok ⟨true, some C.pids⟩ := by
    simp [replStep, hCe, hC, pure, Except.pure, bind, Except.bind]
  rw [hs1]
  have hk : lookupAll M C.pids = .error .keyError := by
    apply lookupAll_keyError hM
    obtain ⟨r, hr, hr2⟩ := horph
    refine ⟨r.pid, List.mem_map.mpr ⟨r, hr, rfl⟩, ?_⟩
    intro hc
    obtain ⟨q, hq, hq2⟩ := List.mem_map.mp hc
    exact hr2 q hq hq2
  have hs2 : replStep E.evar p ⟨true, some C.pids⟩ M = .error .keyError := by
    simp [replStep, hMe, hk, bind, Except.bind]
  simp only [hs2]

/-- Repeated ids on the way: if two parents of rows of `C` occur a different number of times in
`M`, the call fails with a ValueError instead of returning ids that are out of step. -/
theorem C04_ragged_valueError {t above rest : List (Level α)} {E M C : Level α} {p : String}
    (wf : WellFormed t) (ht : t = above ++ E :: M :: C :: rest) (hC : C.pvar = some p)
    (ho : ∀ r ∈ C.rows, ∃ q ∈ M.rows, q.id = r.pid)
    (hrag : ∃ r ∈ C.rows, ∃ s ∈ C.rows,
      (M.rows.filter fun q => q.id = r.pid).length ≠ (M.rows.filter fun q => q.id = s.pid).length) :
    replicateParentIds t E.evar p = .error .valueError := by
  obtain ⟨h1, h2, h3, -, -, -⟩ := wf_split wf ht
  obtain ⟨hp1, hp2⟩ := wf_pvars (above := above ++ [E, M]) (rest := rest) wf
    (by rw [ht]; simp) hC
  unfold replicateParentIds
  rw [ht]
  have hrev : (above ++ E :: M :: C :: rest).reverse =
      rest.reverse ++ (C :: M :: E :: above.reverse) := by simp
  rw [hrev, List.foldlM_append, replFold_skip _ _ _ _ (fun l hl => hp2 l (by simpa using hl))]
  simp only [bind, Except.bind, List.foldlM_cons]
  have hCe : C.evar ≠ E.evar := h2 C (by simp)
  have hMe : M.evar ≠ E.evar := h2 M (by simp)
  have hs1 : replStep E.evar p ⟨false, none⟩ C = .ok ⟨true, some C.pids⟩ := by
    simp [replStep, hCe, hC, pure, Except.pure, bind, Except.bind]
  rw [hs1]
  have hk : lookupAll M C.pids = .ok (C.pids.map (positions M.ids)) := by
    apply lookupAll_ok
    intro i hi
    obtain ⟨r, hr, rfl⟩ := List.mem_map.mp hi
    obtain ⟨q, hq, hq2⟩ := ho r hr
    exact List.mem_map.mpr ⟨q, hq, hq2⟩
  have hlen : ∀ i, (positions M.ids i).length = (M.rows.filter fun q => q.id = i).length := by
    intro i
    rw [positions_length]
    exact count_map_eq M.rows Row.id i
  have hf : flattenIdx (C.pids.map (positions M.ids)) = .error .valueError := by
    obtain ⟨r, hr, s, hs, hne⟩ := hrag
    have hr' : positions M.ids r.pid ∈ C.pids.map (positions M.ids) :=
      List.mem_map.mpr ⟨r.pid, List.mem_map.mpr ⟨r, hr, rfl⟩, rfl⟩
    have hs' : positions M.ids s.pid ∈ C.pids.map (positions M.ids) :=
      List.mem_map.mpr ⟨s.pid, List.mem_map.mpr ⟨s, hs, rfl⟩, rfl⟩
    rw [← hlen, ← hlen] at hne
    generalize C.pids.map (positions M.ids) = e at hr' hs'
    cases e with
    | nil => simp at hr'
    | cons x xs =>
      unfold flattenIdx
      dsimp only
      rw [if_neg]
      intro hall
      rw [List.all_eq_true] at hall
      have : ∀ y ∈ x :: xs, y.length = x.length := by
        intro y hy
        rcases List.mem_cons.mp hy with rfl | hy
        · rfl
        · simpa using hall y hy
      exact hne (by rw [this _ hr', this _ hs'])
  have hs2 : replStep E.evar p ⟨true, some C.pids⟩ M = .error .valueError := by
    simp [replStep, hMe, hk, hf, bind, Except.bind]
  simp only [hs2]

/-- Group 11 twice, group 12 once. -/
example : replicateParentIds [flashes,
      { Samples.groups with rows := [⟨11, 5, 0⟩, ⟨11, 5, 0⟩, ⟨12, 3, 0⟩] },
      { events with rows := [⟨1, 11, 0⟩, ⟨2, 12, 0⟩] }]
    "flash_id" "event_parent_group_id" = .error .valueError := by rfl

/-- A flash with two levels below it. -/
example : replicateParentIds good "flash_id" "event_parent_group_id" = .ok [5, 5, 3, 5, 3] ∧
    good = [] ++ flashes :: ([Samples.groups] ++ events :: []) ∧
    (∀ l ∈ [Samples.groups], UniqueIds l.rows) ∧ NoOrphans good :=
  ⟨by rfl, rfl, by unfold UniqueIds; decide, good_noOrphans⟩
example : replicateParentIds bad "flash_id" "event_parent_group_id" = .error .keyError := by rfl

/-! ## C05 - C07: the rows kept by `reduce_to_entities` -/

/-- `t'` is `t` with the rows of some levels replaced: same levels, same variables, and the same
splitting. -/
structure SplitLike (t' : List (Level α)) (above : List (Level α)) (L : Level α)
    (below : List (Level α)) (above' : List (Level α)) (L' : Level α) (below' : List (Level α)) :
    Prop where
  eq : t' = above' ++ L' :: below'
  above_length : above'.length = above.length
  below_length : below'.length = below.length
  names : t'.map (fun l => (l.evar, l.pvar)) = (above ++ L :: below).map (fun l => (l.evar, l.pvar))

/-- C05.  The rows at the entity level are, for each requested id in turn, the rows with that id;
unknown ids contribute nothing, repeated ids repeat. -/
theorem C05_requested_rows {t above below : List (Level α)} {L : Level α} (ids : List Int)
    (wf : WellFormed t) (ht : t = above ++ L :: below) (hne : NoEmptyLevel t) :
    ∃ t' above' L' below', reduceToEntities t L.evar ids = .ok t' ∧
      SplitLike t' above L below above' L' below' ∧
      L'.rows = ids.flatMap (fun i => L.rows.filter fun r => r.id = i) :=
  ⟨_, _, _, _, reduce_closed ids wf ht hne,
    ⟨rfl, by rw [List.length_reverse, aboveLevels_length, List.length_reverse],
      belowLevels_length _ _, reduced_names _ _ _ _⟩, rfl⟩

/-- C05, unique ids: the ids at the entity level are the requested ids that exist, in the order and
multiplicity of the request. -/
theorem C05_requested_ids {t above below : List (Level α)} {L : Level α} (ids : List Int)
    (wf : WellFormed t) (ht : t = above ++ L :: below) (hne : NoEmptyLevel t)
    (hu : UniqueIds L.rows) :
    ∃ t' above' L' below', reduceToEntities t L.evar ids = .ok t' ∧
      SplitLike t' above L below above' L' below' ∧
      L'.rows.map Row.id = ids.filter (fun i => ∃ r ∈ L.rows, r.id = i) ∧
      ∀ r ∈ L'.rows, r ∈ L.rows := by
  obtain ⟨t', above', L', below', h1, h2, h3⟩ := C05_requested_rows ids wf ht hne
  refine ⟨t', above', L', below', h1, h2, ?_, ?_⟩
  · rw [h3]
    clear h1 h2 h3
    induction ids with
    | nil => rfl
    | cons i is ih =>
      rw [List.flatMap_cons, List.map_append, ih, List.filter_cons]
      by_cases hi : ∃ r ∈ L.rows, r.id = i
      · obtain ⟨r, hr, hr2, hr3⟩ := filter_unique_spec hu (i := i)
          (by obtain ⟨r, hr, hr2⟩ := hi; exact List.mem_map.mpr ⟨r, hr, hr2⟩)
        simp only [hi, decide_true, if_true, hr3, List.map_cons, List.map_nil, hr2,
          List.singleton_append]
      · have : (L.rows.filter fun r => r.id = i) = [] := by
          rw [List.filter_eq_nil_iff]
          intro r hr
          simp only [decide_eq_true_eq]
          intro h; exact hi ⟨r, hr, h⟩
        simp only [hi, decide_false, this, List.map_nil, List.nil_append]
        rfl
  · intro r hr
    rw [h3] at hr
    exact (mem_rowsInOrder.mp hr).1

/-- C06.  Below the entity level: for each kept parent in order, all the rows that refer to it in
their original order, level by level; as long as no orphan of the next level refers to a requested
id. -/
theorem C06_descendants {t above below : List (Level α)} {L : Level α} (ids : List Int)
    (wf : WellFormed t) (ht : t = above ++ L :: below) (hne : NoEmptyLevel t)
    (hu : UniqueIds L.rows)
    (ho : ∀ b ∈ below.head?, ∀ r ∈ b.rows, r.pid ∈ ids → ∃ q ∈ L.rows, q.id = r.pid) :
    ∃ t' above' L' below', reduceToEntities t L.evar ids = .ok t' ∧
      SplitLike t' above L below above' L' below' ∧
      below'.map Level.rows =
        descendantsInOrder (L'.rows.map Row.id) (below.map Level.rows) := by
  refine ⟨_, _, _, _, reduce_closed ids wf ht hne,
    ⟨rfl, by rw [List.length_reverse, aboveLevels_length, List.length_reverse],
      belowLevels_length _ _, reduced_names _ _ _ _⟩, ?_⟩
  rw [belowLevels_rows]
  obtain ⟨t', above', L', below', h1, h2, h3, -⟩ := C05_requested_ids ids wf ht hne hu
  have hL' : (entityLevel L ids).rows.map Row.id = ids.filter (fun i => ∃ r ∈ L.rows, r.id = i) := by
    rw [reduce_closed ids wf ht hne] at h1
    have e := h2.eq
    rw [← Except.ok.inj h1, reduced_eq] at e
    have hlen : (aboveLevels (entityLevel L ids).pids above.reverse).reverse.length =
        above'.length := by
      rw [List.length_reverse, aboveLevels_length, List.length_reverse, h2.above_length]
    have := (List.append_inj e hlen).2
    rw [(List.cons.inj this).1, h3]
  rw [hL']
  cases below with
  | nil => rfl
  | cons b bs =>
    have hk : childrenInOrder ids b.rows =
        childrenInOrder (ids.filter (fun i => ∃ r ∈ L.rows, r.id = i)) b.rows := by
      have hob := ho b (by simp)
      clear ho h1 h2 h3 hL'
      induction ids with
      | nil => rfl
      | cons i is ih =>
        have ih := ih (fun r hr hri => hob r hr (by simp [hri]))
        rw [List.filter_cons]
        unfold childrenInOrder at ih ⊢
        by_cases hi : ∃ r ∈ L.rows, r.id = i
        · simp only [hi, decide_true, if_true, List.flatMap_cons, ih]
        · have : (b.rows.filter fun r => r.pid = i) = [] := by
            rw [List.filter_eq_nil_iff]
            intro r hr
            simp only [decide_eq_true_eq]
            intro h
            obtain ⟨q, hq, hq2⟩ := hob r hr (by simp [h])
            exact hi ⟨q, hq, by rw [hq2, h]⟩
          simp only [hi, decide_false, List.flatMap_cons, this, List.nil_append, ih]
          rfl
    simp only [List.map_cons, descendantsInOrder, hk]

/-- C06, as a set: `r` is kept at the `j`-th level below the entity iff its chain of parents leads
to a requested id.  No uniqueness or consistency is needed. -/
theorem C06_descendants_mem {t above below : List (Level α)} {L : Level α} (ids : List Int)
    (wf : WellFormed t) (ht : t = above ++ L :: below) (hne : NoEmptyLevel t) :
    ∃ t' above' L' below', reduceToEntities t L.evar ids = .ok t' ∧
      SplitLike t' above L below above' L' below' ∧
      ∀ (j : Nat) (hj : j < below.length) (hj' : j < below'.length) (r : Row α),
        r ∈ below'[j].rows ↔ r ∈ below[j].rows ∧
          Descends ids ((below.take j).reverse.map Level.rows) r :=
  ⟨_, _, _, _, reduce_closed ids wf ht hne,
    ⟨rfl, by rw [List.length_reverse, aboveLevels_length, List.length_reverse],
      belowLevels_length _ _, reduced_names _ _ _ _⟩,
    fun j hj hj' r => belowLevels_mem ids below j hj hj' r⟩

/-- C07.  Above the entity level: `r` is kept iff it is an ancestor of a kept row; rows come sorted
by id, and once each where ids are unique. -/
theorem C07_ancestors {t above below : List (Level α)} {L : Level α} (ids : List Int)
    (wf : WellFormed t) (ht : t = above ++ L :: below) (hne : NoEmptyLevel t) :
    ∃ t' above' L' below', reduceToEntities t L.evar ids = .ok t' ∧
      SplitLike t' above L below above' L' below' ∧
      ∀ (j : Nat) (hj : j < above.length) (hj' : j < above'.length),
        (∀ r, r ∈ above'[j].rows ↔ r ∈ above[j].rows ∧
          IsAncestor L'.rows ((above.drop (j + 1)).map Level.rows) r) ∧
        (above'[j].rows.map Row.id).Pairwise (· ≤ ·) ∧
        (UniqueIds above[j].rows → UniqueIds above'[j].rows) :=
  ⟨_, _, _, _, reduce_closed ids wf ht hne,
    ⟨rfl, by rw [List.length_reverse, aboveLevels_length, List.length_reverse],
      belowLevels_length _ _, reduced_names _ _ _ _⟩,
    fun j hj hj' => ⟨fun r => above_mem (rowsInOrder ids L.rows) above j hj hj' r,
      aboveLevels_sorted _ _ _ (List.mem_reverse.mp (List.getElem_mem hj')),
      above_unique _ above j hj hj'⟩⟩

/-- A request that fails: any empty level makes `reduce_to_entities` raise AttributeError. -/
theorem C05_empty_level_error {t above below : List (Level α)} {L : Level α} (ids : List Int)
    (wf : WellFormed t) (ht : t = above ++ L :: below) (he : ∃ l ∈ t, l.rows = []) :
    reduceToEntities t L.evar ids = .error .attributeError := reduce_error ids wf ht he

/-- A variable that is not an entity variable leaves the dataset as it is. -/
theorem C05_unknown_entity (t : List (Level α)) (e : String) (ids : List Int)
    (h : ∀ l ∈ t, l.evar ≠ e) : reduceToEntities t e ids = .ok t := reduce_unknown t e ids h

/-- Groups 14, 12 (twice requested), an unknown group: rows at all three levels. -/
example : (reduceToEntities good "group_id" [14, 12, 12, 77]).map
      (fun t => t.map fun l => l.rows.map Row.id) = .ok [[3], [14, 12, 12], [104, 102, 102]] ∧
    good = [flashes] ++ Samples.groups :: [events] ∧ UniqueIds Samples.groups.rows ∧
    (∀ b ∈ [events].head?, ∀ r ∈ b.rows, r.pid ∈ [(14 : Int), 12, 12, 77] →
      ∃ q ∈ Samples.groups.rows, q.id = r.pid) :=
  ⟨by rfl, rfl, by unfold UniqueIds; decide, by
    intro b hb
    simp only [List.head?_cons, Option.mem_some_iff] at hb
    subst hb
    decide⟩

/-- The restriction in C06 is needed: asking for an id that does not exist keeps the orphans that
refer to it. -/
theorem C06_orphans_of_unknown_id_kept :
    (reduceToEntities bad "flash_id" [99]).map (fun t => t.map fun l => l.rows.map Row.id) =
      .ok [[], [15], [106]] := by rfl

/-! ## C08 -/

/-- Every row of the reduced dataset still has its parent. -/
theorem C08_no_orphans_kept {t above below : List (Level α)} {L : Level α} (ids : List Int)
    (wf : WellFormed t) (ht : t = above ++ L :: below) (hne : NoEmptyLevel t)
    (ho : NoOrphans t) :
    ∃ t', reduceToEntities t L.evar ids = .ok t' ∧ NoOrphans t' :=
  ⟨_, reduce_closed ids wf ht hne, reduced_noOrphans ids (ht ▸ ho)⟩

/-- Every row above the bottom of the reduced dataset still has a child. -/
theorem C08_no_childless_kept {t above below : List (Level α)} {L : Level α} (ids : List Int)
    (wf : WellFormed t) (ht : t = above ++ L :: below) (hne : NoEmptyLevel t)
    (ho : NoChildless t) :
    ∃ t', reduceToEntities t L.evar ids = .ok t' ∧ NoChildless t' :=
  ⟨_, reduce_closed ids wf ht hne, reduced_noChildless ids (ht ▸ ho)⟩

theorem wf_of_names {t t' : List (Level α)} (wf : WellFormed t)
    (h : t'.map (fun l => (l.evar, l.pvar)) = t.map (fun l => (l.evar, l.pvar))) :
    WellFormed t' := by
  have he : t'.map Level.evar = t.map Level.evar := by
    have := congrArg (List.map Prod.fst) h
    simpa [List.map_map, Function.comp_def] using this
  have hp : t'.map Level.pvar = t.map Level.pvar := by
    have := congrArg (List.map Prod.snd) h
    simpa [List.map_map, Function.comp_def] using this
  have hpt : t'.tail.map Level.pvar = t.tail.map Level.pvar := by
    rw [List.map_tail, List.map_tail, hp]
  refine ⟨?_, ?_, by rw [he]; exact wf.evars, by rw [hpt]; exact wf.pvars⟩
  · intro l hl
    have hh : t'.head?.map Level.pvar = t.head?.map Level.pvar := by
      rw [← List.head?_map, ← List.head?_map, hp]
    rw [Option.mem_def] at hl
    rw [hl] at hh
    cases h0 : t.head? with
    | none => rw [h0] at hh; simp at hh
    | some m =>
      rw [h0] at hh
      simp only [Option.map_some, Option.some.injEq] at hh
      rw [hh]; exact wf.top m (by rw [h0]; simp)
  · intro l hl hn
    have : l.pvar ∈ t'.tail.map Level.pvar := List.mem_map.mpr ⟨l, hl, rfl⟩
    rw [hpt] at this
    obtain ⟨m, hm, hm2⟩ := List.mem_map.mp this
    exact wf.rest m hm (by rw [hm2, hn])

/-- Reducing again by the same ids keeps exactly the same rows at every level.  (If a level has
become empty the second call raises AttributeError, `C05_empty_level_error`.) -/
theorem C08_idempotent {t above below : List (Level α)} {L : Level α} (ids : List Int)
    (wf : WellFormed t) (ht : t = above ++ L :: below) (hne : NoEmptyLevel t) :
    ∃ t', reduceToEntities t L.evar ids = .ok t' ∧ (NoEmptyLevel t' →
      ∃ t'', reduceToEntities t' L.evar ids = .ok t'' ∧
        List.Forall₂ (fun l m => l.evar = m.evar ∧ ∀ r, r ∈ l.rows ↔ r ∈ m.rows) t'' t') := by
  refine ⟨_, reduce_closed ids wf ht hne, fun h => ?_⟩
  have wf' : WellFormed (reduced above L below ids) := by
    apply wf_of_names wf
    rw [reduced_names, ht]
  have h2 := reduce_closed (L := entityLevel L ids) ids wf' (reduced_eq above L below ids) h
  exact ⟨_, h2, reduced_same ids⟩

/-- Exactly the same dataset, order included, when ids are unique and the request has no
repetition. -/
theorem C08_idempotent_exact {t above below : List (Level α)} {L : Level α} (ids : List Int)
    (wf : WellFormed t) (ht : t = above ++ L :: below) (hne : NoEmptyLevel t)
    (hn : ids.Nodup) (hu : ∀ l ∈ below, UniqueIds l.rows) :
    ∃ t', reduceToEntities t L.evar ids = .ok t' ∧ (NoEmptyLevel t' →
      reduceToEntities t' L.evar ids = .ok t') := by
  refine ⟨_, reduce_closed ids wf ht hne, fun h => ?_⟩
  have wf' : WellFormed (reduced above L below ids) := by
    apply wf_of_names wf
    rw [reduced_names, ht]
  have h2 := reduce_closed (L := entityLevel L ids) ids wf' (reduced_eq above L below ids) h
  rw [reduced_idem ids hn hu] at h2
  exact h2

example : good = [] ++ flashes :: [Samples.groups, events] ∧ WellFormed good ∧
    NoEmptyLevel good ∧ NoOrphans good ∧ NoChildless good ∧
    (reduceToEntities good "flash_id" [3]).map (fun t => t.map fun l => l.rows.map Row.id) =
      .ok [[3], [12, 14], [102, 104]] :=
  ⟨rfl, good_wf, good_nonempty, good_noOrphans, good_noChildless, by rfl⟩

/-! ## C09 -/

/-- A reported entry is right: the number of distinct ids, and exactly the unmatched ones. -/
structure StatRight (s : Stat) (var : String) (ids others : List Int) : Prop where
  var : s.var = var
  count : s.count = ids.toFinset.card
  badCount : s.badCount = s.bad.length
  nodup : s.bad.Nodup
  mem : ∀ i, i ∈ s.bad ↔ i ∈ ids ∧ i ∉ others

theorem npUnique_length (l : List Int) : (npUnique l).length = l.toFinset.card := by
  unfold npUnique
  rw [List.length_insertionSort, List.card_toFinset]

theorem checkPair_right {p c : Level α} (hpv : c.pvar ≠ none) (hp : p.rows ≠ [])
    (hc : c.rows ≠ []) :
    ∃ e s, checkPair p c = .ok (e, s) ∧
      StatRight e p.evar (p.rows.map Row.id) (c.rows.map Row.pid) ∧
      StatRight s (c.pvar.getD "") (c.rows.map Row.pid) (p.rows.map Row.id) := by
  refine ⟨_, _, checkPair_ok hpv hp hc, ⟨rfl, npUnique_length _, rfl, ?_, ?_⟩,
    ⟨rfl, npUnique_length _, rfl, ?_, ?_⟩⟩
  · exact (npUnique_nodup _).filter _
  · intro i; simp [mem_npUnique, Level.ids, Level.pids]
  · exact (npUnique_nodup _).filter _
  · intro i; simp [mem_npUnique, Level.ids, Level.pids]

/-- `check_parent_child` reports, for each adjacent pair of levels, the distinct ids of the parent
level and those without children, the distinct parent ids of the child level and those without a
parent row. -/
theorem C09_check_parent_child {t : List (Level α)} (wf : WellFormed t) (hne : NoEmptyLevel t) :
    ∃ es ps, checkParentChild t = .ok (es, ps) ∧
      es.length = t.length - 1 ∧ ps.length = t.length - 1 ∧
      ∀ (j : Nat) (hj : j + 1 < t.length) (he : j < es.length) (hp : j < ps.length),
        StatRight es[j] t[j].evar (t[j].rows.map Row.id) (t[j+1].rows.map Row.pid) ∧
        StatRight ps[j] (t[j+1].pvar.getD "") (t[j+1].rows.map Row.pid) (t[j].rows.map Row.id) := by
  have key : ∀ (ls : List (Level α)) (prev : Level α), (∀ l ∈ ls, l.pvar ≠ none) →
      (∀ l ∈ prev :: ls, l.rows ≠ []) →
      ∃ es ps, checkLoop prev ls = .ok (es, ps) ∧ es.length = ls.length ∧ ps.length = ls.length ∧
      ∀ (j : Nat) (hj : j < ls.length) (he : j < es.length) (hp : j < ps.length),
        StatRight es[j] ((prev :: ls)[j]'(by simp; omega)).evar
          (((prev :: ls)[j]'(by simp; omega)).rows.map Row.id) (ls[j].rows.map Row.pid) ∧
        StatRight ps[j] (ls[j].pvar.getD "") (ls[j].rows.map Row.pid)
          (((prev :: ls)[j]'(by simp; omega)).rows.map Row.id) := by
    intro ls
    induction ls with
    | nil => intro prev _ _; exact ⟨[], [], rfl, rfl, rfl, by simp⟩
    | cons a l ih =>
      intro prev hp hne
      obtain ⟨e, s, h1, h2, h3⟩ := checkPair_right (p := prev) (c := a) (hp a (by simp))
        (hne prev (by simp)) (hne a (by simp))
      obtain ⟨es, ps, h4, h5, h6, h7⟩ := ih a (fun m hm => hp m (by simp [hm]))
        (fun m hm => hne m (by simp only [List.mem_cons] at hm ⊢; tauto))
      refine ⟨e :: es, s :: ps, ?_, by simp [h5], by simp [h6], ?_⟩
      · simp only [checkLoop, h1, h4, bind, Except.bind, pure, Except.pure]
      · intro j hj he hp
        cases j with
        | zero => exact ⟨h2, h3⟩
        | succ j =>
          simp only [List.length_cons, Nat.add_lt_add_iff_right] at hj he hp
          exact h7 j hj he hp
  cases t with
  | nil => exact ⟨[], [], rfl, rfl, rfl, by simp⟩
  | cons a l =>
    obtain ⟨es, ps, h4, h5, h6, h7⟩ := key l a wf.rest hne
    refine ⟨es, ps, h4, by simpa using h5, by simpa using h6, ?_⟩
    intro j hj he hp
    simp only [List.length_cons, Nat.add_lt_add_iff_right] at hj
    exact h7 j hj he hp

theorem adjacent_iff_getElem {t : List (Level α)} {p c : Level α} :
    Adjacent t p c ↔ ∃ j, ∃ (hj : j + 1 < t.length), t[j] = p ∧ t[j+1] = c := by
  constructor
  · rintro ⟨above, below, rfl⟩
    refine ⟨above.length, by simp, ?_, ?_⟩
    · simp
    · rw [List.getElem_append_right (by omega)]
      simp
  · rintro ⟨j, hj, rfl, rfl⟩
    refine ⟨t.take j, t.drop (j + 2), ?_⟩
    rw [List.getElem_cons_drop (h := by omega), List.getElem_cons_drop (h := by omega),
      List.take_append_drop]

/-- Nothing is reported iff the tree is consistent. -/
theorem C09_zero_iff_consistent {t : List (Level α)} (wf : WellFormed t) (hne : NoEmptyLevel t) :
    ∃ es ps, checkParentChild t = .ok (es, ps) ∧
      ((∀ s ∈ es, s.badCount = 0) ↔ NoChildless t) ∧
      ((∀ s ∈ ps, s.badCount = 0) ↔ NoOrphans t) := by
  obtain ⟨es, ps, h1, h2, h3, h4⟩ := C09_check_parent_child wf hne
  refine ⟨es, ps, h1, ?_, ?_⟩
  · constructor
    · intro h p c hpc q hq
      obtain ⟨j, hj, rfl, rfl⟩ := adjacent_iff_getElem.mp hpc
      have hs := (h4 j hj (by omega) (by omega)).1
      have h0 := h es[j] (List.getElem_mem _)
      rw [hs.badCount, List.length_eq_zero_iff] at h0
      by_contra hcon
      have : q.id ∈ (es[j]).bad := (hs.mem q.id).mpr ⟨List.mem_map.mpr ⟨q, hq, rfl⟩, by
        intro hm
        obtain ⟨r, hr, hr2⟩ := List.mem_map.mp hm
        exact hcon ⟨r, hr, hr2⟩⟩
      rw [h0] at this
      simp at this
    · intro h s hs
      obtain ⟨j, hj, rfl⟩ := List.mem_iff_getElem.mp hs
      have hr := (h4 j (by omega) hj (by omega)).1
      rw [hr.badCount, List.length_eq_zero_iff, List.eq_nil_iff_forall_not_mem]
      intro i hi
      obtain ⟨hi1, hi2⟩ := (hr.mem i).mp hi
      obtain ⟨q, hq, rfl⟩ := List.mem_map.mp hi1
      obtain ⟨r, hr, hr2⟩ := h _ _ (adjacent_iff_getElem.mpr ⟨j, by omega, rfl, rfl⟩) q hq
      exact hi2 (List.mem_map.mpr ⟨r, hr, hr2⟩)
  · constructor
    · intro h p c hpc r hr
      obtain ⟨j, hj, rfl, rfl⟩ := adjacent_iff_getElem.mp hpc
      have hs := (h4 j hj (by omega) (by omega)).2
      have h0 := h ps[j] (List.getElem_mem _)
      rw [hs.badCount, List.length_eq_zero_iff] at h0
      by_contra hcon
      have : r.pid ∈ (ps[j]).bad := (hs.mem r.pid).mpr ⟨List.mem_map.mpr ⟨r, hr, rfl⟩, by
        intro hm
        obtain ⟨q, hq, hq2⟩ := List.mem_map.mp hm
        exact hcon ⟨q, hq, hq2⟩⟩
      rw [h0] at this
      simp at this
    · intro h s hs
      obtain ⟨j, hj, rfl⟩ := List.mem_iff_getElem.mp hs
      have hr := (h4 j (by omega) (by omega) hj).2
      rw [hr.badCount, List.length_eq_zero_iff, List.eq_nil_iff_forall_not_mem]
      intro i hi
      obtain ⟨hi1, hi2⟩ := (hr.mem i).mp hi
      obtain ⟨r, hr', rfl⟩ := List.mem_map.mp hi1
      obtain ⟨q, hq, hq2⟩ := h _ _ (adjacent_iff_getElem.mpr ⟨j, by omega, rfl, rfl⟩) r hr'
      exact hi2 (List.mem_map.mpr ⟨q, hq, hq2⟩)

/-- With two or more levels and an empty one, `check_parent_child` raises AttributeError. -/
theorem C09_empty_level_error {a b : Level α} {l : List (Level α)}
    (he : ∃ m ∈ a :: b :: l, m.rows = []) :
    checkParentChild (a :: b :: l) = .error .attributeError := by
  show checkLoop a (b :: l) = .error .attributeError
  have pair : ∀ p c : Level α, p.rows = [] ∨ c.rows = [] →
      checkPair p c = .error .attributeError := by
    intro p c h
    unfold checkPair
    by_cases hc : c.rows = []
    · simp [parentGroups_empty hc, bind, Except.bind]
    · have hp : p.rows = [] := by tauto
      by_cases hpv : c.pvar = none
      · simp [parentGroups, hpv, bind, Except.bind]
      · simp [parentGroups_ok hpv hc, entityGroups_empty hp, bind, Except.bind]
  have pair2 : ∀ p c : Level α, (∃ x, checkPair p c = .ok x) ∨
      checkPair p c = .error .attributeError := by
    intro p c
    by_cases h : p.rows = [] ∨ c.rows = []
    · exact Or.inr (pair p c h)
    · rw [not_or] at h
      by_cases hpv : c.pvar = none
      · right; simp [checkPair, parentGroups, hpv, bind, Except.bind]
      · exact Or.inl ⟨_, checkPair_ok hpv h.1 h.2⟩
  induction l generalizing a b with
  | nil =>
    have : checkPair a b = .error .attributeError := by
      apply pair
      obtain ⟨m, hm, hm2⟩ := he
      simp only [List.mem_cons, List.not_mem_nil, or_false] at hm
      rcases hm with rfl | rfl <;> simp [hm2]
    simp [checkLoop, this, bind, Except.bind]
  | cons c l ih =>
    rw [checkLoop]
    rcases pair2 a b with ⟨x, hx⟩ | hx
    · have : ∃ m ∈ b :: c :: l, m.rows = [] := by
        obtain ⟨m, hm, hm2⟩ := he
        rw [List.mem_cons] at hm
        rcases hm with rfl | hm
        · rw [pair m b (Or.inl hm2)] at hx; simp at hx
        · exact ⟨m, hm, hm2⟩
      simp [hx, ih this, bind, Except.bind]
    · simp [hx, bind, Except.bind]

example : (checkParentChild bad).map (fun x => (x.1.map fun s => (s.count, s.bad),
      x.2.map fun s => (s.count, s.bad))) =
    .ok ([(3, [7]), (6, [16])], [(3, [99]), (6, [98])]) ∧ WellFormed bad ∧ NoEmptyLevel bad :=
  ⟨by rfl, bad_wf, bad_nonempty⟩

end Verif.Props
