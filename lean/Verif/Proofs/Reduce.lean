import Verif.Proofs.Traversal
import Mathlib.Algebra.BigOperators.Group.List.Basic

/-! Characterisation of the rows kept by `reduce_to_entities`. -/

namespace Verif.Proofs

open Verif.Py Verif.Model Verif.Spec

variable {α : Type}

theorem mem_rowsInOrder {ids : List Int} {rows : List (Row α)} {r : Row α} :
    r ∈ rowsInOrder ids rows ↔ r ∈ rows ∧ r.id ∈ ids := by
  simp only [rowsInOrder, List.mem_flatMap, List.mem_filter, decide_eq_true_eq]
  constructor
  · rintro ⟨i, hi, hr, rfl⟩; exact ⟨hr, hi⟩
  · rintro ⟨hr, hi⟩; exact ⟨_, hi, hr, rfl⟩

theorem mem_childrenInOrder {ids : List Int} {rows : List (Row α)} {r : Row α} :
    r ∈ childrenInOrder ids rows ↔ r ∈ rows ∧ r.pid ∈ ids := by
  simp only [childrenInOrder, List.mem_flatMap, List.mem_filter, decide_eq_true_eq]
  constructor
  · rintro ⟨i, hi, hr, rfl⟩; exact ⟨hr, hi⟩
  · rintro ⟨hr, hi⟩; exact ⟨_, hi, hr, rfl⟩

theorem descends_append (ids : List Int) (first : List (Row α)) (mids : List (List (Row α)))
    (r : Row α) :
    Descends ids (mids ++ [first]) r ↔
      Descends ((childrenInOrder ids first).map Row.id) mids r := by
  induction mids generalizing r with
  | nil =>
    simp only [List.nil_append, Descends, List.mem_map, mem_childrenInOrder]
    constructor
    · rintro ⟨p, h1, h2, h3⟩; exact ⟨p, ⟨h1, h3⟩, h2⟩
    · rintro ⟨p, ⟨h1, h3⟩, h2⟩; exact ⟨p, h1, h2, h3⟩
  | cons m ms ih =>
    simp only [List.cons_append, Descends, ih]

theorem belowLevels_rows (ids : List Int) (below : List (Level α)) :
    (belowLevels ids below).map Level.rows = descendantsInOrder ids (below.map Level.rows) := by
  induction below generalizing ids with
  | nil => rfl
  | cons a l ih => simp [belowLevels, descendantsInOrder, ih]

theorem belowLevels_mem (ids : List Int) (below : List (Level α)) (j : Nat)
    (hj : j < below.length) (hj' : j < (belowLevels ids below).length) (r : Row α) :
    r ∈ (belowLevels ids below)[j].rows ↔
      r ∈ below[j].rows ∧ Descends ids ((below.take j).reverse.map Level.rows) r := by
  induction below generalizing ids j with
  | nil => simp at hj
  | cons a l ih =>
    cases j with
    | zero => simp [belowLevels, mem_childrenInOrder, Descends]
    | succ j =>
      simp only [List.length_cons, Nat.add_lt_add_iff_right] at hj
      have := ih ((childrenInOrder ids a.rows).map Row.id) j hj (by rwa [belowLevels_length])
      simp only [belowLevels, List.getElem_cons_succ, this, List.take_succ_cons,
        List.reverse_cons, List.map_append, List.map_cons, List.map_nil, descends_append]

theorem isAncestor_append (kept first : List (Row α)) (mids : List (List (Row α))) (r : Row α)
    (first' : List (Row α)) (hf : ∀ x, x ∈ first' ↔ x ∈ first ∧ ∃ c ∈ kept, c.pid = x.id) :
    IsAncestor kept (mids ++ [first]) r ↔ IsAncestor first' mids r := by
  induction mids generalizing r with
  | nil =>
    simp only [List.nil_append, IsAncestor, hf]
    constructor
    · rintro ⟨c, h1, h2, h3⟩; exact ⟨c, ⟨h1, h3⟩, h2⟩
    · rintro ⟨c, ⟨h1, h3⟩, h2⟩; exact ⟨c, h1, h2, h3⟩
  | cons m ms ih => simp only [List.cons_append, IsAncestor, ih]

theorem aboveLevels_length (pids : List Int) (xs : List (Level α)) :
    (aboveLevels pids xs).length = xs.length := by
  induction xs generalizing pids with
  | nil => rfl
  | cons a l ih => simp [aboveLevels, ih]

theorem aboveLevels_mem (kept : List (Row α)) (xs : List (Level α)) (j : Nat)
    (hj : j < xs.length) (hj' : j < (aboveLevels (kept.map Row.pid) xs).length) (r : Row α) :
    r ∈ (aboveLevels (kept.map Row.pid) xs)[j].rows ↔
      r ∈ xs[j].rows ∧ IsAncestor kept ((xs.take j).reverse.map Level.rows) r := by
  induction xs generalizing kept j with
  | nil => simp at hj
  | cons a l ih =>
    cases j with
    | zero =>
      simp only [aboveLevels, List.getElem_cons_zero, mem_rowsInOrder, mem_npUnique, List.mem_map,
        List.take_zero, List.reverse_nil, List.map_nil, IsAncestor]
    | succ j =>
      simp only [List.length_cons, Nat.add_lt_add_iff_right] at hj
      have h1 := ih (rowsInOrder (npUnique (kept.map Row.pid)) a.rows) j hj
        (by rwa [aboveLevels_length])
      simp only [aboveLevels, List.getElem_cons_succ, h1, List.take_succ_cons,
        List.reverse_cons, List.map_append, List.map_cons, List.map_nil]
      rw [isAncestor_append]
      intro x
      simp only [mem_rowsInOrder, mem_npUnique, List.mem_map]

theorem rowsInOrder_sorted {ids : List Int} (hs : ids.Pairwise (· < ·)) (rows : List (Row α)) :
    ((rowsInOrder ids rows).map Row.id).Pairwise (· ≤ ·) := by
  induction ids with
  | nil => simp [rowsInOrder]
  | cons a l ih =>
    rw [List.pairwise_cons] at hs
    have ih := ih hs.2
    simp only [rowsInOrder, List.flatMap_cons, List.map_append, List.pairwise_append] at ih ⊢
    refine ⟨?_, ih, ?_⟩
    · rw [List.pairwise_map]
      apply List.Pairwise.imp_of_mem (R := fun _ _ => True)
      · intro x y hx hy _
        simp only [List.mem_filter, decide_eq_true_eq] at hx hy
        omega
      · exact List.pairwise_iff_getElem.mpr (by intros; trivial)
    · intro x hx y hy
      simp only [List.mem_map, List.mem_filter, decide_eq_true_eq, List.mem_flatMap] at hx hy
      obtain ⟨r, ⟨_, hr⟩, rfl⟩ := hx
      obtain ⟨s, ⟨i, hi, _, hs'⟩, rfl⟩ := hy
      have := hs.1 i hi
      omega

theorem rowsInOrder_unique {ids : List Int} (hn : ids.Nodup) {rows : List (Row α)}
    (hu : UniqueIds rows) : UniqueIds (rowsInOrder ids rows) := by
  induction ids with
  | nil => simp [rowsInOrder, UniqueIds]
  | cons a l ih =>
    rw [List.nodup_cons] at hn
    have ih := ih hn.2
    simp only [UniqueIds, rowsInOrder, List.flatMap_cons, List.map_append, List.nodup_append]
      at ih ⊢
    refine ⟨?_, ih, ?_⟩
    · exact hu.sublist (List.Sublist.map _ List.filter_sublist)
    · intro x hx y hy
      simp only [List.mem_map, List.mem_filter, decide_eq_true_eq, List.mem_flatMap] at hx hy
      obtain ⟨r, ⟨_, hr⟩, rfl⟩ := hx
      obtain ⟨s, ⟨i, hi, _, hs'⟩, rfl⟩ := hy
      intro heq
      apply hn.1
      rw [← hr, heq, hs']; exact hi

theorem aboveLevels_sorted (pids : List Int) (xs : List (Level α)) :
    ∀ l ∈ aboveLevels pids xs, (l.rows.map Row.id).Pairwise (· ≤ ·) := by
  induction xs generalizing pids with
  | nil => simp [aboveLevels]
  | cons a l ih =>
    intro m hm
    simp only [aboveLevels, List.mem_cons] at hm
    rcases hm with rfl | hm
    · exact rowsInOrder_sorted (npUnique_sorted pids) a.rows
    · exact ih _ m hm

theorem aboveLevels_unique (pids : List Int) (xs : List (Level α)) (j : Nat) (hj : j < xs.length)
    (hj' : j < (aboveLevels pids xs).length) (hu : UniqueIds xs[j].rows) :
    UniqueIds (aboveLevels pids xs)[j].rows := by
  induction xs generalizing pids j with
  | nil => simp at hj
  | cons a l ih =>
    cases j with
    | zero => exact rowsInOrder_unique (npUnique_nodup pids) hu
    | succ j =>
      simp only [List.length_cons, Nat.add_lt_add_iff_right] at hj
      exact ih _ j hj (by rwa [aboveLevels_length]) hu

/-- Names survive. -/
theorem belowLevels_names (ids : List Int) (below : List (Level α)) :
    (belowLevels ids below).map (fun l => (l.evar, l.pvar)) =
      below.map (fun l => (l.evar, l.pvar)) := by
  induction below generalizing ids with
  | nil => rfl
  | cons a l ih => simp [belowLevels, ih]

theorem aboveLevels_names (ids : List Int) (xs : List (Level α)) :
    (aboveLevels ids xs).map (fun l => (l.evar, l.pvar)) = xs.map (fun l => (l.evar, l.pvar)) := by
  induction xs generalizing ids with
  | nil => rfl
  | cons a l ih => simp [aboveLevels, ih]

theorem reduced_names (above : List (Level α)) (L : Level α) (below : List (Level α))
    (ids : List Int) :
    (reduced above L below ids).map (fun l => (l.evar, l.pvar)) =
      (above ++ L :: below).map (fun l => (l.evar, l.pvar)) := by
  simp only [reduced, List.map_append, List.map_cons, belowLevels_names, List.map_reverse,
    aboveLevels_names, List.reverse_reverse, entityLevel]

/-- The `j`-th level from the top, above the entity. -/
theorem above_mem (kept : List (Row α)) (above : List (Level α)) (j : Nat) (hj : j < above.length)
    (hj' : j < (aboveLevels (kept.map Row.pid) above.reverse).reverse.length) (r : Row α) :
    r ∈ (aboveLevels (kept.map Row.pid) above.reverse).reverse[j].rows ↔
      r ∈ above[j].rows ∧ IsAncestor kept ((above.drop (j + 1)).map Level.rows) r := by
  have hlen : (aboveLevels (kept.map Row.pid) above.reverse).length = above.length := by
    rw [aboveLevels_length, List.length_reverse]
  have hk : above.length - 1 - j < above.reverse.length := by rw [List.length_reverse]; omega
  have h := aboveLevels_mem kept above.reverse (above.length - 1 - j) hk (by omega) r
  have e1 : above.reverse[above.length - 1 - j] = above[j] := by
    rw [List.getElem_reverse]
    congr 1; omega
  have e2 : (above.reverse.take (above.length - 1 - j)).reverse = above.drop (j + 1) := by
    rw [List.take_reverse, List.reverse_reverse]
    congr 1; omega
  rw [e1, e2] at h
  rw [List.getElem_reverse]
  rw [← h]
  simp only [hlen]

theorem above_unique (pids : List Int) (above : List (Level α)) (j : Nat) (hj : j < above.length)
    (hj' : j < (aboveLevels pids above.reverse).reverse.length) (hu : UniqueIds above[j].rows) :
    UniqueIds (aboveLevels pids above.reverse).reverse[j].rows := by
  have hlen : (aboveLevels pids above.reverse).length = above.length := by
    rw [aboveLevels_length, List.length_reverse]
  have hk : above.length - 1 - j < above.reverse.length := by rw [List.length_reverse]; omega
  have e1 : above.reverse[above.length - 1 - j] = above[j] := by
    rw [List.getElem_reverse]
    congr 1; omega
  have h := aboveLevels_unique pids above.reverse (above.length - 1 - j) hk (by omega)
    (by rw [e1]; exact hu)
  rw [List.getElem_reverse]
  simpa only [hlen] using h

/-! ### sums of counts -/

theorem sum_count_of_nodup {ids : List Int} (hn : ids.Nodup) (rows : List (Row α)) :
    (ids.map (childCount rows)).sum = rows.countP (fun r => decide (r.pid ∈ ids)) := by
  induction ids with
  | nil => simp
  | cons a l ih =>
    rw [List.nodup_cons] at hn
    rw [List.map_cons, List.sum_cons, ih hn.2]
    unfold childCount
    clear ih
    induction rows with
    | nil => rfl
    | cons r rs ih =>
      simp only [List.countP_cons, List.mem_cons, decide_eq_true_eq] at ih ⊢
      by_cases h1 : r.pid = a
      · have : r.pid ∉ l := by rw [h1]; exact hn.1
        simp only [h1, if_true, true_or] at this ⊢
        simp only [this, if_false]
        omega
      · simp only [h1, if_false, false_or]
        split <;> omega

end Verif.Proofs
