import Verif.Proofs.Reduce
import Mathlib.Data.List.Chain

/-! `reduce_to_entities` preserves consistency and is idempotent. -/

namespace Verif.Proofs

open Verif.Py Verif.Model Verif.Spec

variable {α : Type}

/-- Every row of `c` has a parent in `p`. -/
def HasParents (p c : Level α) : Prop := ∀ r ∈ c.rows, ∃ q ∈ p.rows, q.id = r.pid

/-- Every row of `p` has a child in `c`. -/
def HasChildren (p c : Level α) : Prop := ∀ q ∈ p.rows, ∃ r ∈ c.rows, r.pid = q.id

theorem noOrphans_iff {t : List (Level α)} : NoOrphans t ↔ t.IsChain HasParents := by
  rw [List.isChain_iff_forall_rel_of_append_cons_cons]
  constructor
  · intro h a b l1 l2 he
    exact h a b ⟨l1, l2, he⟩
  · rintro h a b ⟨l1, l2, he⟩
    exact h he

theorem noChildless_iff {t : List (Level α)} : NoChildless t ↔ t.IsChain HasChildren := by
  rw [List.isChain_iff_forall_rel_of_append_cons_cons]
  constructor
  · intro h a b l1 l2 he
    exact h a b ⟨l1, l2, he⟩
  · rintro h a b ⟨l1, l2, he⟩
    exact h he

theorem below_hasParents (prev : Level α) (parents : List Int) (below : List (Level α))
    (h : ∀ a ∈ below.head?, ∀ r ∈ a.rows, r.pid ∈ parents → ∃ q ∈ prev.rows, q.id = r.pid) :
    (prev :: belowLevels parents below).IsChain HasParents := by
  induction below generalizing prev parents with
  | nil => simp [belowLevels]
  | cons a l ih =>
    simp only [belowLevels, List.isChain_cons_cons]
    refine ⟨?_, ih _ _ ?_⟩
    · intro r hr
      rw [mem_childrenInOrder] at hr
      exact h a (by simp) r hr.1 hr.2
    · intro b _ r _ hr2
      simp only [List.mem_map] at hr2
      obtain ⟨q, hq, hq2⟩ := hr2
      exact ⟨q, hq, hq2⟩

theorem below_hasChildren (prev prev' : Level α) (parents : List Int) (below : List (Level α))
    (hsub : ∀ q ∈ prev'.rows, q ∈ prev.rows) (hid : ∀ q ∈ prev'.rows, q.id ∈ parents)
    (h : (prev :: below).IsChain HasChildren) :
    (prev' :: belowLevels parents below).IsChain HasChildren := by
  induction below generalizing prev prev' parents with
  | nil => simp [belowLevels]
  | cons a l ih =>
    simp only [belowLevels, List.isChain_cons_cons] at h ⊢
    refine ⟨?_, ih a _ _ ?_ ?_ h.2⟩
    · intro q hq
      obtain ⟨r, hr, hr2⟩ := h.1 q (hsub q hq)
      refine ⟨r, mem_childrenInOrder.mpr ⟨hr, ?_⟩, hr2⟩
      rw [hr2]; exact hid q hq
    · intro q hq
      exact (mem_childrenInOrder.mp hq).1
    · intro q hq
      exact List.mem_map.mpr ⟨q, hq, rfl⟩

theorem above_hasParents (c c' : Level α) (xs : List (Level α))
    (hsub : ∀ r ∈ c'.rows, r ∈ c.rows)
    (h : (c :: xs).IsChain (flip HasParents)) :
    (c' :: aboveLevels c'.pids xs).IsChain (flip HasParents) := by
  induction xs generalizing c c' with
  | nil => simp [aboveLevels]
  | cons a l ih =>
    simp only [aboveLevels, List.isChain_cons_cons] at h ⊢
    refine ⟨?_, ?_⟩
    · intro r hr
      obtain ⟨q, hq, hq2⟩ := h.1 r (hsub r hr)
      refine ⟨q, mem_rowsInOrder.mpr ⟨hq, ?_⟩, hq2⟩
      rw [mem_npUnique, hq2]
      exact List.mem_map.mpr ⟨r, hr, rfl⟩
    · exact ih a { a with rows := rowsInOrder (npUnique c'.pids) a.rows }
        (fun r hr => (mem_rowsInOrder.mp hr).1) h.2

theorem above_hasChildren (c' : Level α) (xs : List (Level α)) :
    (c' :: aboveLevels c'.pids xs).IsChain (flip HasChildren) := by
  induction xs generalizing c' with
  | nil => simp [aboveLevels]
  | cons a l ih =>
    simp only [aboveLevels, List.isChain_cons_cons]
    refine ⟨?_, ?_⟩
    · intro q hq
      have := (mem_rowsInOrder.mp hq).2
      rw [mem_npUnique] at this
      obtain ⟨r, hr, hr2⟩ := List.mem_map.mp this
      exact ⟨r, hr, hr2⟩
    · exact ih { a with rows := rowsInOrder (npUnique c'.pids) a.rows }

theorem reduced_eq (above : List (Level α)) (L : Level α) (below : List (Level α))
    (ids : List Int) :
    reduced above L below ids =
      (aboveLevels (entityLevel L ids).pids above.reverse).reverse ++
        entityLevel L ids :: belowLevels ids below := rfl

theorem reduced_noOrphans {above below : List (Level α)} {L : Level α} (ids : List Int)
    (h : NoOrphans (above ++ L :: below)) : NoOrphans (reduced above L below ids) := by
  rw [noOrphans_iff] at h ⊢
  rw [List.isChain_split] at h
  rw [reduced_eq, List.isChain_split]
  constructor
  · rw [← List.reverse_cons, List.isChain_reverse]
    apply above_hasParents L
    · intro r hr; exact (mem_rowsInOrder.mp hr).1
    · have h1 := h.1
      rw [← List.reverse_reverse above, ← List.reverse_cons, List.isChain_reverse] at h1
      exact h1
  · apply below_hasParents
    intro a ha r hr hp
    cases below with
    | nil => simp at ha
    | cons b l =>
      simp only [List.head?_cons, Option.mem_some_iff] at ha
      subst ha
      have := (List.isChain_cons_cons.mp h.2).1 r hr
      obtain ⟨q, hq, hq2⟩ := this
      refine ⟨q, mem_rowsInOrder.mpr ⟨hq, ?_⟩, hq2⟩
      rw [hq2]; exact hp

theorem reduced_noChildless {above below : List (Level α)} {L : Level α} (ids : List Int)
    (h : NoChildless (above ++ L :: below)) : NoChildless (reduced above L below ids) := by
  rw [noChildless_iff] at h ⊢
  rw [List.isChain_split] at h
  rw [reduced_eq, List.isChain_split]
  constructor
  · rw [← List.reverse_cons, List.isChain_reverse]
    exact above_hasChildren _ _
  · apply below_hasChildren L
    · intro q hq; exact (mem_rowsInOrder.mp hq).1
    · intro q hq; exact (mem_rowsInOrder.mp hq).2
    · exact h.2

/-! ### idempotence -/

theorem filter_blocks {ids : List Int} (f : Row α → Int) (rows : List (Row α)) (i : Int)
    (hn : ids.Nodup) :
    (ids.flatMap fun k => rows.filter fun r => f r = k).filter (fun r => f r = i) =
      if i ∈ ids then rows.filter (fun r => f r = i) else [] := by
  induction ids with
  | nil => simp
  | cons a l ih =>
    rw [List.nodup_cons] at hn
    simp only [List.flatMap_cons, List.filter_append, ih hn.2, List.mem_cons, List.filter_filter]
    by_cases h : i = a
    · subst h
      simp only [hn.1, if_false, true_or, if_true, List.append_nil, Bool.and_self]
    · have : ∀ r : Row α, (decide (f r = i) && decide (f r = a)) = false := by
        intro r
        by_cases h1 : f r = i
        · simp [h1, h]
        · simp [h1]
      simp [this, h]

theorem blocks_idem {ids : List Int} (f : Row α → Int) (rows : List (Row α)) (hn : ids.Nodup) :
    (ids.flatMap fun i => (ids.flatMap fun k => rows.filter fun r => f r = k).filter
      fun r => f r = i) = ids.flatMap fun k => rows.filter fun r => f r = k := by
  rw [List.flatMap_def, List.flatMap_def]
  congr 1
  apply List.map_congr_left
  intro i hi
  rw [← List.flatMap_def, filter_blocks f rows i hn]
  simp [hi]

theorem childrenInOrder_unique {ids : List Int} (hn : ids.Nodup) {rows : List (Row α)}
    (hu : UniqueIds rows) : UniqueIds (childrenInOrder ids rows) := by
  induction ids with
  | nil => simp [childrenInOrder, UniqueIds]
  | cons a l ih =>
    rw [List.nodup_cons] at hn
    have ih := ih hn.2
    simp only [UniqueIds, childrenInOrder, List.flatMap_cons, List.map_append, List.nodup_append]
      at ih ⊢
    refine ⟨?_, ih, ?_⟩
    · exact hu.sublist (List.Sublist.map _ List.filter_sublist)
    · intro x hx y hy
      simp only [List.mem_map, List.mem_filter, decide_eq_true_eq, List.mem_flatMap] at hx hy
      obtain ⟨r, ⟨hr0, hr⟩, rfl⟩ := hx
      obtain ⟨s, ⟨i, hi, hs0, hs'⟩, rfl⟩ := hy
      intro heq
      have : r = s := List.inj_on_of_nodup_map hu hr0 hs0 heq
      subst this
      apply hn.1
      rw [← hr, hs']; exact hi

theorem belowLevels_idem (ids : List Int) (hn : ids.Nodup) (below : List (Level α))
    (hu : ∀ l ∈ below, UniqueIds l.rows) :
    belowLevels ids (belowLevels ids below) = belowLevels ids below := by
  induction below generalizing ids with
  | nil => rfl
  | cons a l ih =>
    have h1 : childrenInOrder ids (childrenInOrder ids a.rows) = childrenInOrder ids a.rows :=
      blocks_idem Row.pid a.rows hn
    simp only [belowLevels, h1]
    rw [ih _ (childrenInOrder_unique hn (hu a (by simp))) (fun m hm => hu m (by simp [hm]))]

theorem aboveLevels_idem (pids : List Int) (xs : List (Level α)) :
    aboveLevels pids (aboveLevels pids xs) = aboveLevels pids xs := by
  induction xs generalizing pids with
  | nil => rfl
  | cons a l ih =>
    have h1 : rowsInOrder (npUnique pids) (rowsInOrder (npUnique pids) a.rows) =
        rowsInOrder (npUnique pids) a.rows := blocks_idem Row.id a.rows (npUnique_nodup pids)
    simp only [aboveLevels, h1, ih]

theorem reduced_idem {above below : List (Level α)} {L : Level α} (ids : List Int)
    (hn : ids.Nodup) (hu : ∀ l ∈ below, UniqueIds l.rows) :
    reduced (aboveLevels (entityLevel L ids).pids above.reverse).reverse (entityLevel L ids)
      (belowLevels ids below) ids = reduced above L below ids := by
  have h1 : rowsInOrder ids (rowsInOrder ids L.rows) = rowsInOrder ids L.rows :=
    blocks_idem Row.id L.rows hn
  simp only [reduced, entityLevel, Level.pids, List.reverse_reverse, h1, aboveLevels_idem,
    belowLevels_idem ids hn below hu]

/-- Same rows, order and multiplicity aside. -/
def SameRows (l m : Level α) : Prop := l.evar = m.evar ∧ ∀ r, r ∈ l.rows ↔ r ∈ m.rows

theorem belowLevels_same (P Q : List Int) (h : ∀ i, i ∈ P ↔ i ∈ Q) (below : List (Level α)) :
    List.Forall₂ SameRows (belowLevels Q (belowLevels P below)) (belowLevels P below) := by
  induction below generalizing P Q with
  | nil => exact List.Forall₂.nil
  | cons a l ih =>
    have h1 : ∀ r, r ∈ childrenInOrder Q (childrenInOrder P a.rows) ↔ r ∈ childrenInOrder P a.rows := by
      intro r
      simp only [mem_childrenInOrder]
      rw [← h r.pid]; tauto
    refine List.Forall₂.cons ⟨rfl, h1⟩ (ih _ _ ?_)
    intro i
    simp only [List.mem_map, h1]

theorem aboveLevels_same (P Q : List Int) (h : ∀ i, i ∈ P ↔ i ∈ Q) (xs : List (Level α)) :
    List.Forall₂ SameRows (aboveLevels Q (aboveLevels P xs)) (aboveLevels P xs) := by
  induction xs generalizing P Q with
  | nil => exact List.Forall₂.nil
  | cons a l ih =>
    have h1 : ∀ r, r ∈ rowsInOrder (npUnique Q) (rowsInOrder (npUnique P) a.rows) ↔
        r ∈ rowsInOrder (npUnique P) a.rows := by
      intro r
      simp only [mem_rowsInOrder, mem_npUnique]
      rw [← h r.id]; tauto
    refine List.Forall₂.cons ⟨rfl, h1⟩ (ih _ _ ?_)
    intro i
    simp only [List.mem_map, h1]

theorem reduced_same {above below : List (Level α)} {L : Level α} (ids : List Int) :
    List.Forall₂ SameRows
      (reduced (aboveLevels (entityLevel L ids).pids above.reverse).reverse (entityLevel L ids)
        (belowLevels ids below) ids) (reduced above L below ids) := by
  have h1 : ∀ r, r ∈ rowsInOrder ids (rowsInOrder ids L.rows) ↔ r ∈ rowsInOrder ids L.rows := by
    intro r; simp only [mem_rowsInOrder]; tauto
  have h2 : ∀ i, i ∈ (entityLevel L ids).pids ↔ i ∈ (entityLevel (entityLevel L ids) ids).pids := by
    intro i
    simp only [Level.pids, entityLevel, List.mem_map, h1]
  rw [reduced_eq, reduced_eq]
  apply List.rel_append
  · rw [List.forall₂_reverse_iff, List.reverse_reverse]
    exact aboveLevels_same _ _ h2 _
  · exact List.Forall₂.cons ⟨rfl, h1⟩ (belowLevels_same _ _ (fun _ => Iff.rfl) _)

end Verif.Proofs
