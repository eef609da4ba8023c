import Verif.Py.Basic

/-! Helper lemmas about the python primitives. -/

namespace Verif.Py

theorem mem_npUnique {l : List Int} {k : Int} : k ∈ npUnique l ↔ k ∈ l := by
  simp [npUnique, List.mem_insertionSort]

theorem npUnique_nodup (l : List Int) : (npUnique l).Nodup := by
  unfold npUnique
  exact (List.perm_insertionSort _ _).nodup_iff.mpr (List.nodup_dedup l)

theorem npUnique_sorted_le (l : List Int) : (npUnique l).Pairwise (· ≤ ·) := by
  unfold npUnique
  exact List.pairwise_insertionSort _ _

theorem npUnique_sorted (l : List Int) : (npUnique l).Pairwise (· < ·) := by
  have h1 := npUnique_sorted_le l
  have h2 := npUnique_nodup l
  rw [List.Nodup] at h2
  exact (h1.and h2).imp (fun ⟨a, b⟩ => lt_of_le_of_ne a b)

theorem npUnique_congr {l l' : List Int} (h : ∀ k, k ∈ l ↔ k ∈ l') : npUnique l = npUnique l' := by
  apply List.Perm.eq_of_pairwise (le := (· ≤ ·))
  · intro a b _ _ h1 h2; exact le_antisymm h1 h2
  · exact npUnique_sorted_le l
  · exact npUnique_sorted_le l'
  · apply (List.perm_ext_iff_of_nodup (npUnique_nodup l) (npUnique_nodup l')).mpr
    intro a; simp [mem_npUnique, h]

theorem npUnique_idem (l : List Int) : npUnique (npUnique l) = npUnique l :=
  npUnique_congr (fun _ => mem_npUnique)

theorem npUnique_eq_nil {l : List Int} : npUnique l = [] ↔ l = [] := by
  constructor
  · intro h
    apply List.eq_nil_iff_forall_not_mem.mpr
    intro a ha
    have := mem_npUnique.mpr ha
    rw [h] at this
    exact absurd this (by simp)
  · intro h; subst h; rfl

theorem dictGet_map_pair {κ β : Type} [DecidableEq κ] (l : List κ) (f : κ → β) (k : κ) :
    dictGet (l.map fun x => (x, f x)) k = if k ∈ l then some (f k) else none := by
  induction l with
  | nil => simp [dictGet]
  | cons a l ih =>
    simp only [List.map_cons, dictGet, ih, List.mem_cons]
    by_cases h : a = k
    · subst h; simp
    · have : ¬ k = a := fun e => h e.symm
      simp [h, this]

theorem dictGet_groups (keys : List Int) (k : Int) :
    dictGet (groups keys) k = if k ∈ keys then some (positions keys k) else none := by
  unfold groups
  rw [dictGet_map_pair]
  simp [mem_npUnique]

theorem groups_keys (keys : List Int) : (groups keys).map Prod.fst = npUnique keys := by
  simp [groups, Function.comp_def]

theorem positionsFrom_length (n : Nat) (keys : List Int) (k : Int) :
    (positionsFrom n keys k).length = keys.count k := by
  induction keys generalizing n with
  | nil => simp [positionsFrom]
  | cons a l ih =>
    unfold positionsFrom
    by_cases h : a = k
    · subst h; simp [ih]
    · simp [h, ih]

theorem positions_length (keys : List Int) (k : Int) :
    (positions keys k).length = keys.count k := positionsFrom_length 0 keys k

theorem positionsFrom_lt {n : Nat} {keys : List Int} {k : Int} {i : Nat}
    (h : i ∈ positionsFrom n keys k) : i < n + keys.length := by
  induction keys generalizing n with
  | nil => simp [positionsFrom] at h
  | cons a l ih =>
    unfold positionsFrom at h
    split at h
    · rcases List.mem_cons.mp h with h | h
      · subst h; simp
      · have := ih h; simp; omega
    · have := ih h; simp; omega

theorem positions_lt {keys : List Int} {k : Int} {i : Nat} (h : i ∈ positions keys k) :
    i < keys.length := by
  have := positionsFrom_lt h; omega

theorem positions_eq_nil {keys : List Int} {k : Int} (h : k ∉ keys) : positions keys k = [] := by
  apply List.eq_nil_of_length_eq_zero
  rw [positions_length]; exact List.count_eq_zero.mpr h

theorem take_nil {β : Type} (rows : List β) : take rows [] = [] := rfl

theorem take_append {β : Type} (rows : List β) (i j : List Nat) :
    take rows (i ++ j) = take rows i ++ take rows j := by
  simp [take, List.filterMap_append]

theorem take_flatten {β : Type} (rows : List β) (is : List (List Nat)) :
    take rows is.flatten = (is.map (take rows)).flatten := by
  induction is with
  | nil => rfl
  | cons a l ih => simp [take_append, ih]

theorem take_flatMap {β γ : Type} (rows : List β) (l : List γ) (f : γ → List Nat) :
    take rows (l.flatMap f) = l.flatMap (fun x => take rows (f x)) := by
  induction l with
  | nil => rfl
  | cons a l ih => simp [take_append, ih]

/-- No row is dropped when all positions are in range. -/
theorem take_length_of_lt {β : Type} {rows : List β} {idx : List Nat}
    (h : ∀ i ∈ idx, i < rows.length) : (take rows idx).length = idx.length := by
  induction idx with
  | nil => rfl
  | cons a l ih =>
    have ha : a < rows.length := h a (by simp)
    have hl := ih (fun i hi => h i (by simp [hi]))
    simp only [take] at hl ⊢
    rw [List.filterMap_cons]
    simp [List.getElem?_eq_getElem ha, hl]

theorem take_positionsFrom {β : Type} (pre rows : List β) (f : β → Int) (k : Int) :
    take (pre ++ rows) (positionsFrom pre.length (rows.map f) k) =
      rows.filter (fun r => f r = k) := by
  induction rows generalizing pre with
  | nil => simp [positionsFrom, take]
  | cons a l ih =>
    have h2 : take (pre ++ a :: l) (positionsFrom (pre.length + 1) (l.map f) k) =
        l.filter (fun r => f r = k) := by
      have := ih (pre ++ [a])
      simpa using this
    simp only [List.map_cons, positionsFrom]
    by_cases h : f a = k
    · simp only [h, if_true]
      simp only [take] at h2 ⊢
      rw [List.filterMap_cons]
      simp [h2, h]
    · simp [h, h2]

theorem take_positions {β : Type} (rows : List β) (f : β → Int) (k : Int) :
    take rows (positions (rows.map f) k) = rows.filter (fun r => f r = k) := by
  have := take_positionsFrom [] rows f k
  simpa [positions] using this

theorem count_map_eq {β : Type} (rows : List β) (f : β → Int) (k : Int) :
    (rows.map f).count k = (rows.filter (fun r => f r = k)).length := by
  induction rows with
  | nil => rfl
  | cons a l ih =>
    by_cases h : f a = k
    · simp [h, ih]
    · simp [h, ih]

end Verif.Py
