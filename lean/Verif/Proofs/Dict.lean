import Verif.Model.Driver

/-! Lemmas about dictionaries. -/

namespace Verif.Proofs

open Verif.Py Verif.Model

theorem Dict.get_cons (e : String × Val) (d : Dict) (k : String) :
    Dict.get (e :: d) k = if e.1 = k then .ok e.2 else d.get k := by
  unfold Dict.get
  rw [List.find?_cons]
  by_cases h : e.1 = k
  · simp [h]
  · have : (e.1 == k) = false := by simpa using h
    rw [this, if_neg h]

theorem Dict.get_del_same (d : Dict) (k : String) : (d.del k).get k = .error .keyError := by
  induction d with
  | nil => rfl
  | cons e d ih =>
    unfold Dict.del at ih ⊢
    by_cases h : e.1 = k
    · rw [List.filter_cons_of_neg (by simp [h])]; exact ih
    · rw [List.filter_cons_of_pos (by simp [h]), Dict.get_cons, if_neg h]; exact ih

theorem Dict.get_del_ne (d : Dict) {k k' : String} (hk : k ≠ k') : (d.del k').get k = d.get k := by
  induction d with
  | nil => rfl
  | cons e d ih =>
    unfold Dict.del at ih ⊢
    by_cases h : e.1 = k'
    · rw [List.filter_cons_of_neg (by simp [h]), ih, Dict.get_cons, if_neg (by rw [h]; exact hk.symm)]
    · rw [List.filter_cons_of_pos (by simp [h]), Dict.get_cons, Dict.get_cons, ih]

theorem Dict.get_put_same (d : Dict) (k : String) (v : Val) : (d.put k v).get k = .ok v := by
  unfold Dict.put
  rw [Dict.get_cons, if_pos rfl]

theorem Dict.get_put_ne (d : Dict) {k k' : String} (v : Val) (hk : k ≠ k') :
    (d.put k' v).get k = d.get k := by
  unfold Dict.put
  rw [Dict.get_cons, if_neg (fun h => hk h.symm), Dict.get_del_ne d hk]

theorem Dict.get_put (d : Dict) (k k' : String) (v : Val) :
    (d.put k' v).get k = if k = k' then .ok v else d.get k := by
  split
  · rename_i h; rw [h, Dict.get_put_same]
  · rename_i h; exact Dict.get_put_ne d v h

theorem Dict.get_del (d : Dict) (k k' : String) :
    (d.del k').get k = if k = k' then .error .keyError else d.get k := by
  split
  · rename_i h; rw [h, Dict.get_del_same]
  · rename_i h; exact Dict.get_del_ne d h

theorem Dict.has_iff (d : Dict) (k : String) : d.has k = true ↔ ∃ v, d.get k = .ok v := by
  induction d with
  | nil => simp [Dict.has, Dict.get]
  | cons e d ih =>
    rw [Dict.get_cons]
    unfold Dict.has at ih ⊢
    rw [List.any_cons]
    by_cases h : e.1 = k
    · simp [h]
    · simp only [h, if_false]
      rw [← ih]
      simp [h]

theorem Dict.get_error (d : Dict) (k : String) (e : Err) (h : d.get k = .error e) : e = .keyError := by
  unfold Dict.get at h
  split at h
  · cases h
  · cases h; rfl

theorem Dict.not_has_iff (d : Dict) (k : String) : d.has k = false ↔ d.get k = .error .keyError := by
  constructor
  · intro h
    cases hg : d.get k with
    | ok v => have := (Dict.has_iff d k).mpr ⟨v, hg⟩; rw [h] at this; cases this
    | error e => rw [Dict.get_error d k e hg]
  · intro h
    cases hh : d.has k with
    | false => rfl
    | true => obtain ⟨v, hv⟩ := (Dict.has_iff d k).mp hh; rw [h] at hv; cases hv

theorem Dict.has_congr {d d' : Dict} {k : String} (h : d.get k = d'.get k) : d.has k = d'.has k := by
  cases h1 : d'.has k with
  | true => exact (Dict.has_iff d k).mpr (by rw [h]; exact (Dict.has_iff d' k).mp h1)
  | false => exact (Dict.not_has_iff d k).mpr (by rw [h]; exact (Dict.not_has_iff d' k).mp h1)

theorem Dict.get_nil (k : String) : Dict.get [] k = .error .keyError := rfl

/-- The value of an option, or its default. -/
def optionOr (d : Dict) (k : String) (default : Val) : Val :=
  match d.get k with
  | .ok v => v
  | .error _ => default

theorem Dict.popD_eq (d : Dict) (k : String) (v : Val) : (d.popD k v).1 = optionOr d k v := by
  unfold Dict.popD optionOr
  cases d.get k <;> rfl

theorem optionOr_congr {d d' : Dict} {k : String} {v : Val} (h : d.get k = d'.get k) :
    optionOr d k v = optionOr d' k v := by
  unfold optionOr
  rw [h]

theorem optionOr_error {d : Dict} {k : String} {v : Val} {e : Err} (h : d.get k = .error e) :
    optionOr d k v = v := by
  unfold optionOr
  rw [h]

theorem optionOr_ok {d : Dict} {k : String} {v w : Val} (h : d.get k = .ok w) :
    optionOr d k v = w := by
  unfold optionOr
  rw [h]

theorem Dict.popD_get (d : Dict) (k k' : String) (v : Val) :
    (d.popD k' v).2.get k = if k = k' then .error .keyError else d.get k := by
  unfold Dict.popD
  cases h : d.get k' with
  | ok w => exact Dict.get_del d k k'
  | error e =>
    show d.get k = _
    split
    · rename_i hk; rw [hk, h, Dict.get_error d k' e h]
    · rfl

/-- What `moveKeys` moves and what it leaves. -/
theorem moveKeys_get (keys : List String) (dst src : Dict) (k : String) :
    (moveKeys keys dst src).1.get k =
      (if k ∈ keys ∧ src.has k = true then src.get k else dst.get k) ∧
    (moveKeys keys dst src).2.get k = if k ∈ keys then .error .keyError else src.get k := by
  induction keys generalizing dst src with
  | nil => simp [moveKeys]
  | cons a keys ih =>
    unfold moveKeys at ih ⊢
    rw [List.foldl_cons]
    cases h : src.get a with
    | error e =>
      have he := Dict.get_error src a e h
      subst he
      obtain ⟨h1, h2⟩ := ih dst src
      have hnot := (Dict.not_has_iff src a).mpr h
      constructor
      · rw [h1]
        by_cases hk : k = a
        · subst hk; simp [hnot]
        · simp [hk]
      · rw [h2]
        by_cases hk : k = a
        · subst hk; simp [h]
        · simp [hk]
    | ok v =>
      obtain ⟨h1, h2⟩ := ih (dst.put a v) (src.del a)
      constructor
      · rw [h1]
        by_cases hk : k = a
        · subst hk
          have hs : src.has k = true := (Dict.has_iff src k).mpr ⟨v, h⟩
          have hd : (src.del k).has k = false := (Dict.not_has_iff _ k).mpr (Dict.get_del_same src k)
          simp [hd, hs, Dict.get_put_same, h]
        · have hd : (src.del a).has k = src.has k := Dict.has_congr (Dict.get_del_ne src hk)
          simp [hd, hk, Dict.get_put_ne dst v hk, Dict.get_del_ne src hk]
      · rw [h2]
        by_cases hk : k = a
        · subst hk; simp [Dict.get_del_same]
        · simp [hk, Dict.get_del_ne src hk]

end Verif.Proofs
