import Verif.Model.Clipping
import Verif.Spec.Geometry
import Verif.Proofs.Lut
import Mathlib.Tactic.Ring
import Mathlib.Tactic.Linarith
import Mathlib.Algebra.BigOperators.Group.List.Lemmas
import Mathlib.Algebra.BigOperators.Ring.Finset

/-! # Lemmas about polygon areas and meshes -/

namespace Verif.Proofs

open Verif.Py Verif.Model Verif.Spec

/-- Sum of cross products along an open path. -/
def pathSum : List Pt → Rat
  | a :: b :: l => cross a b + pathSum (b :: l)
  | _ => 0

/-- Last element of a non-empty list given as head and tail. -/
def lastOf (a : Pt) (l : List Pt) : Pt := (a :: l).getLast (by simp)

theorem lastOf_cons (a b : Pt) (l : List Pt) : lastOf a (b :: l) = lastOf b l := by
  simp [lastOf]

theorem det_sum (a : Pt) (l : List Pt) :
    (List.zipWith (· - ·)
      (List.zipWith (· * ·) ((a :: l).map Prod.fst).dropLast ((a :: l).map Prod.snd).tail)
      (List.zipWith (· * ·) ((a :: l).map Prod.fst).tail ((a :: l).map Prod.snd).dropLast)).sum =
      pathSum (a :: l) := by
  induction l generalizing a with
  | nil => simp [pathSum]
  | cons b l ih =>
    have := ih b
    simp only [List.map_cons, List.tail_cons, List.dropLast_cons_cons, List.zipWith_cons_cons,
      List.sum_cons, pathSum, cross] at this ⊢
    rw [this]

theorem areaOf_cons (a : Pt) (l : List Pt) :
    areaOf (a :: l) = .ok ((pathSum (a :: l) + cross (lastOf a l) a) / 2) := by
  unfold areaOf polyArea
  simp only [det_sum]
  have h1 : ((a :: l).map Prod.fst).getLast? = some (lastOf a l).1 := by
    rw [List.getLast?_map, lastOf, List.getLast?_eq_some_getLast (by simp)]; rfl
  have h2 : ((a :: l).map Prod.snd).getLast? = some (lastOf a l).2 := by
    rw [List.getLast?_map, lastOf, List.getLast?_eq_some_getLast (by simp)]; rfl
  rw [h1, h2]
  simp only [List.map_cons, List.head?_cons]
  congr 1
  simp only [cross]; ring

theorem pathSum_eq (p : List Pt) :
    pathSum p = ((List.range (p.length - 1)).map fun k =>
      cross (p.getD k (0, 0)) (p.getD (k + 1) (0, 0))).sum := by
  induction p with
  | nil => simp [pathSum]
  | cons a l ih =>
    cases l with
    | nil => simp [pathSum]
    | cons b l =>
      simp only [pathSum, ih, List.length_cons, Nat.add_sub_cancel, List.range_succ_eq_map,
        List.map_cons, List.sum_cons, List.map_map]
      rfl

theorem signedArea_cons (a : Pt) (l : List Pt) :
    signedArea (a :: l) = (pathSum (a :: l) + cross (lastOf a l) a) / 2 := by
  unfold signedArea
  rw [pathSum_eq]
  simp only [List.length_cons, Nat.add_sub_cancel, List.range_succ, List.map_append, List.map_cons,
    List.map_nil, List.sum_append, List.sum_cons, List.sum_nil, add_zero, Nat.mod_self]
  congr 2
  · congr 1
    apply List.map_congr_left
    intro k hk
    rw [Nat.mod_eq_of_lt (by have := List.mem_range.mp hk; omega)]
  · congr 1
    rw [lastOf, List.getLast_eq_getElem]
    simp [List.getD_eq_getElem?_getD]

/-- The model computes the signed area. -/
theorem areaOf_eq {p : List Pt} (h : p ≠ []) : areaOf p = .ok (signedArea p) := by
  cases p with
  | nil => exact absurd rfl h
  | cons a l => rw [areaOf_cons, signedArea_cons]

theorem areaOf_nil : areaOf [] = .error .indexError := rfl

theorem pathSum_append (a : Pt) (l : List Pt) (b : Pt) (r : List Pt) :
    pathSum (a :: l ++ b :: r) = pathSum (a :: l) + cross (lastOf a l) b + pathSum (b :: r) := by
  induction l generalizing a with
  | nil => simp [pathSum, lastOf]
  | cons c l ih =>
    have := ih c
    simp only [List.cons_append, pathSum] at this ⊢
    rw [this, lastOf_cons]; ring

theorem cross_swap (p q : Pt) : cross q p = - cross p q := by simp only [cross]; ring

theorem lastOf_append (a : Pt) (l : List Pt) (b : Pt) (r : List Pt) :
    lastOf a (l ++ b :: r) = lastOf b r := by
  simp [lastOf]

theorem pathSum_reverse (p : List Pt) : pathSum p.reverse = - pathSum p := by
  induction p with
  | nil => simp [pathSum]
  | cons a l ih =>
    cases l with
    | nil => simp [pathSum]
    | cons b l =>
      obtain ⟨c, r, hr⟩ : ∃ c r, (b :: l).reverse = c :: r := by
        cases h : (b :: l).reverse with
        | nil => simp at h
        | cons c r => exact ⟨c, r, rfl⟩
      have hl : lastOf c r = b := by
        have : (c :: r).getLast? = some b := by rw [← hr]; simp
        rw [List.getLast?_eq_some_getLast (by simp)] at this
        exact Option.some.inj this
      rw [List.reverse_cons, hr, pathSum_append, ← hr, ih, hl]
      simp only [pathSum]
      rw [cross_swap a b]; ring

theorem signedArea_reverse (p : List Pt) : signedArea p.reverse = - signedArea p := by
  cases p with
  | nil => simp [signedArea]
  | cons a l =>
    cases hr : (a :: l).reverse with
    | nil => simp at hr
    | cons c r =>
      have hl : lastOf c r = a := by
        have : (c :: r).getLast? = some a := by rw [← hr]; simp
        rw [List.getLast?_eq_some_getLast (by simp)] at this
        exact Option.some.inj this
      have hc : lastOf a l = c := by
        have : (a :: l).reverse.head? = some c := by rw [hr]; rfl
        rw [List.head?_reverse, List.getLast?_eq_some_getLast (by simp)] at this
        exact Option.some.inj this
      rw [signedArea_cons, signedArea_cons, ← hr, pathSum_reverse, hl, hc, cross_swap c a]; ring

theorem signedArea_rotate_one (a : Pt) (l : List Pt) :
    signedArea (l ++ [a]) = signedArea (a :: l) := by
  cases l with
  | nil => rfl
  | cons b l =>
    rw [List.cons_append, signedArea_cons, signedArea_cons, ← List.cons_append, pathSum_append,
      lastOf_append, lastOf_cons]
    simp only [pathSum, lastOf, List.getLast_singleton]
    ring

theorem signedArea_rotate (p : List Pt) (k : Nat) : signedArea (p.rotate k) = signedArea p := by
  induction k generalizing p with
  | zero => simp
  | succ k ih =>
    cases p with
    | nil => simp
    | cons a l => rw [List.rotate_cons_succ, ih, signedArea_rotate_one]

/-- An affine map of the plane. -/
theorem signedArea_affine (p : List Pt) (a b c d s t : Rat) :
    signedArea (p.map fun v => (a * v.1 + b * v.2 + s, c * v.1 + d * v.2 + t)) =
      (a * d - b * c) * signedArea p := by
  cases p with
  | nil => simp [signedArea]
  | cons v l =>
    have key : ∀ (v : Pt) (l : List Pt),
        pathSum ((v :: l).map fun v => (a * v.1 + b * v.2 + s, c * v.1 + d * v.2 + t)) =
        (a * d - b * c) * pathSum (v :: l)
          + s * (c * ((lastOf v l).1 - v.1) + d * ((lastOf v l).2 - v.2))
          - t * (a * ((lastOf v l).1 - v.1) + b * ((lastOf v l).2 - v.2)) := by
      intro v l
      induction l generalizing v with
      | nil => simp [pathSum, lastOf]
      | cons w l ih =>
        have := ih w
        rw [lastOf_cons]
        simp only [List.map_cons, pathSum, cross] at this ⊢
        rw [this]; ring
    have hl : lastOf (a * v.1 + b * v.2 + s, c * v.1 + d * v.2 + t)
        (l.map fun v => (a * v.1 + b * v.2 + s, c * v.1 + d * v.2 + t)) =
        (a * (lastOf v l).1 + b * (lastOf v l).2 + s, c * (lastOf v l).1 + d * (lastOf v l).2 + t) := by
      unfold lastOf
      rw [← List.getLast_map (f := fun v : Pt => (a * v.1 + b * v.2 + s, c * v.1 + d * v.2 + t))]
      rfl
    have := key v l
    rw [List.map_cons] at this ⊢
    rw [signedArea_cons, this, hl, signedArea_cons]
    simp only [cross]; ring

/-- Cutting a polygon along the chord between its first vertex and another one. -/
theorem signedArea_chord (a : Pt) (l : List Pt) (b : Pt) (r : List Pt) :
    signedArea (a :: l ++ b :: r) = signedArea (a :: l ++ [b]) + signedArea (a :: b :: r) := by
  rw [List.cons_append, List.cons_append, signedArea_cons, signedArea_cons, signedArea_cons,
    ← List.cons_append, ← List.cons_append, pathSum_append, pathSum_append, lastOf_append,
    lastOf_append, lastOf_cons]
  simp only [pathSum, lastOf, List.getLast_singleton]
  rw [cross_swap a b]; ring

/-! ### The vectorised version -/

theorem mapM_ok_map {β γ : Type} {f : β → Except Err γ} {g : β → γ} {l : List β}
    (h : ∀ x ∈ l, f x = .ok (g x)) : l.mapM f = .ok (l.map g) := by
  induction l with
  | nil => rfl
  | cons a l ih =>
    rw [List.mapM_cons, h a List.mem_cons_self, ih fun x hx => h x (List.mem_cons_of_mem _ hx)]
    rfl

theorem mapM_error_of_mem {β γ : Type} {f : β → Except Err γ} {e : Err} {l : List β} {b : β}
    (hb : b ∈ l) (hf : ∀ x ∈ l, f x = .error e ∨ ∃ v, f x = .ok v) (h : f b = .error e) :
    l.mapM f = .error e := by
  induction l with
  | nil => simp at hb
  | cons q l ih =>
    rw [List.mapM_cons]
    rcases hf q List.mem_cons_self with hq | ⟨v, hq⟩
    · rw [hq]; rfl
    · rw [hq]
      have : b ∈ l := by
        rcases List.mem_cons.mp hb with h' | h'
        · rw [h', hq] at h; cases h
        · exact h'
      rw [ih this fun x hx => hf x (List.mem_cons_of_mem _ hx)]; rfl

theorem lastColumn_ok {a : List (List Rat)} (h : ∀ r ∈ a, r ≠ []) :
    lastColumn a = .ok (a.map fun r => r.getLastD 0) := by
  unfold lastColumn
  apply mapM_ok_map
  intro r hr
  rw [List.getLastD_eq_getLast?, List.getLast?_eq_some_getLast (h r hr)]; rfl

theorem firstColumn_ok {a : List (List Rat)} (h : ∀ r ∈ a, r ≠ []) :
    firstColumn a = .ok (a.map fun r => r.headD 0) := by
  unfold firstColumn
  apply mapM_ok_map
  intro r hr
  cases r with
  | nil => exact absurd rfl (h _ hr)
  | cons a l => rfl

theorem lastColumn_error {a : List (List Rat)} (h : [] ∈ a) :
    lastColumn a = .error .indexError := by
  unfold lastColumn
  refine mapM_error_of_mem h ?_ rfl
  intro x _
  cases hx : x.getLast? with
  | none => left; rfl
  | some v => right; exact ⟨v, rfl⟩

theorem vectorized_eq (ps : List Poly) :
    vectorizedPolyArea (ps.map (List.map Prod.fst)) (ps.map (List.map Prod.snd)) =
      ps.mapM areaOf := by
  by_cases hne : ∀ p ∈ ps, p ≠ []
  · rw [mapM_ok_map (g := fun p => signedArea p) fun p hp => areaOf_eq (hne p hp)]
    unfold vectorizedPolyArea
    have hm : ∀ k : Pt → Rat, ∀ r ∈ ps.map (List.map k), r ≠ [] := by
      intro k r hr
      obtain ⟨p, hp, rfl⟩ := List.mem_map.mp hr
      simpa using hne p hp
    rw [lastColumn_ok (hm _), lastColumn_ok (hm _), firstColumn_ok (hm _), firstColumn_ok (hm _)]
    simp only [bind, Except.bind, pure, Except.pure]
    congr 1
    clear hm
    induction ps with
    | nil => rfl
    | cons p ps ih =>
      have := ih fun q hq => hne q (List.mem_cons_of_mem _ hq)
      simp only [List.map_cons, List.zipWith_cons_cons] at this ⊢
      rw [this]
      congr 1
      cases p with
      | nil => exact absurd rfl (hne _ List.mem_cons_self)
      | cons a l =>
        have h1 := det_sum a l
        rw [signedArea_cons]
        have hl : ∀ k : Pt → Rat, ((a :: l).map k).getLastD 0 = k (lastOf a l) := by
          intro k
          rw [List.getLastD_eq_getLast?, List.getLast?_map,
            List.getLast?_eq_some_getLast (by simp)]; rfl
        rw [h1, hl, hl]
        simp only [cross, List.map_cons, List.headD_cons]; ring
  · push Not at hne
    obtain ⟨p, hp, rfl⟩ := hne
    have h1 : ps.mapM areaOf = .error .indexError := by
      refine mapM_error_of_mem hp ?_ areaOf_nil
      intro x _
      cases x with
      | nil => left; rfl
      | cons a l => right; exact ⟨_, areaOf_eq (by simp)⟩
    rw [h1]
    unfold vectorizedPolyArea
    rw [lastColumn_error (a := ps.map (List.map Prod.fst)) (List.mem_map.mpr ⟨[], hp, rfl⟩)]
    rfl

end Verif.Proofs
