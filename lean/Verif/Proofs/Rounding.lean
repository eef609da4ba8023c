import Verif.Spec.Rounding
import Verif.Proofs.ConvexClip

/-!
# Rounding the corners of polygons

How much the area changes if the corners move a little.
-/

namespace Verif.Proofs

open Verif.Py Verif.Model Verif.Spec

/-- Distance along the axes. -/
def l1 (a b : Pt) : Rat := |b.1 - a.1| + |b.2 - a.2|

theorem l1_nonneg (a b : Pt) : 0 ≤ l1 a b := by unfold l1; positivity

theorem l1_self (a : Pt) : l1 a a = 0 := by simp [l1]

theorem l1_comm (a b : Pt) : l1 a b = l1 b a := by
  unfold l1; rw [abs_sub_comm, abs_sub_comm b.2]

theorem l1_triangle (a b c : Pt) : l1 a c ≤ l1 a b + l1 b c := by
  unfold l1
  have h1 := abs_add_le (b.1 - a.1) (c.1 - b.1)
  have h2 := abs_add_le (b.2 - a.2) (c.2 - b.2)
  rw [show b.1 - a.1 + (c.1 - b.1) = c.1 - a.1 by ring] at h1
  rw [show b.2 - a.2 + (c.2 - b.2) = c.2 - a.2 by ring] at h2
  linarith

/-- A point between two others. -/
theorem l1_meet {a b : Pt} {α β : Rat} (h : (0 ≤ α ∧ β < 0) ∨ (α < 0 ∧ 0 ≤ β)) :
    l1 a (meet a b α β) + l1 (meet a b α β) b = l1 a b := by
  have hn : α - β ≠ 0 := by intro h'; rcases h with h | h <;> linarith [h.1, h.2]
  have h0 : 0 ≤ α / (α - β) := by
    rcases h with h | h
    · exact div_nonneg h.1 (by linarith [h.1, h.2])
    · exact div_nonneg_of_nonpos h.1.le (by linarith [h.1, h.2])
  have h1 : α / (α - β) ≤ 1 := by
    rcases h with h | h
    · rw [div_le_one (by linarith [h.1, h.2])]; linarith [h.2]
    · rw [div_le_one_of_neg (by linarith [h.1, h.2])]; linarith [h.2]
  unfold meet l1
  simp only
  generalize α / (α - β) = t at h0 h1
  have e1 : ∀ u v : Rat, |u + t * (v - u) - u| = t * |v - u| := by
    intro u v
    rw [show u + t * (v - u) - u = t * (v - u) by ring, abs_mul, abs_of_nonneg h0]
  have e2 : ∀ u v : Rat, |v - (u + t * (v - u))| = (1 - t) * |v - u| := by
    intro u v
    rw [show v - (u + t * (v - u)) = (1 - t) * (v - u) by ring, abs_mul, abs_of_nonneg (by linarith)]
  rw [e1, e1, e2, e2]
  ring

/-- The last point of a path. -/
def lastPt (a : Pt) (l : List Pt) : Pt := l.getLast?.getD a

theorem lastPt_nil (a : Pt) : lastPt a [] = a := rfl

theorem lastPt_cons (a b : Pt) (l : List Pt) : lastPt a (b :: l) = lastPt b l := by
  cases l with
  | nil => rfl
  | cons c l => simp [lastPt, List.getLast?_cons]

theorem cutPath_length (s : Pt → Rat) (l : List Pt) (a L : Pt) :
    pathOf l1 L (cutPath s a l) + l1 (lastPt L (cutPath s a l)) (lastPt a l) ≤ l1 L a + pathOf l1 a l := by
  induction l generalizing a L with
  | nil => simp [cutPath, pathOf, lastPt]
  | cons b l ih =>
    rw [lastPt_cons]
    simp only [cutPath, cutStep, pathOf]
    by_cases hb : 0 ≤ s b
    · rw [if_pos hb]
      have h0 := ih b b
      rw [l1_self] at h0
      by_cases ha : 0 ≤ s a
      · rw [if_pos ha]
        simp only [List.singleton_append, pathOf, lastPt_cons]
        have := l1_triangle L a b
        linarith
      · rw [if_neg ha]
        simp only [List.cons_append, List.nil_append, pathOf, lastPt_cons]
        have h1 := l1_meet (a := a) (b := b) (α := s a) (β := s b) (Or.inr ⟨not_le.mp ha, hb⟩)
        have := l1_triangle L a (meet a b (s a) (s b))
        linarith
    · rw [if_neg hb]
      by_cases ha : 0 ≤ s a
      · rw [if_pos ha]
        simp only [List.singleton_append, pathOf, lastPt_cons]
        have h0 := ih b (meet a b (s a) (s b))
        have h1 := l1_meet (a := a) (b := b) (α := s a) (β := s b) (Or.inl ⟨ha, not_le.mp hb⟩)
        have := l1_triangle L a (meet a b (s a) (s b))
        linarith
      · rw [if_neg ha]
        simp only [List.nil_append]
        have h0 := ih b L
        have := l1_triangle L a b
        linarith

/-- Cutting does not make the outline longer. -/
theorem cut_length (s : Pt → Rat) (p : List Pt) : loopOf l1 (cut s p) ≤ loopOf l1 p := by
  unfold cut
  cases hz : p.getLast? with
  | none => simp [loopOf, hz]
  | some z =>
    simp only
    have hp : loopOf l1 p = pathOf l1 z p := by unfold loopOf; rw [hz]
    have hzl : lastPt z p = z := by simp [lastPt, hz]
    rw [hp]
    unfold loopOf
    cases hL : (cutPath s z p).getLast? with
    | none =>
      simp only
      have : ∀ (l : List Pt) (a : Pt), 0 ≤ pathOf l1 a l := by
        intro l
        induction l with
        | nil => intro a; exact le_refl _
        | cons b l ih => intro a; simp only [pathOf]; exact add_nonneg (l1_nonneg _ _) (ih b)
      exact this _ _
    | some L =>
      simp only
      have := cutPath_length s p z L
      rw [hzl, show lastPt L (cutPath s z p) = L by simp [lastPt, hL]] at this
      linarith

theorem cutPath_count (s : Pt → Rat) (l : List Pt) (a : Pt) : (cutPath s a l).length ≤ 2 * l.length := by
  induction l generalizing a with
  | nil => simp [cutPath]
  | cons b l ih =>
    have := ih b
    have h2 : (cutStep s a b).length ≤ 2 := by
      unfold cutStep
      split <;> split <;> simp
    simp only [cutPath, List.length_append, List.length_cons]
    omega

theorem cut_count (s : Pt → Rat) (p : List Pt) : (cut s p).length ≤ 2 * p.length := by
  unfold cut
  split
  · simp
  · exact cutPath_count s p _

theorem cutRect_length (p : List Pt) (x y X Y : Rat) : loopOf l1 (cutRect p x y X Y) ≤ loopOf l1 p :=
  (cut_length _ _).trans ((cut_length _ _).trans ((cut_length _ _).trans (cut_length _ _)))

theorem cutRect_count (p : List Pt) (x y X Y : Rat) : (cutRect p x y X Y).length ≤ 16 * p.length := by
  have h1 := cut_count (above y) (cut (below Y) (cut (rightOf x) (cut (leftOf X) p)))
  have h2 := cut_count (below Y) (cut (rightOf x) (cut (leftOf X) p))
  have h3 := cut_count (rightOf x) (cut (leftOf X) p)
  have h4 := cut_count (leftOf X) p
  unfold cutRect
  omega

theorem pathOf_range (g : Pt → Pt → Rat) (a : Pt) (l : List Pt) :
    pathOf g a l = ((List.range l.length).map fun k =>
      g ((a :: l).getD k (0, 0)) ((a :: l).getD (k + 1) (0, 0))).sum := by
  induction l generalizing a with
  | nil => rfl
  | cons b l ih =>
    rw [List.length_cons, List.range_succ_eq_map, List.map_cons, List.sum_cons, List.map_map, pathOf, ih b]
    rfl

theorem outlineLength_loop (p : List Pt) : outlineLength p = loopOf l1 p := by
  cases p with
  | nil => simp [outlineLength, loopOf]
  | cons a l =>
    unfold loopOf
    rw [List.getLast?_eq_some_getLast (by simp)]
    simp only [pathOf]
    rw [pathOf_range]
    unfold outlineLength
    simp only [List.length_cons, List.range_succ, List.map_append, List.map_cons, List.map_nil, List.sum_append,
      List.sum_cons, List.sum_nil, add_zero, Nat.mod_self]
    rw [add_comm]
    congr 1
    · rw [List.getLast_eq_getElem]
      simp [l1, List.getD_eq_getElem?_getD]
    · congr 1
      apply List.map_congr_left
      intro k hk
      rw [Nat.mod_eq_of_lt (by have := List.mem_range.mp hk; omega)]
      rfl

/-- Points at most `e` apart in each coordinate. -/
def Near (e : Rat) (v w : Pt) : Prop := |w.1 - v.1| ≤ e ∧ |w.2 - v.2| ≤ e

theorem cross_near {e : Rat} {α : Rat × Rat} (h1 : |α.1| ≤ e) (h2 : |α.2| ≤ e) (w : Rat × Rat) :
    |cross α w| ≤ e * (|w.1| + |w.2|) := by
  unfold cross
  have h3 := abs_sub (α.1 * w.2) (w.1 * α.2)
  rw [abs_mul, abs_mul] at h3
  have := mul_le_mul_of_nonneg_right h1 (abs_nonneg w.2)
  have := mul_le_mul_of_nonneg_left h2 (abs_nonneg w.1)
  linarith

theorem path_near {e : Rat} {l l' : List Pt} (h : List.Forall₂ (Near e) l l') {a a' : Pt} (ha : Near e a a') :
    |pathOf cross a' l' - pathOf cross a l - (cross (a'.1 - a.1, a'.2 - a.2) a -
      cross ((lastPt a' l').1 - (lastPt a l).1, (lastPt a' l').2 - (lastPt a l).2) (lastPt a l))| ≤
      2 * e * pathOf l1 a l + 2 * e ^ 2 * l.length := by
  induction h generalizing a a' with
  | nil => simp [pathOf, lastPt]
  | @cons b b' l l' hb _ ih =>
    have h0 := ih hb
    rw [lastPt_cons, lastPt_cons]
    simp only [pathOf, List.length_cons]
    have e0 : 0 ≤ e := (abs_nonneg _).trans ha.1
    have k1 := cross_near (α := (a'.1 - a.1, a'.2 - a.2)) ha.1 ha.2 (b.1 - a.1, b.2 - a.2)
    have k2 := cross_near (α := (b'.1 - b.1, b'.2 - b.2)) hb.1 hb.2 (b.1 - a.1, b.2 - a.2)
    have k3 := cross_near (α := (a'.1 - a.1, a'.2 - a.2)) ha.1 ha.2 (b'.1 - b.1, b'.2 - b.2)
    have k4 : e * (|(b'.1 - b.1, b'.2 - b.2).1| + |(b'.1 - b.1, b'.2 - b.2).2|) ≤ e * (e + e) :=
      mul_le_mul_of_nonneg_left (add_le_add hb.1 hb.2) e0
    have key : cross a' b' + pathOf cross b' l' - (cross a b + pathOf cross b l) -
        (cross (a'.1 - a.1, a'.2 - a.2) a -
          cross ((lastPt b' l').1 - (lastPt b l).1, (lastPt b' l').2 - (lastPt b l).2) (lastPt b l)) =
        (pathOf cross b' l' - pathOf cross b l - (cross (b'.1 - b.1, b'.2 - b.2) b -
          cross ((lastPt b' l').1 - (lastPt b l).1, (lastPt b' l').2 - (lastPt b l).2) (lastPt b l))) +
        (cross (a'.1 - a.1, a'.2 - a.2) (b.1 - a.1, b.2 - a.2) +
          cross (b'.1 - b.1, b'.2 - b.2) (b.1 - a.1, b.2 - a.2) +
          cross (a'.1 - a.1, a'.2 - a.2) (b'.1 - b.1, b'.2 - b.2)) := by
      generalize cross ((lastPt b' l').1 - (lastPt b l).1, (lastPt b' l').2 - (lastPt b l).2) (lastPt b l) = c
      simp only [cross]
      ring
    rw [key]
    refine (abs_add_le _ _).trans ?_
    have h3 := abs_add_three (cross (a'.1 - a.1, a'.2 - a.2) (b.1 - a.1, b.2 - a.2))
      (cross (b'.1 - b.1, b'.2 - b.2) (b.1 - a.1, b.2 - a.2))
      (cross (a'.1 - a.1, a'.2 - a.2) (b'.1 - b.1, b'.2 - b.2))
    have hl : |(b.1 - a.1, b.2 - a.2).1| + |(b.1 - a.1, b.2 - a.2).2| = l1 a b := rfl
    rw [hl] at k1 k2
    push_cast
    nlinarith

theorem forall₂_last {R : Pt → Pt → Prop} {p p' : List Pt} (h : List.Forall₂ R p p') {z z' : Pt}
    (hz : p.getLast? = some z) (hz' : p'.getLast? = some z') : R z z' := by
  have := List.forall₂_iff_get.mp h
  have hl := this.1
  have hpos : 0 < p.length := by
    cases p with
    | nil => simp at hz
    | cons _ _ => simp
  have := this.2 (p.length - 1) (by omega) (by omega)
  rw [List.getLast?_eq_getElem?, List.getElem?_eq_getElem (by omega)] at hz hz'
  simp only [Option.some.injEq] at hz hz'
  simp only [List.get_eq_getElem] at this
  rw [hz] at this
  simp only [hl] at this
  rwa [hz'] at this

/-- If every corner moves by at most `e` in each coordinate, the area changes by at most `e` times the length of the
outline, and `e²` for every corner. -/
theorem area_near {e : Rat} {p p' : List Pt} (h : List.Forall₂ (Near e) p p') :
    |signedArea p' - signedArea p| ≤ e * outlineLength p + e ^ 2 * p.length := by
  rw [signedArea_loop, signedArea_loop, outlineLength_loop]
  cases hz : p.getLast? with
  | none =>
    rw [List.getLast?_eq_none_iff] at hz
    subst hz
    cases h
    simp [loopOf]
  | some z =>
    cases hz' : p'.getLast? with
    | none =>
      rw [List.getLast?_eq_none_iff] at hz'
      subst hz'
      cases h
      simp at hz
    | some z' =>
      have hnear : Near e z z' := forall₂_last h hz hz'
      have k := path_near h hnear
      unfold loopOf
      rw [hz, hz']
      simp only
      rw [show lastPt z p = z by simp [lastPt, hz], show lastPt z' p' = z' by simp [lastPt, hz']] at k
      simp only [sub_self, sub_zero] at k
      rw [← sub_div, abs_div, abs_two, div_le_iff₀ (by norm_num)]
      linarith

/-! ## The clipper that rounds -/

theorem near_round (l : List Pt) :
    List.Forall₂ (Near (1 / 2)) l (ofInts (l.map fun v => (round v.1, round v.2))) := by
  unfold ofInts
  rw [List.map_map, List.forall₂_map_right_iff, List.forall₂_same]
  intro v _
  constructor
  · rw [abs_sub_comm]; exact abs_sub_round v.1
  · rw [abs_sub_comm]; exact abs_sub_round v.2

theorem pathOf_reverse {g : Pt → Pt → Rat} (hg : ∀ a b, g a b = g b a) (l : List Pt) (a : Pt) :
    ∀ z, l.getLast? = some z → pathOf g z (l.reverse.tail ++ [a]) = pathOf g a l := by
  induction l generalizing a with
  | nil => simp
  | cons b l ih =>
    intro z hz
    cases l with
    | nil =>
      simp at hz
      subst hz
      simp [pathOf, hg]
    | cons c l =>
      have hz' : (c :: l).getLast? = some z := by simpa [List.getLast?_cons] using hz
      have := ih b z hz'
      have e : (b :: c :: l).reverse.tail ++ [a] = ((c :: l).reverse.tail ++ [b]) ++ [a] := by
        rw [List.reverse_cons, List.tail_append_of_ne_nil (by simp)]
      rw [e, pathOf_append, this]
      simp [pathOf, hg b a, add_comm]

/-- Seen from the other side, the outline is as long. -/
theorem loopOf_reverse {g : Pt → Pt → Rat} (hg : ∀ a b, g a b = g b a) (p : List Pt) :
    loopOf g p.reverse = loopOf g p := by
  cases p with
  | nil => rfl
  | cons a l =>
    unfold loopOf
    rw [List.getLast?_reverse, List.head?_cons]
    simp only
    have hz := List.getLast?_eq_some_getLast (l := a :: l) (by simp)
    rw [hz]
    simp only
    have h := pathOf_reverse hg (a :: l) ((a :: l).getLast (by simp)) _ hz
    rw [← h]
    have hr : (a :: l).reverse = (a :: l).getLast (by simp) :: (a :: l).reverse.tail := by
      have h1 : (a :: l).reverse.head? = some ((a :: l).getLast (by simp)) := by
        rw [List.head?_reverse, hz]
      cases hx : (a :: l).reverse with
      | nil => rw [hx] at h1; simp at h1
      | cons b m => rw [hx] at h1; simp at h1; rw [h1]; rfl
    conv_lhs => rw [hr]
    have key : ∀ (m : List Pt) (z a : Pt), m.getLast? = some a ∨ (m = [] ∧ a = z) →
        pathOf g a (z :: m) = pathOf g z (m ++ [z]) := by
      intro m z a h
      rw [pathOf_append]
      rcases h with h | ⟨rfl, rfl⟩
      · have : (z :: m).getLast (by simp) = a := by
          have h2 : (z :: m).getLast? = some a := by
            cases m with
            | nil => simp at h
            | cons c m => simpa [List.getLast?_cons] using h
          exact List.getLast_eq_iff_getLast?_eq_some (by simp) |>.mpr h2
        rw [this]
        simp [pathOf, add_comm]
      · simp [pathOf]
    apply key
    cases l with
    | nil => exact Or.inr ⟨rfl, rfl⟩
    | cons b l =>
      left
      have : (a :: b :: l).reverse.getLast? = some a := by rw [List.getLast?_reverse]; rfl
      rw [List.reverse_cons, List.tail_append_of_ne_nil (by simp)]
      simp

theorem outlineLength_counterclockwise (p : List Pt) : outlineLength (counterclockwise p) = outlineLength p := by
  unfold counterclockwise
  split
  · rw [outlineLength_loop, outlineLength_loop, loopOf_reverse l1_comm]
  · rfl

theorem counterclockwise_length (p : List Pt) : (counterclockwise p).length = p.length := by
  unfold counterclockwise
  split <;> simp

/-- Rounding the corners of the intersection costs at most half the length of the outline, and four for every
corner. -/
theorem roundClip_within : ClipsWithin roundClip fun n ℓ => ℓ / 2 + 4 * n := by
  intro p x y X Y hc ha hx hy
  obtain ⟨h1, -⟩ := counterclockwise_ok hc ha
  obtain ⟨Q, hQ⟩ := cutRect_around (segClosed_inside _) (convex_around h1) x y X Y
  have hpos := around_area hQ
  have hl : outlineLength (cutRect (counterclockwise (ofInts p)) x y X Y) ≤ outlineLength (ofInts p) := by
    rw [← outlineLength_counterclockwise (ofInts p), outlineLength_loop, outlineLength_loop]
    exact cutRect_length _ _ _ _ _
  have hn : ((cutRect (counterclockwise (ofInts p)) x y X Y).length : Rat) ≤ 16 * p.length := by
    have := cutRect_count (counterclockwise (ofInts p)) x y X Y
    rw [counterclockwise_length, show (ofInts p).length = p.length by simp [ofInts]] at this
    exact_mod_cast this
  have h0 : 0 ≤ outlineLength (ofInts p) := by
    unfold outlineLength
    apply List.sum_nonneg
    intro v hv
    obtain ⟨k, -, rfl⟩ := List.mem_map.mp hv
    positivity
  have e : roundClip p (intRect x y X Y) =
      if signedArea (cutRect (counterclockwise (ofInts p)) x y X Y) = 0 then []
      else [(cutRect (counterclockwise (ofInts p)) x y X Y).map fun v => (round v.1, round v.2)] := by
    unfold roundClip
    show (if _ then _ else _ : List (List Pt)).map _ = _
    split <;> rfl
  rw [e]
  split
  · rename_i hz
    rw [hz]
    simp only [List.map_nil, List.sum_nil, sub_zero, abs_zero]
    positivity
  · simp only [List.map_cons, List.map_nil, List.sum_cons, List.sum_nil, add_zero]
    have h2 := area_near (near_round (cutRect (counterclockwise (ofInts p)) x y X Y))
    have h3 := abs_abs_sub_abs_le (signedArea (ofInts ((cutRect (counterclockwise (ofInts p)) x y X Y).map
      fun v => (round v.1, round v.2)))) (signedArea (cutRect (counterclockwise (ofInts p)) x y X Y))
    rw [abs_of_nonneg hpos] at h3
    nlinarith

end Verif.Proofs
