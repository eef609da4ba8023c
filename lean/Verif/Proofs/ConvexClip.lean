import Verif.Spec.ConvexClip
import Verif.Proofs.Area
import Mathlib.Tactic.FieldSimp
import Mathlib.Tactic.Positivity
import Mathlib.Tactic.LinearCombination

/-!
# Cutting polygons by lines
-/

namespace Verif.Proofs

open Verif.Py Verif.Spec

/-! ## Sums along paths -/

/-- Sum of `g` over the steps of a path that starts in the given point. -/
def pathOf (g : Pt → Pt → Rat) : Pt → List Pt → Rat
  | _, [] => 0
  | a, b :: l => g a b + pathOf g b l

/-- Sum of `g` over the edges of a polygon, beginning with the closing one. -/
def loopOf (g : Pt → Pt → Rat) (p : List Pt) : Rat :=
  match p.getLast? with
  | none => 0
  | some z => pathOf g z p

theorem pathOf_append (g : Pt → Pt → Rat) (a : Pt) (l r : List Pt) :
    pathOf g a (l ++ r) = pathOf g a l + pathOf g ((a :: l).getLast (by simp)) r := by
  induction l generalizing a with
  | nil => simp [pathOf]
  | cons b l ih =>
    simp only [List.cons_append, pathOf]
    rw [ih, List.getLast_cons (List.cons_ne_nil b l)]
    ring

theorem pathOf_congr {g g' : Pt → Pt → Rat} (h : ∀ a b, g a b = g' a b) (a : Pt) (l : List Pt) :
    pathOf g a l = pathOf g' a l := by
  induction l generalizing a with
  | nil => rfl
  | cons b l ih => simp only [pathOf]; rw [h, ih]

theorem loopOf_congr {g g' : Pt → Pt → Rat} (h : ∀ a b, g a b = g' a b) (p : List Pt) :
    loopOf g p = loopOf g' p := by
  unfold loopOf
  split
  · rfl
  · exact pathOf_congr h _ _

theorem pathOf_add (g g' : Pt → Pt → Rat) (a : Pt) (l : List Pt) :
    pathOf (fun p q => g p q + g' p q) a l = pathOf g a l + pathOf g' a l := by
  induction l generalizing a with
  | nil => simp [pathOf]
  | cons b l ih => simp only [pathOf]; rw [ih]; ring

theorem loopOf_add (g g' : Pt → Pt → Rat) (p : List Pt) :
    loopOf (fun a b => g a b + g' a b) p = loopOf g p + loopOf g' p := by
  unfold loopOf
  split
  · simp
  · exact pathOf_add _ _ _ _

theorem pathOf_cross (a : Pt) (l : List Pt) : pathOf cross a l = pathSum (a :: l) := by
  induction l generalizing a with
  | nil => rfl
  | cons b l ih => simp only [pathOf, pathSum]; rw [ih]

theorem signedArea_loop (p : List Pt) : signedArea p = loopOf cross p / 2 := by
  cases p with
  | nil => simp [signedArea, loopOf]
  | cons a l =>
    rw [signedArea_cons]
    unfold loopOf
    rw [List.getLast?_eq_some_getLast (by simp)]
    simp only [pathOf]
    rw [pathOf_cross]
    unfold lastOf
    ring

theorem pathOf_telescope (φ : Pt → Rat) (a : Pt) (l : List Pt) :
    pathOf (fun p q => φ q - φ p) a l = φ ((a :: l).getLast (by simp)) - φ a := by
  induction l generalizing a with
  | nil => simp [pathOf]
  | cons b l ih =>
    simp only [pathOf]
    rw [ih, List.getLast_cons (List.cons_ne_nil b l)]
    ring

theorem loopOf_telescope (φ : Pt → Rat) (p : List Pt) : loopOf (fun a b => φ b - φ a) p = 0 := by
  unfold loopOf
  split
  · rfl
  · rename_i z hz
    rw [pathOf_telescope]
    cases p with
    | nil => simp at hz
    | cons b l =>
      rw [List.getLast_cons (by simp)]
      rw [List.getLast?_eq_some_getLast (by simp)] at hz
      rw [Option.some.inj hz]
      ring

/-- Cross product seen from `o`. -/
def crossAt (o p q : Pt) : Rat := cross (p.1 - o.1, p.2 - o.2) (q.1 - o.1, q.2 - o.2)

/-- The area does not depend on the point from which it is measured. -/
theorem loopOf_crossAt (o : Pt) (p : List Pt) : loopOf (crossAt o) p = loopOf cross p := by
  have h : ∀ a b, crossAt o a b = cross a b + ((fun q => cross q o) b - (fun q => cross q o) a) := by
    intro a b; simp only [crossAt, cross]; ring
  rw [loopOf_congr h, loopOf_add, loopOf_telescope, add_zero]

/-! ## Cutting -/

/-- Affine functions. -/
def Affine (s : Pt → Rat) : Prop :=
  ∀ (a b : Pt) (t : Rat), s (a.1 + t * (b.1 - a.1), a.2 + t * (b.2 - a.2)) = s a + t * (s b - s a)

theorem affine_leftOf (c : Rat) : Affine (leftOf c) := by intro a b t; simp only [leftOf]; ring
theorem affine_rightOf (c : Rat) : Affine (rightOf c) := by intro a b t; simp only [rightOf]; ring
theorem affine_below (c : Rat) : Affine (below c) := by intro a b t; simp only [below]; ring
theorem affine_above (c : Rat) : Affine (above c) := by intro a b t; simp only [above]; ring

theorem meet_zero {s : Pt → Rat} (hs : Affine s) {a b : Pt} (h : s a ≠ s b) : s (meet a b (s a) (s b)) = 0 := by
  unfold meet
  rw [hs]
  have : s a - s b ≠ 0 := sub_ne_zero.mpr h
  field_simp
  ring

/-- The value of `g` on the part of a step where `s` is not negative. -/
def onCut (s : Pt → Rat) (g : Pt → Pt → Rat) (a b : Pt) : Rat :=
  if 0 ≤ s a then (if 0 ≤ s b then g a b else g a (meet a b (s a) (s b)))
  else if 0 ≤ s b then g (meet a b (s a) (s b)) b else 0

theorem cutPath_sum {s : Pt → Rat} (hs : Affine s) {g : Pt → Pt → Rat}
    (hg : ∀ p q, s p = 0 → s q = 0 → g p q = 0) (l : List Pt) (a L : Pt)
    (h1 : 0 ≤ s a → L = a) (h2 : s a < 0 → s L = 0) :
    pathOf g L (cutPath s a l) = pathOf (onCut s g) a l := by
  induction l generalizing a L with
  | nil => rfl
  | cons b l ih =>
    simp only [cutPath, cutStep, pathOf, onCut]
    by_cases hb : 0 ≤ s b
    · by_cases ha : 0 ≤ s a
      · rw [if_pos hb, if_pos ha, if_pos ha, if_pos hb, h1 ha]
        simp only [List.singleton_append, pathOf]
        rw [ih b b (fun _ => rfl) (fun h => absurd hb (not_le.mpr h))]
      · rw [if_pos hb, if_neg ha, if_neg ha, if_pos hb]
        simp only [List.cons_append, List.nil_append, pathOf]
        have hne : s a ≠ s b := fun h => ha (h ▸ hb)
        rw [ih b b (fun _ => rfl) (fun h => absurd hb (not_le.mpr h)),
          hg L _ (h2 (not_le.mp ha)) (meet_zero hs hne), zero_add]
    · by_cases ha : 0 ≤ s a
      · rw [if_neg hb, if_pos ha, if_pos ha, if_neg hb, h1 ha]
        simp only [List.singleton_append, pathOf]
        have hne : s a ≠ s b := fun h => hb (h ▸ ha)
        rw [ih b _ (fun h => absurd h hb) (fun _ => meet_zero hs hne)]
      · rw [if_neg hb, if_neg ha, if_neg ha, if_neg hb, List.nil_append, zero_add]
        exact ih b L (fun h => absurd h hb) (fun _ => h2 (not_le.mp ha))

/-- What is known about the last point that was added, at corner `z`. -/
def LastOk (s : Pt → Rat) (K : Pt → Pt → Prop) (z : Pt) : Option Pt → Prop
  | none => s z < 0
  | some L => (0 ≤ s z → L = z) ∧
    (s z < 0 → ∃ a b, K a b ∧ 0 ≤ s a ∧ s b < 0 ∧ L = meet a b (s a) (s b))

theorem cutPath_last (s : Pt → Rat) (K : Pt → Pt → Prop) (l : List Pt) (a : Pt) (L : Option Pt)
    (hK : List.IsChain K (a :: l)) (h : LastOk s K a L) :
    LastOk s K ((a :: l).getLast (by simp)) ((cutPath s a l).getLast?.or L) := by
  induction l generalizing a L with
  | nil => simpa [cutPath] using h
  | cons b l ih =>
    rw [List.getLast_cons (by simp)]
    rw [List.isChain_cons_cons] at hK
    have key : LastOk s K b ((cutStep s a b).getLast?.or L) := by
      unfold cutStep
      by_cases hb : 0 ≤ s b
      · have hok : LastOk s K b (some b) := ⟨fun _ => rfl, fun h => absurd hb (not_le.mpr h)⟩
        rw [if_pos hb]
        split
        · simpa using hok
        · simpa using hok
      · rw [if_neg hb]
        split
        · rename_i ha
          simp only [List.getLast?_singleton, Option.some_or]
          exact ⟨fun h => absurd h hb, fun h => ⟨a, b, hK.1, ha, h, rfl⟩⟩
        · rename_i ha
          simp only [List.getLast?_nil, Option.none_or]
          cases L with
          | none => exact not_le.mp hb
          | some L => exact ⟨fun h => absurd h hb, fun _ => h.2 (not_le.mp ha)⟩
    have := ih b _ hK.2 key
    simp only [cutPath]
    rw [List.getLast?_append]
    rwa [← Option.or_assoc] at this

theorem lastOk_start (s : Pt → Rat) (K : Pt → Pt → Prop) (a : Pt) :
    ∃ L, LastOk s K a L ∧ (0 ≤ s a → L = some a) := by
  by_cases h : 0 ≤ s a
  · exact ⟨some a, ⟨fun _ => rfl, fun h' => absurd h (not_le.mpr h')⟩, fun _ => rfl⟩
  · exact ⟨none, not_le.mp h, fun h' => absurd h' h⟩

theorem cutPath_nil {s : Pt → Rat} {g : Pt → Pt → Rat} (l : List Pt) (a : Pt) (ha : s a < 0)
    (h : cutPath s a l = []) : pathOf (onCut s g) a l = 0 := by
  induction l generalizing a with
  | nil => rfl
  | cons b l ih =>
    simp only [cutPath, List.append_eq_nil_iff] at h
    have hb : s b < 0 := by
      by_contra hb
      have := h.1
      unfold cutStep at this
      rw [if_pos (not_lt.mp hb)] at this
      split at this <;> simp at this
    simp only [pathOf, onCut]
    rw [if_neg (not_le.mpr ha), if_neg (not_le.mpr hb), ih b hb h.2, add_zero]

theorem isChain_true (l : List Pt) : List.IsChain (fun _ _ : Pt => True) l := by
  induction l with
  | nil => exact List.IsChain.nil
  | cons a l ih =>
    cases l with
    | nil => exact List.IsChain.singleton _
    | cons b l => exact List.isChain_cons_cons.mpr ⟨trivial, ih⟩

/-- The last point of the part, seen from the last corner of the polygon. -/
theorem cut_last {s : Pt → Rat} {K : Pt → Pt → Prop} {p : List Pt} {z : Pt} (hz : p.getLast? = some z)
    (hK : List.IsChain K (z :: p)) : LastOk s K z (cut s p).getLast? ∨ (cut s p = [] ∧ s z < 0) := by
  unfold cut
  rw [hz]
  simp only
  obtain ⟨L, hL, -⟩ := lastOk_start s K z
  have h := cutPath_last s K p z L hK hL
  have hl : (z :: p).getLast (by simp) = z := by
    cases p with
    | nil => rfl
    | cons b l =>
      rw [List.getLast_cons (by simp)]
      rw [List.getLast?_eq_some_getLast (by simp)] at hz
      exact Option.some.inj hz
  rw [hl] at h
  cases hc : (cutPath s z p).getLast? with
  | some w => rw [hc] at h; exact Or.inl h
  | none =>
    rw [List.getLast?_eq_none_iff] at hc
    right
    refine ⟨hc, ?_⟩
    by_contra hn
    -- the last corner is inside, so something is added
    obtain ⟨l, rfl⟩ := List.getLast?_eq_some_iff.mp hz
    have hin := not_lt.mp hn
    have : ∀ (l : List Pt) (a : Pt), cutPath s a (l ++ [z]) ≠ [] := by
      intro l
      induction l with
      | nil =>
        intro a
        simp only [List.nil_append, cutPath, cutStep]
        rw [if_pos hin]
        split <;> simp
      | cons b l ih =>
        intro a
        simp only [List.cons_append, cutPath]
        intro h0
        exact ih b (List.append_eq_nil_iff.mp h0).2
    exact this l z hc

/-- Sums over the edges of the part of a polygon. -/
theorem cut_sum {s : Pt → Rat} (hs : Affine s) {g : Pt → Pt → Rat}
    (hg : ∀ p q, s p = 0 → s q = 0 → g p q = 0) (p : List Pt) :
    loopOf g (cut s p) = loopOf (onCut s g) p := by
  cases hz : p.getLast? with
  | none =>
    have : p = [] := List.getLast?_eq_none_iff.mp hz
    subst this
    rfl
  | some z =>
    have e1 : cut s p = cutPath s z p := by unfold cut; rw [hz]
    have e2 : loopOf (onCut s g) p = pathOf (onCut s g) z p := by unfold loopOf; rw [hz]
    rw [e2]
    rcases cut_last (s := s) hz (isChain_true _) with h | ⟨h, hneg⟩
    · cases hL : (cut s p).getLast? with
      | none =>
        rw [hL] at h
        rw [List.getLast?_eq_none_iff] at hL
        rw [hL]
        exact (cutPath_nil p z h (e1 ▸ hL)).symm
      | some L =>
        rw [hL] at h
        unfold loopOf
        rw [hL]
        simp only
        rw [e1]
        refine cutPath_sum hs hg p z L h.1 ?_
        intro hneg
        obtain ⟨a, b, -, ha, hb, rfl⟩ := h.2 hneg
        exact meet_zero hs (fun h => absurd ha (by rw [h]; exact not_le.mpr hb))
    · rw [h]
      exact (cutPath_nil p z hneg (e1 ▸ h)).symm

/-- A line: an affine function and a point on it from which area on the line vanishes. -/
structure OnLine (s : Pt → Rat) (o : Pt) : Prop where
  affine : Affine s
  flat : ∀ p q, s p = 0 → s q = 0 → crossAt o p q = 0

theorem line_x (c : Rat) : OnLine (leftOf c) (c, 0) ∧ OnLine (rightOf c) (c, 0) := by
  refine ⟨⟨affine_leftOf c, ?_⟩, ⟨affine_rightOf c, ?_⟩⟩
  · intro p q h1 h2
    simp only [leftOf] at h1 h2
    simp only [crossAt, cross]
    rw [show p.1 - c = 0 by linarith, show q.1 - c = 0 by linarith]
    ring
  · intro p q h1 h2
    simp only [rightOf] at h1 h2
    simp only [crossAt, cross]
    rw [h1, h2]
    ring

theorem line_y (c : Rat) : OnLine (below c) (0, c) ∧ OnLine (above c) (0, c) := by
  refine ⟨⟨affine_below c, ?_⟩, ⟨affine_above c, ?_⟩⟩
  · intro p q h1 h2
    simp only [below] at h1 h2
    simp only [crossAt, cross]
    rw [show p.2 - c = 0 by linarith, show q.2 - c = 0 by linarith]
    ring
  · intro p q h1 h2
    simp only [above] at h1 h2
    simp only [crossAt, cross]
    rw [h1, h2]
    ring

/-- The area of a part. -/
theorem cut_area {s : Pt → Rat} {o : Pt} (h : OnLine s o) (p : List Pt) :
    signedArea (cut s p) = loopOf (onCut s (crossAt o)) p / 2 := by
  rw [signedArea_loop, ← loopOf_crossAt o, cut_sum h.affine h.flat]

/-- Along an edge, area is proportional to length. -/
theorem crossAt_part (o a b : Pt) (t t' : Rat) :
    crossAt o (a.1 + t * (b.1 - a.1), a.2 + t * (b.2 - a.2)) (a.1 + t' * (b.1 - a.1), a.2 + t' * (b.2 - a.2)) =
      (t' - t) * crossAt o a b := by
  simp only [crossAt, cross]; ring

theorem crossAt_meet_left (o a b : Pt) (α β : Rat) :
    crossAt o a (meet a b α β) = α / (α - β) * crossAt o a b := by
  have := crossAt_part o a b 0 (α / (α - β))
  simpa [meet] using this

theorem crossAt_meet_right (o a b : Pt) {α β : Rat} (h : α ≠ β) :
    crossAt o (meet a b α β) b = β / (β - α) * crossAt o a b := by
  have h0 : α - β ≠ 0 := sub_ne_zero.mpr h
  have h1 : β - α ≠ 0 := sub_ne_zero.mpr (Ne.symm h)
  have := crossAt_part o a b (α / (α - β)) 1
  simp only [one_mul, add_sub_cancel] at this
  unfold meet
  rw [this]
  congr 1
  field_simp
  ring

/-- The part of an edge on which a function with values `α` and `β` at its ends is not negative. -/
def shareOf (α β : Rat) : Rat :=
  if 0 ≤ α then (if 0 ≤ β then 1 else α / (α - β)) else if 0 ≤ β then β / (β - α) else 0

theorem onCut_crossAt (s : Pt → Rat) (o a b : Pt) :
    onCut s (crossAt o) a b = shareOf (s a) (s b) * crossAt o a b := by
  unfold onCut shareOf
  split
  · split
    · ring
    · exact crossAt_meet_left o a b _ _
  · split
    · rename_i h1 h2
      exact crossAt_meet_right o a b fun h => h1 (h ▸ h2)
    · ring

/-- The two parts of a polygon make up its area. -/
theorem cut_both {s : Pt → Rat} {o : Pt} (h : OnLine s o) (h' : OnLine (fun p => - s p) o) (p : List Pt) :
    signedArea (cut s p) + signedArea (cut (fun p => - s p) p) = signedArea p := by
  rw [cut_area h, cut_area h', ← add_div, ← loopOf_add, signedArea_loop p, ← loopOf_crossAt o]
  congr 1
  apply loopOf_congr
  intro a b
  rw [onCut_crossAt, onCut_crossAt, ← add_mul]
  by_cases h0 : s a = 0 ∧ s b = 0
  · rw [h.flat a b h0.1 h0.2, mul_zero]
  · have : shareOf (s a) (s b) + shareOf (-s a) (-s b) = 1 := by
      unfold shareOf
      rcases lt_trichotomy (s a) 0 with ha | ha | ha <;> rcases lt_trichotomy (s b) 0 with hb | hb | hb
      · rw [if_neg (by linarith), if_neg (by linarith), if_pos (by linarith), if_pos (by linarith)]; ring
      · rw [if_neg (by linarith), if_pos (by linarith), if_pos (by linarith), if_pos (by linarith), hb]; simp
      · rw [if_neg (by linarith), if_pos (by linarith), if_pos (by linarith), if_neg (by linarith)]
        have h1 : s b - s a ≠ 0 := by intro h; linarith
        have h2 : -s a - -s b ≠ 0 := by intro h; linarith
        have e : -s a - -s b = s b - s a := by ring
        rw [e]
        field_simp
        ring
      · rw [if_pos (by linarith), if_neg (by linarith), if_pos (by linarith), if_pos (by linarith), ha]; simp
      · exact absurd ⟨ha, hb⟩ h0
      · rw [if_pos (by linarith), if_pos (by linarith), if_pos (by linarith), if_neg (by linarith), ha]; simp
      · rw [if_pos (by linarith), if_neg (by linarith), if_neg (by linarith), if_pos (by linarith)]
        have h1 : s a - s b ≠ 0 := by intro h; linarith
        have e : -s b - -s a = s a - s b := by ring
        rw [e]
        field_simp
        ring
      · rw [if_pos (by linarith), if_pos (by linarith), if_neg (by linarith), if_pos (by linarith), hb]
        have h1 : s a ≠ 0 := ne_of_gt ha
        simp
      · rw [if_pos (by linarith), if_pos (by linarith), if_neg (by linarith), if_neg (by linarith)]; ring
    rw [this, one_mul]

/-! ## Cutting twice -/

theorem onCut_out {s : Pt → Rat} {g : Pt → Pt → Rat} {a b : Pt} (ha : s a < 0) (hb : s b < 0) :
    onCut s g a b = 0 := by
  unfold onCut
  rw [if_neg (not_le.mpr ha), if_neg (not_le.mpr hb)]

/-- Cutting by a parallel line farther out first makes no difference to the area. -/
theorem cut_parallel {s s' : Pt → Rat} {o : Pt} (h : OnLine s o) (h' : Affine s') {δ : Rat} (hδ : 0 < δ)
    (he : ∀ p, s' p = s p + δ) (p : List Pt) : signedArea (cut s (cut s' p)) = signedArea (cut s p) := by
  rw [cut_area h, cut_area h, cut_sum h' (by
    intro p q hp hq
    rw [he] at hp hq
    exact onCut_out (by linarith) (by linarith))]
  congr 1
  apply loopOf_congr
  intro a b
  by_cases ha : 0 ≤ s' a
  · by_cases hb : 0 ≤ s' b
    · rw [onCut, if_pos ha, if_pos hb]
    · rw [onCut, if_pos ha, if_neg hb]
      have hne : s' a ≠ s' b := fun h => hb (h ▸ ha)
      have hm := meet_zero h' hne
      rw [onCut_crossAt, onCut_crossAt, crossAt_meet_left, ← mul_assoc]
      congr 1
      rw [he] at hm
      have hsb : s b < 0 := by have := not_le.mp hb; rw [he] at this; linarith
      have e1 : s (meet a b (s' a) (s' b)) = -δ := by linarith
      rw [e1]
      unfold shareOf
      rw [if_neg (not_le.mpr hsb), if_neg (not_le.mpr hsb), if_neg (by linarith : ¬ 0 ≤ -δ),
        if_neg (by linarith : ¬ 0 ≤ -δ)]
      by_cases hsa : 0 ≤ s a
      · rw [if_pos hsa, if_pos hsa, he, he]
        have n1 : s a - -δ ≠ 0 := by intro h; linarith
        have n2 : s a - s b ≠ 0 := by intro h; linarith
        have n3 : s a + δ - (s b + δ) ≠ 0 := by intro h; apply n2; linarith
        field_simp
        ring
      · rw [if_neg hsa, if_neg hsa, zero_mul]
  · have hsa : s a < 0 := by have := not_le.mp ha; rw [he] at this; linarith
    by_cases hb : 0 ≤ s' b
    · rw [onCut, if_neg ha, if_pos hb]
      have hne : s' a ≠ s' b := fun h => ha (h ▸ hb)
      have hm := meet_zero h' hne
      rw [onCut_crossAt, onCut_crossAt, crossAt_meet_right _ _ _ hne, ← mul_assoc]
      congr 1
      rw [he] at hm
      have e1 : s (meet a b (s' a) (s' b)) = -δ := by linarith
      rw [e1]
      unfold shareOf
      rw [if_neg (not_le.mpr hsa), if_neg (by linarith : ¬ 0 ≤ -δ)]
      by_cases hsb : 0 ≤ s b
      · rw [if_pos hsb, if_pos hsb, he, he]
        have n1 : s b - -δ ≠ 0 := by intro h; linarith
        have n2 : s b - s a ≠ 0 := by intro h; linarith
        have n3 : s b + δ - (s a + δ) ≠ 0 := by intro h; apply n2; linarith
        field_simp
        ring
      · rw [if_neg hsb, if_neg hsb, zero_mul]
    · have hsb : s b < 0 := by have := not_le.mp hb; rw [he] at this; linarith
      rw [onCut_out (not_le.mp ha) (not_le.mp hb), onCut_out hsa hsb]

/-- Nothing is cut from a polygon on the right side. -/
theorem cut_inside {s : Pt → Rat} {p : List Pt} (h : ∀ v ∈ p, 0 ≤ s v) : cut s p = p := by
  unfold cut
  split
  · rename_i hz; exact (List.getLast?_eq_none_iff.mp hz).symm
  · rename_i z hz
    have hz' : 0 ≤ s z := h z (List.mem_of_getLast? hz)
    clear hz
    induction p generalizing z with
    | nil => rfl
    | cons b l ih =>
      simp only [cutPath, cutStep]
      rw [if_pos (h b List.mem_cons_self), if_pos hz', List.singleton_append,
        ih (fun v hv => h v (List.mem_cons_of_mem _ hv)) b (h b List.mem_cons_self)]

/-- The lines of one of the two directions of a grid. -/
structure Lines (hi lo : Rat → Pt → Rat) (o : Rat → Pt) : Prop where
  hi_line : ∀ c, OnLine (hi c) (o c)
  lo_line : ∀ c, OnLine (lo c) (o c)
  opposite : ∀ c, lo c = fun p => - hi c p
  parallel : ∀ c c' p, hi c' p = hi c p + (c' - c)

theorem lines_x : Lines leftOf rightOf (fun c => (c, 0)) :=
  ⟨fun c => (line_x c).1, fun c => (line_x c).2, fun c => by funext p; simp only [leftOf, rightOf]; ring,
    fun c c' p => by simp only [leftOf]; ring⟩

theorem lines_y : Lines below above (fun c => (0, c)) :=
  ⟨fun c => (line_y c).1, fun c => (line_y c).2, fun c => by funext p; simp only [below, above]; ring,
    fun c c' p => by simp only [below]; ring⟩

/-- The strip between two lines. -/
theorem strip_area {hi lo : Rat → Pt → Rat} {o : Rat → Pt} (h : Lines hi lo o) {c c' : Rat} (hc : c < c')
    (p : List Pt) :
    signedArea (cut (lo c) (cut (hi c') p)) = signedArea (cut (hi c') p) - signedArea (cut (hi c) p) := by
  have h1 := cut_both (h.hi_line c) (by rw [← h.opposite]; exact h.lo_line c) (cut (hi c') p)
  rw [← h.opposite, cut_parallel (h.hi_line c) (h.hi_line c').affine (sub_pos.mpr hc) (h.parallel c c')] at h1
  linarith

theorem strips_sum {hi lo : Rat → Pt → Rat} {o : Rat → Pt} (h : Lines hi lo o) {e : List Rat}
    (he : ∀ k, k + 1 < e.length → e.getD k 0 < e.getD (k + 1) 0) (p : List Pt) (n : Nat) (hn : n < e.length) :
    ((List.range n).map fun k =>
      signedArea (cut (lo (e.getD k 0)) (cut (hi (e.getD (k + 1) 0)) p))).sum =
      signedArea (cut (hi (e.getD n 0)) p) - signedArea (cut (hi (e.getD 0 0)) p) := by
  induction n with
  | zero => simp
  | succ n ih =>
    rw [List.range_succ, List.map_append, List.sum_append, ih (by omega)]
    simp only [List.map_cons, List.map_nil, List.sum_cons, List.sum_nil, add_zero]
    rw [strip_area h (he n hn)]
    ring

/-- The strips make up the area of a polygon that lies between the first line and the last one. -/
theorem strips_all {hi lo : Rat → Pt → Rat} {o : Rat → Pt} (h : Lines hi lo o) {e : List Rat}
    (he : ∀ k, k + 1 < e.length → e.getD k 0 < e.getD (k + 1) 0) {p : List Pt} (h0 : 0 < e.length)
    (hlo : ∀ v ∈ p, 0 ≤ lo (e.getD 0 0) v) (hhi : ∀ v ∈ p, 0 ≤ hi (e.getD (e.length - 1) 0) v) :
    ((List.range (e.length - 1)).map fun k =>
      signedArea (cut (lo (e.getD k 0)) (cut (hi (e.getD (k + 1) 0)) p))).sum = signedArea p := by
  rw [strips_sum h he p _ (by omega), cut_inside hhi]
  have h1 := cut_both (h.hi_line (e.getD 0 0)) (by rw [← h.opposite]; exact h.lo_line _) p
  rw [← h.opposite, cut_inside hlo] at h1
  linarith

/-! ## Convex polygons -/

/-- Closed under taking segments. -/
def SegClosed (Q : Pt → Prop) : Prop :=
  ∀ a b : Pt, ∀ t : Rat, 0 ≤ t → t ≤ 1 → Q a → Q b → Q (a.1 + t * (b.1 - a.1), a.2 + t * (b.2 - a.2))

theorem segClosed_side {Q : Pt → Prop} (hQ : SegClosed Q) {s : Pt → Rat} (hs : Affine s) :
    SegClosed fun r => Q r ∧ 0 ≤ s r := by
  intro a b t h0 h1 ha hb
  refine ⟨hQ a b t h0 h1 ha.1 hb.1, ?_⟩
  rw [hs]
  have := ha.2
  have := hb.2
  nlinarith [mul_nonneg h0 hb.2, mul_nonneg (sub_nonneg.mpr h1) ha.2]

theorem meet_between {Q : Pt → Prop} (hQ : SegClosed Q) {a b : Pt} (ha : Q a) (hb : Q b) {α β : Rat}
    (h : (0 ≤ α ∧ β < 0) ∨ (α < 0 ∧ 0 ≤ β)) : Q (meet a b α β) := by
  unfold meet
  have hn : α - β ≠ 0 := by intro h'; rcases h with h | h <;> linarith [h.1, h.2]
  refine hQ a b _ ?_ ?_ ha hb
  · rcases h with h | h
    · exact div_nonneg h.1 (by linarith [h.1, h.2])
    · exact div_nonneg_of_nonpos (le_of_lt h.1) (by linarith [h.1, h.2])
  · rcases h with h | h
    · rw [div_le_one (by linarith [h.1, h.2])]; linarith [h.2]
    · rw [div_le_one_of_neg (by linarith [h.1, h.2])]; linarith [h.2]

/-- Corners of a part are points of the polygon on the right side. -/
theorem cut_mem {Q : Pt → Prop} (hQ : SegClosed Q) {s : Pt → Rat} (hs : Affine s) {p : List Pt}
    (h : ∀ v ∈ p, Q v) : ∀ v ∈ cut s p, Q v ∧ 0 ≤ s v := by
  have key : ∀ (l : List Pt) (a : Pt), Q a → (∀ v ∈ l, Q v) → ∀ v ∈ cutPath s a l, Q v ∧ 0 ≤ s v := by
    intro l
    induction l with
    | nil => intro a _ _ v hv; exact absurd hv (List.not_mem_nil)
    | cons b l ih =>
      intro a ha hl v hv
      have hb := hl b List.mem_cons_self
      simp only [cutPath, List.mem_append] at hv
      rcases hv with hv | hv
      · have hm : (s a ≠ s b) → s (meet a b (s a) (s b)) = 0 := fun h => meet_zero hs h
        unfold cutStep at hv
        split at hv
        · rename_i hsb
          split at hv
          · rw [List.mem_singleton] at hv; subst hv; exact ⟨hb, hsb⟩
          · rename_i hsa
            rcases List.mem_cons.mp hv with hv | hv
            · subst hv
              refine ⟨meet_between hQ ha hb (Or.inr ⟨not_le.mp hsa, hsb⟩), ?_⟩
              rw [hm fun h => hsa (h ▸ hsb)]
            · rw [List.mem_singleton] at hv; subst hv; exact ⟨hb, hsb⟩
        · rename_i hsb
          split at hv
          · rename_i hsa
            rw [List.mem_singleton] at hv
            subst hv
            refine ⟨meet_between hQ ha hb (Or.inl ⟨hsa, not_le.mp hsb⟩), ?_⟩
            rw [hm fun h => hsb (h ▸ hsa)]
          · exact absurd hv (List.not_mem_nil)
      · exact ih b hb (fun v hv => hl v (List.mem_cons_of_mem _ hv)) v hv
  intro v hv
  unfold cut at hv
  split at hv
  · exact absurd hv (List.not_mem_nil)
  · rename_i z hz
    exact key p z (h z (List.mem_of_getLast? hz)) h v hv

/-- All of `Q` is to the left of the step from `p` to `q`. -/
def LeftOfStep (Q : Pt → Prop) (p q : Pt) : Prop := ∀ r, Q r → 0 ≤ crossAt p q r

/-- A closed path around (part of) `Q`, counterclockwise. -/
structure Around (Q : Pt → Prop) (p : List Pt) : Prop where
  within : ∀ v ∈ p, Q v
  left : ∀ z, p.getLast? = some z → List.IsChain (LeftOfStep Q) (z :: p)

/-- The line is directed: `s` is the cross product with a direction. -/
def Directed (s : Pt → Rat) : Prop := ∃ u o : Pt, ∀ p, s p = cross u (p.1 - o.1, p.2 - o.2)

theorem directed_affine {s : Pt → Rat} (h : Directed s) : Affine s := by
  obtain ⟨u, o, h⟩ := h
  intro a b t
  rw [h, h, h]
  simp only [cross]
  ring

theorem directed_leftOf (c : Rat) : Directed (leftOf c) :=
  ⟨(0, 1), (c, 0), fun p => by simp only [leftOf, cross]; ring⟩
theorem directed_rightOf (c : Rat) : Directed (rightOf c) :=
  ⟨(0, -1), (c, 0), fun p => by simp only [rightOf, cross]; ring⟩
theorem directed_below (c : Rat) : Directed (below c) :=
  ⟨(-1, 0), (0, c), fun p => by simp only [below, cross]; ring⟩
theorem directed_above (c : Rat) : Directed (above c) :=
  ⟨(1, 0), (0, c), fun p => by simp only [above, cross]; ring⟩

theorem left_meet_left {Q : Pt → Prop} {a b : Pt} (h : LeftOfStep Q a b) {α β : Rat} (hα : 0 ≤ α) (hβ : β < 0) :
    LeftOfStep Q a (meet a b α β) := by
  intro r hr
  have := h r hr
  have e : crossAt a (meet a b α β) r = α / (α - β) * crossAt a b r := by
    simp only [crossAt, cross, meet]; ring
  rw [e]
  exact mul_nonneg (div_nonneg hα (by linarith)) this

theorem left_meet_right {Q : Pt → Prop} {a b : Pt} (h : LeftOfStep Q a b) {α β : Rat} (hα : α < 0) (hβ : 0 ≤ β) :
    LeftOfStep Q (meet a b α β) b := by
  intro r hr
  have := h r hr
  have hn : β - α ≠ 0 := by intro h; linarith
  have hn' : α - β ≠ 0 := by intro h; linarith
  have e : crossAt (meet a b α β) b r = β / (β - α) * crossAt a b r := by
    have e1 : crossAt (meet a b α β) b r = (1 - α / (α - β)) * crossAt a b r := by
      simp only [crossAt, cross, meet]; ring
    rw [e1]
    congr 1
    field_simp
    ring
  rw [e]
  exact mul_nonneg (div_nonneg hβ (by linarith)) this

/-- Where a path left the right side and comes back, the line itself joins the two points, and the part is to the
left of it. -/
theorem left_chord {Q : Pt → Prop} {s : Pt → Rat} (hs : Directed s) {a b i : Pt}
    (h : LeftOfStep Q a b) (ha : 0 ≤ s a) (hb : s b < 0) (hi : Q i) (hi0 : s i = 0) :
    LeftOfStep (fun r => Q r ∧ 0 ≤ s r) (meet a b (s a) (s b)) i := by
  rintro r ⟨hr, hsr⟩
  have hm := meet_zero (directed_affine hs) (a := a) (b := b) fun h => absurd ha (by rw [h]; exact not_le.mpr hb)
  have hi1 := h i hi
  obtain ⟨u, o, hu⟩ := hs
  -- `i - L` and the direction of the step at which the path left
  have hv : crossAt a b i = cross (b.1 - a.1, b.2 - a.2) (i.1 - (meet a b (s a) (s b)).1,
      i.2 - (meet a b (s a) (s b)).2) := by
    simp only [crossAt, cross, meet]; ring
  rw [hv] at hi1
  rw [hu] at hi0 hm hsr
  have hd : cross u (b.1 - a.1, b.2 - a.2) < 0 := by
    rw [hu] at ha hb
    simp only [cross] at ha hb ⊢
    linarith
  generalize meet a b (s a) (s b) = L at hi1 hm
  by_contra hneg
  have hneg := not_le.mp hneg
  have hpos := mul_pos_of_neg_of_neg hneg hd
  have e : crossAt L i r * cross u (b.1 - a.1, b.2 - a.2) =
      - cross (b.1 - a.1, b.2 - a.2) (i.1 - L.1, i.2 - L.2) * (cross u (r.1 - o.1, r.2 - o.2) -
        cross u (L.1 - o.1, L.2 - o.2)) +
      (cross u (L.1 - o.1, L.2 - o.2) - cross u (i.1 - o.1, i.2 - o.2)) *
        cross (r.1 - L.1, r.2 - L.2) (b.1 - a.1, b.2 - a.2) := by
    simp only [crossAt, cross]; ring
  rw [e, hm, hi0] at hpos
  have := mul_nonneg hi1 hsr
  linarith

theorem LeftOfStep.mono {Q Q' : Pt → Prop} {p q : Pt} (h : LeftOfStep Q p q) (hQ : ∀ r, Q' r → Q r) :
    LeftOfStep Q' p q := fun r hr => h r (hQ r hr)

/-- A part of a convex polygon is convex. -/
theorem cutPath_left {Q : Pt → Prop} (hQ : SegClosed Q) {s : Pt → Rat} (hs : Directed s) (l : List Pt) (a L : Pt)
    (hl : ∀ v ∈ a :: l, Q v) (hK : List.IsChain (LeftOfStep Q) (a :: l))
    (hL : LastOk s (LeftOfStep Q) a (some L)) :
    List.IsChain (LeftOfStep fun r => Q r ∧ 0 ≤ s r) (L :: cutPath s a l) := by
  induction l generalizing a L with
  | nil => exact List.IsChain.singleton _
  | cons b l ih =>
    rw [List.isChain_cons_cons] at hK
    have ha' := hl a List.mem_cons_self
    have hb' := hl b (List.mem_cons_of_mem _ List.mem_cons_self)
    have hl' : ∀ v ∈ b :: l, Q v := fun v hv => hl v (List.mem_cons_of_mem _ hv)
    have hmono : ∀ p q, LeftOfStep Q p q → LeftOfStep (fun r => Q r ∧ 0 ≤ s r) p q :=
      fun p q h => h.mono fun r hr => hr.1
    simp only [cutPath, cutStep]
    by_cases hb : 0 ≤ s b
    · have hok : LastOk s (LeftOfStep Q) b (some b) := ⟨fun _ => rfl, fun h => absurd hb (not_le.mpr h)⟩
      rw [if_pos hb]
      by_cases ha : 0 ≤ s a
      · rw [if_pos ha, List.singleton_append, hL.1 ha]
        exact List.isChain_cons_cons.mpr ⟨hmono _ _ hK.1, ih b b hl' hK.2 hok⟩
      · rw [if_neg ha]
        have ha := not_le.mp ha
        obtain ⟨a', b', k1, k2, k3, rfl⟩ := hL.2 ha
        refine List.isChain_cons_cons.mpr ⟨?_, List.isChain_cons_cons.mpr ⟨?_, ih b b hl' hK.2 hok⟩⟩
        · exact left_chord hs k1 k2 k3 (meet_between hQ ha' hb' (Or.inr ⟨ha, hb⟩))
            (meet_zero (directed_affine hs) fun h => absurd hb (by rw [← h]; exact not_le.mpr ha))
        · exact hmono _ _ (left_meet_right hK.1 ha hb)
    · rw [if_neg hb]
      have hb := not_le.mp hb
      by_cases ha : 0 ≤ s a
      · rw [if_pos ha, List.singleton_append, hL.1 ha]
        refine List.isChain_cons_cons.mpr ⟨hmono _ _ (left_meet_left hK.1 ha hb), ih b _ hl' hK.2 ?_⟩
        exact ⟨fun h => absurd h (not_le.mpr hb), fun _ => ⟨a, b, hK.1, ha, hb, rfl⟩⟩
      · rw [if_neg ha, List.nil_append]
        exact ih b L hl' hK.2 ⟨fun h => absurd h (not_le.mpr hb), fun _ => hL.2 (not_le.mp ha)⟩

theorem cut_around {Q : Pt → Prop} (hQ : SegClosed Q) {s : Pt → Rat} (hs : Directed s) {p : List Pt}
    (h : Around Q p) : Around (fun r => Q r ∧ 0 ≤ s r) (cut s p) := by
  refine ⟨cut_mem hQ (directed_affine hs) h.within, ?_⟩
  intro L hL
  cases hz : p.getLast? with
  | none =>
    rw [List.getLast?_eq_none_iff] at hz
    subst hz
    simp [cut] at hL
  | some z =>
    have e : cut s p = cutPath s z p := by unfold cut; rw [hz]
    rcases cut_last (s := s) hz (h.left z hz) with h' | ⟨h', -⟩
    · rw [hL] at h'
      rw [e]
      refine cutPath_left hQ hs p z L ?_ (h.left z hz) h'
      intro v hv
      rcases List.mem_cons.mp hv with rfl | hv
      · exact h.within _ (List.mem_of_getLast? hz)
      · exact h.within v hv
    · rw [h'] at hL; cases hL

/-- A polygon that is passed counterclockwise has no negative area. -/
theorem around_area {Q : Pt → Prop} {p : List Pt} (h : Around Q p) : 0 ≤ signedArea p := by
  rw [signedArea_loop]
  cases hz : p.getLast? with
  | none => unfold loopOf; rw [hz]; simp
  | some z =>
    rw [← loopOf_crossAt z]
    have hzQ := h.within z (List.mem_of_getLast? hz)
    have hc := h.left z hz
    unfold loopOf
    rw [hz]
    simp only
    apply div_nonneg _ (by norm_num)
    have key : ∀ (l : List Pt) (a : Pt), List.IsChain (LeftOfStep Q) (a :: l) → 0 ≤ pathOf (crossAt z) a l := by
      intro l
      induction l with
      | nil => intro a _; exact le_refl _
      | cons b l ih =>
        intro a hK
        rw [List.isChain_cons_cons] at hK
        simp only [pathOf]
        have h1 := hK.1 z hzQ
        have e : crossAt z a b = crossAt a b z := by simp only [crossAt, cross]; ring
        rw [e]
        exact add_nonneg h1 (ih b hK.2)
    exact key p z hc

/-- Area of a polygon on a line. -/
theorem flat_area {s : Pt → Rat} {o : Pt} (h : OnLine s o) {p : List Pt} (hp : ∀ v ∈ p, s v = 0) :
    signedArea p = 0 := by
  rw [signedArea_loop, ← loopOf_crossAt o]
  unfold loopOf
  split
  · simp
  · rename_i z hz
    have hz' := hp z (List.mem_of_getLast? hz)
    have key : ∀ (l : List Pt) (a : Pt), s a = 0 → (∀ v ∈ l, s v = 0) → pathOf (crossAt o) a l = 0 := by
      intro l
      induction l with
      | nil => intro a _ _; rfl
      | cons b l ih =>
        intro a ha hl
        have hb := hl b List.mem_cons_self
        simp only [pathOf]
        rw [h.flat a b ha hb, ih b hb fun v hv => hl v (List.mem_cons_of_mem _ hv), add_zero]
    rw [key p z hz' hp, zero_div]

theorem segClosed_true : SegClosed fun _ => True := fun _ _ _ _ _ _ _ => trivial

/-- Corners of the part in a rectangle. -/
theorem cutRect_mem {Q : Pt → Prop} (hQ : SegClosed Q) {p : List Pt} (h : ∀ v ∈ p, Q v) (x y X Y : Rat) :
    ∀ v ∈ cutRect p x y X Y, Q v ∧ x ≤ v.1 ∧ v.1 ≤ X ∧ y ≤ v.2 ∧ v.2 ≤ Y := by
  have q1 := segClosed_side hQ (affine_leftOf X)
  have q2 := segClosed_side q1 (affine_rightOf x)
  have q3 := segClosed_side q2 (affine_below Y)
  intro v hv
  obtain ⟨⟨⟨⟨h1, h2⟩, h3⟩, h4⟩, h5⟩ := cut_mem q3 (affine_above y) (cut_mem q2 (affine_below Y)
    (cut_mem q1 (affine_rightOf x) (cut_mem hQ (affine_leftOf X) h))) v hv
  simp only [leftOf, rightOf, below, above, sub_nonneg] at h2 h3 h4 h5
  exact ⟨h1, h3, h2, h5, h4⟩

theorem cutRect_around {Q : Pt → Prop} (hQ : SegClosed Q) {p : List Pt} (h : Around Q p) (x y X Y : Rat) :
    ∃ Q', Around Q' (cutRect p x y X Y) := by
  have q1 := segClosed_side hQ (affine_leftOf X)
  have q2 := segClosed_side q1 (affine_rightOf x)
  have q3 := segClosed_side q2 (affine_below Y)
  exact ⟨_, cut_around q3 (directed_above y) (cut_around q2 (directed_below Y)
    (cut_around q1 (directed_rightOf x) (cut_around hQ (directed_leftOf X) h)))⟩

/-- A rectangle beside the polygon has no part of it. -/
theorem cutRect_beside {p : List Pt} {x y X Y : Rat}
    (h : (∀ v ∈ p, v.1 ≤ x) ∨ (∀ v ∈ p, X ≤ v.1) ∨ (∀ v ∈ p, v.2 ≤ y) ∨ (∀ v ∈ p, Y ≤ v.2)) :
    signedArea (cutRect p x y X Y) = 0 := by
  rcases h with h | h | h | h
  · apply flat_area (line_x x).2
    intro v hv
    obtain ⟨h1, h2, -⟩ := cutRect_mem (segClosed_side segClosed_true (affine_leftOf x)) (p := p)
      (fun v hv => ⟨trivial, by simpa [leftOf] using h v hv⟩) x y X Y v hv
    have := h1.2
    simp only [leftOf, rightOf] at this ⊢
    linarith
  · apply flat_area (line_x X).2
    intro v hv
    obtain ⟨h1, -, h2, -⟩ := cutRect_mem (segClosed_side segClosed_true (affine_rightOf X)) (p := p)
      (fun v hv => ⟨trivial, by simpa [rightOf] using h v hv⟩) x y X Y v hv
    have := h1.2
    simp only [rightOf] at this ⊢
    linarith
  · apply flat_area (line_y y).2
    intro v hv
    obtain ⟨h1, -, -, h2, -⟩ := cutRect_mem (segClosed_side segClosed_true (affine_below y)) (p := p)
      (fun v hv => ⟨trivial, by simpa [below] using h v hv⟩) x y X Y v hv
    have := h1.2
    simp only [below, above] at this ⊢
    linarith
  · apply flat_area (line_y Y).2
    intro v hv
    obtain ⟨h1, -, -, -, h2⟩ := cutRect_mem (segClosed_side segClosed_true (affine_above Y)) (p := p)
      (fun v hv => ⟨trivial, by simpa [above] using h v hv⟩) x y X Y v hv
    have := h1.2
    simp only [above] at this ⊢
    linarith

/-- The cells of a grid make up the area of a polygon on the grid. -/
theorem cells_sum {x y : List Rat} (hx : ∀ k, k + 1 < x.length → x.getD k 0 < x.getD (k + 1) 0)
    (hy : ∀ k, k + 1 < y.length → y.getD k 0 < y.getD (k + 1) 0) (hx0 : 0 < x.length) (hy0 : 0 < y.length)
    {p : List Pt} (hp : ∀ v ∈ p, x.getD 0 0 ≤ v.1 ∧ v.1 ≤ x.getD (x.length - 1) 0 ∧
      y.getD 0 0 ≤ v.2 ∧ v.2 ≤ y.getD (y.length - 1) 0) :
    ((List.range (x.length - 1)).map fun i => ((List.range (y.length - 1)).map fun j =>
      signedArea (cutRect p (x.getD i 0) (y.getD j 0) (x.getD (i + 1) 0) (y.getD (j + 1) 0))).sum).sum =
      signedArea p := by
  rw [← strips_all lines_x hx hx0 (p := p) (fun v hv => by simpa [rightOf] using (hp v hv).1)
    (fun v hv => by simpa only [leftOf, sub_nonneg] using (hp v hv).2.1)]
  congr 1
  apply List.map_congr_left
  intro i _
  unfold cutRect
  have hs : ∀ v ∈ cut (rightOf (x.getD i 0)) (cut (leftOf (x.getD (i + 1) 0)) p),
      (True ∧ 0 ≤ above (y.getD 0 0) v) ∧ 0 ≤ below (y.getD (y.length - 1) 0) v := by
    have q1 := segClosed_side (segClosed_side segClosed_true (affine_above (y.getD 0 0)))
      (affine_below (y.getD (y.length - 1) 0))
    have q2 := segClosed_side q1 (affine_leftOf (x.getD (i + 1) 0))
    intro v hv
    exact (cut_mem q2 (affine_rightOf _) (cut_mem q1 (affine_leftOf _) (p := p) (fun v hv =>
      ⟨⟨trivial, by simpa only [above, sub_nonneg] using (hp v hv).2.2.1⟩,
        by simpa only [below, sub_nonneg] using (hp v hv).2.2.2⟩)) v hv).1.1
  exact strips_all lines_y hy hy0 (fun v hv => (hs v hv).1.2) (fun v hv => (hs v hv).2)

/-! ## From corners to regions -/

/-- The points to the left of all edges. -/
def Inside (p : List Pt) (r : Pt) : Prop :=
  ∀ k < p.length, 0 ≤ crossAt (p.getD k (0, 0)) (p.getD ((k + 1) % p.length) (0, 0)) r

theorem segClosed_inside (p : List Pt) : SegClosed (Inside p) := by
  intro a b t h0 h1 ha hb k hk
  have h2 := ha k hk
  have h3 := hb k hk
  generalize p.getD k (0, 0) = P at *
  generalize p.getD ((k + 1) % p.length) (0, 0) = P' at *
  have e : crossAt P P' (a.1 + t * (b.1 - a.1), a.2 + t * (b.2 - a.2)) =
      (1 - t) * crossAt P P' a + t * crossAt P P' b := by
    simp only [crossAt, cross]; ring
  rw [e]
  exact add_nonneg (mul_nonneg (sub_nonneg.mpr h1) h2) (mul_nonneg h0 h3)

theorem convex_around {p : List Pt} (h : ConvexCcw p) : Around (Inside p) p := by
  refine ⟨fun v hv k hk => h k hk v hv, ?_⟩
  intro z hz
  have hpos : 0 < p.length := by
    cases p with
    | nil => simp at hz
    | cons _ _ => simp
  have hget : ∀ k, ∀ hk : k < p.length, p.getD k (0, 0) = p[k] := by
    intro k hk
    rw [List.getD_eq_getElem?_getD, List.getElem?_eq_getElem hk]
    rfl
  rw [List.isChain_iff_getElem]
  intro k hk
  simp only [List.length_cons] at hk
  intro r hr
  cases k with
  | zero =>
    have := hr (p.length - 1) (by omega)
    rw [show p.length - 1 + 1 = p.length by omega, Nat.mod_self] at this
    rw [List.getLast?_eq_getElem?] at hz
    have hz' : p.getD (p.length - 1) (0, 0) = z := by
      rw [List.getD_eq_getElem?_getD, hz]; rfl
    rw [hz'] at this
    rw [hget 0 hpos] at this
    simpa using this
  | succ k =>
    have := hr k (by omega)
    rw [Nat.mod_eq_of_lt (by omega : k + 1 < p.length), hget k (by omega), hget (k + 1) (by omega)] at this
    simpa using this

/-- Turned the right way, a convex polygon is passed counterclockwise and has the same area, without sign. -/
theorem counterclockwise_ok {p : List Pt} (h : ConvexPoly p) (ha : signedArea p ≠ 0) :
    ConvexCcw (counterclockwise p) ∧ signedArea (counterclockwise p) = |signedArea p| := by
  unfold counterclockwise
  rcases h with h | h
  · have := around_area (convex_around h)
    rw [if_neg (not_lt.mpr this)]
    exact ⟨h, (abs_of_nonneg this).symm⟩
  · have h1 := around_area (convex_around h)
    rw [signedArea_reverse] at h1
    have h2 : signedArea p < 0 := lt_of_le_of_ne (by linarith) ha
    rw [if_pos h2]
    exact ⟨h, by rw [signedArea_reverse, abs_of_neg h2]⟩

theorem mem_counterclockwise {p : List Pt} {v : Pt} : v ∈ counterclockwise p ↔ v ∈ p := by
  unfold counterclockwise
  split
  · exact List.mem_reverse
  · exact Iff.rfl

/-! ## The points of a part -/

theorem segClosed_hull (p : List Pt) : SegClosed (InHull p) :=
  fun _ _ _ h0 h1 ha hb => InHull.between ha hb h0 h1

theorem hull_sub {Q : Pt → Prop} (hQ : SegClosed Q) {p : List Pt} (h : ∀ v ∈ p, Q v) {r : Pt} (hr : InHull p r) :
    Q r := by
  induction hr with
  | corner hv => exact h _ hv
  | between _ _ h0 h1 ha hb => exact hQ _ _ _ h0 h1 ha hb

theorem change_in_path {P : Pt → Prop} (l : List Pt) (a : Pt) (ha : P a) (h : ∃ w ∈ l, ¬ P w) :
    ∃ a' b' l1 l2, a :: l = l1 ++ a' :: b' :: l2 ∧ P a' ∧ ¬ P b' := by
  induction l generalizing a with
  | nil => obtain ⟨w, hw, -⟩ := h; exact absurd hw (List.not_mem_nil)
  | cons b l ih =>
    by_cases hb : P b
    · obtain ⟨w, hw, hnw⟩ := h
      rcases List.mem_cons.mp hw with rfl | hw
      · exact absurd hb hnw
      · obtain ⟨a', b', l1, l2, he, h1, h2⟩ := ih b hb ⟨w, hw, hnw⟩
        exact ⟨a', b', a :: l1, l2, by rw [he]; rfl, h1, h2⟩
    · exact ⟨a, b, [], l, rfl, ha, hb⟩

/-- A closed path with corners on both sides changes sides. -/
theorem change_in_loop {P : Pt → Prop} {p : List Pt} {z v w : Pt} (hz : p.getLast? = some z)
    (hv : v ∈ p) (hPv : P v) (hw : w ∈ p) (hPw : ¬ P w) :
    ∃ a b l1 l2, z :: p = l1 ++ a :: b :: l2 ∧ P a ∧ ¬ P b := by
  by_cases h : P z
  · exact change_in_path p z h ⟨w, hw, hPw⟩
  · obtain ⟨s1, s2, rfl⟩ := List.append_of_mem hv
    have hz2 : z ∈ s2 := by
      rw [List.getLast?_append, List.getLast?_cons] at hz
      simp only [Option.some_or, Option.some.injEq] at hz
      cases hs : s2.getLast? with
      | none =>
        rw [hs] at hz
        simp only [Option.getD_none] at hz
        subst hz
        exact absurd hPv h
      | some y =>
        rw [hs] at hz
        simp only [Option.getD_some] at hz
        subst hz
        exact List.mem_of_getLast? hs
    obtain ⟨a', b', l1, l2, he, h1, h2⟩ := change_in_path s2 v hPv ⟨z, hz2, h⟩
    exact ⟨a', b', z :: s1 ++ l1, l2, by rw [he]; simp, h1, h2⟩

theorem cutPath_step {s : Pt → Rat} (l : List Pt) (a : Pt) {a' b' : Pt} {l1 l2 : List Pt}
    (h : a :: l = l1 ++ a' :: b' :: l2) : ∀ v ∈ cutStep s a' b', v ∈ cutPath s a l := by
  induction l generalizing a l1 with
  | nil =>
    have := congrArg List.length h
    simp at this
    omega
  | cons b l ih =>
    intro v hv
    simp only [cutPath, List.mem_append]
    cases l1 with
    | nil =>
      simp only [List.nil_append, List.cons.injEq] at h
      obtain ⟨rfl, rfl, -⟩ := h
      exact Or.inl hv
    | cons c l1 =>
      simp only [List.cons_append, List.cons.injEq] at h
      exact Or.inr (ih b h.2 v hv)

theorem chain_step {K : Pt → Pt → Prop} {l l1 l2 : List Pt} {a b : Pt} (hK : List.IsChain K l)
    (h : l = l1 ++ a :: b :: l2) : K a b := by
  subst h
  have := (List.isChain_append.mp hK).2.1
  exact (List.isChain_cons_cons.mp this).1

/-- Points of the polygon on the line are points of the part. -/
theorem cut_line {Q : Pt → Prop} (hQ : SegClosed Q) {s : Pt → Rat} (hs : Directed s) {p : List Pt}
    (h : Around Q p) {m v w : Pt} (hm : Q m) (hm0 : s m = 0) (hv : v ∈ p) (hsv : 0 ≤ s v) (hw : w ∈ p)
    (hsw : s w < 0) : InHull (cut s p) m := by
  cases hz : p.getLast? with
  | none => rw [List.getLast?_eq_none_iff] at hz; subst hz; exact absurd hv (List.not_mem_nil)
  | some z =>
    have hc : cut s p = cutPath s z p := by unfold cut; rw [hz]
    have hQall : ∀ q ∈ z :: p, Q q := by
      intro q hq
      rcases List.mem_cons.mp hq with rfl | hq
      · exact h.within _ (List.mem_of_getLast? hz)
      · exact h.within q hq
    -- where the path leaves
    obtain ⟨a, b, l1, l2, he, ha, hb⟩ := change_in_loop (P := fun q => 0 ≤ s q) hz hv hsv hw (not_le.mpr hsw)
    have hb := not_le.mp hb
    have hL : meet a b (s a) (s b) ∈ cut s p := by
      rw [hc]
      apply cutPath_step p z he
      unfold cutStep
      rw [if_neg (not_le.mpr hb), if_pos ha]
      exact List.mem_singleton.mpr rfl
    have hK := chain_step (h.left z hz) he m hm
    have hL0 := meet_zero (directed_affine hs) (a := a) (b := b)
      fun h => absurd ha (by rw [h]; exact not_le.mpr hb)
    -- where it comes back
    obtain ⟨a', b', l1', l2', he', ha', hb'⟩ := change_in_loop (P := fun q => s q < 0) hz hw hsw hv (not_lt.mpr hsv)
    have hb' := not_lt.mp hb'
    have hI : meet a' b' (s a') (s b') ∈ cut s p := by
      rw [hc]
      apply cutPath_step p z he'
      unfold cutStep
      rw [if_pos hb', if_neg (not_le.mpr ha')]
      exact List.mem_cons_self
    have hK' := chain_step (h.left z hz) he' m hm
    have hI0 := meet_zero (directed_affine hs) (a := a') (b := b')
      fun h => absurd hb' (by rw [← h]; exact not_le.mpr ha')
    have e1 : crossAt a b m = cross (b.1 - a.1, b.2 - a.2) (m.1 - (meet a b (s a) (s b)).1,
        m.2 - (meet a b (s a) (s b)).2) := by
      simp only [crossAt, cross, meet]; ring
    have e2 : crossAt a' b' m = cross (b'.1 - a'.1, b'.2 - a'.2) (m.1 - (meet a' b' (s a') (s b')).1,
        m.2 - (meet a' b' (s a') (s b')).2) := by
      simp only [crossAt, cross, meet]; ring
    rw [e1] at hK
    rw [e2] at hK'
    obtain ⟨u, o, hu⟩ := hs
    have hd : cross u (b.1 - a.1, b.2 - a.2) < 0 := by
      have e : cross u (b.1 - a.1, b.2 - a.2) = s b - s a := by rw [hu, hu]; simp only [cross]; ring
      rw [e]; linarith
    have hd' : 0 < cross u (b'.1 - a'.1, b'.2 - a'.2) := by
      have e : cross u (b'.1 - a'.1, b'.2 - a'.2) = s b' - s a' := by rw [hu, hu]; simp only [cross]; ring
      rw [e]; linarith
    generalize meet a b (s a) (s b) = L at hK hL hL0
    generalize meet a' b' (s a') (s b') = I at hK' hI hI0
    rw [hu] at hL0 hI0 hm0
    generalize hD : ((b.1 - a.1, b.2 - a.2) : Pt) = D at hK hd
    generalize hD' : ((b'.1 - a'.1, b'.2 - a'.2) : Pt) = D' at hK' hd'
    clear hc he he' e1 e2 hD hD' ha hb ha' hb'
    -- positions along the line
    obtain ⟨τ, hτ⟩ : ∃ τ, τ = cross D (m.1 - L.1, m.2 - L.2) / - cross u D := ⟨_, rfl⟩
    obtain ⟨ρ, hρ⟩ : ∃ ρ, ρ = cross D' (m.1 - I.1, m.2 - I.2) / cross u D' := ⟨_, rfl⟩
    have hτ0 : 0 ≤ τ := by rw [hτ]; exact div_nonneg hK (by linarith)
    have hρ0 : 0 ≤ ρ := by rw [hρ]; exact div_nonneg hK' (le_of_lt hd')
    have hne : - cross u D ≠ 0 := by intro h; linarith
    have hne' : cross u D' ≠ 0 := by intro h; linarith
    have t1 : τ * u.1 = m.1 - L.1 := by
      rw [hτ, div_mul_eq_mul_div, div_eq_iff hne]
      simp only [cross] at hL0 hm0 ⊢
      linear_combination D.1 * (hm0 - hL0)
    have t2 : τ * u.2 = m.2 - L.2 := by
      rw [hτ, div_mul_eq_mul_div, div_eq_iff hne]
      simp only [cross] at hL0 hm0 ⊢
      linear_combination D.2 * (hm0 - hL0)
    have r1 : ρ * u.1 = I.1 - m.1 := by
      rw [hρ, div_mul_eq_mul_div, div_eq_iff hne']
      simp only [cross] at hI0 hm0 ⊢
      linear_combination D'.1 * (hm0 - hI0)
    have r2 : ρ * u.2 = I.2 - m.2 := by
      rw [hρ, div_mul_eq_mul_div, div_eq_iff hne']
      simp only [cross] at hI0 hm0 ⊢
      linear_combination D'.2 * (hm0 - hI0)
    by_cases h0 : τ + ρ = 0
    · have : τ = 0 := by linarith
      rw [this] at t1 t2
      have : m = L := Prod.ext (by linarith) (by linarith)
      rw [this]
      exact InHull.corner hL
    · have hpos : 0 < τ + ρ := lt_of_le_of_ne (by linarith) (Ne.symm h0)
      have hmm : m = (L.1 + τ / (τ + ρ) * (I.1 - L.1), L.2 + τ / (τ + ρ) * (I.2 - L.2)) := by
        apply Prod.ext
        · have : I.1 - L.1 = (τ + ρ) * u.1 := by linarith
          rw [this, ← mul_assoc, div_mul_cancel₀ _ h0]
          linarith
        · have : I.2 - L.2 = (τ + ρ) * u.2 := by linarith
          rw [this, ← mul_assoc, div_mul_cancel₀ _ h0]
          linarith
      rw [hmm]
      exact InHull.between (InHull.corner hL) (InHull.corner hI) (div_nonneg hτ0 (le_of_lt hpos))
        (by rw [div_le_one hpos]; linarith)

theorem cut_corner {s : Pt → Rat} {p : List Pt} {v : Pt} (hv : v ∈ p) (hs : 0 ≤ s v) : v ∈ cut s p := by
  cases hz : p.getLast? with
  | none => rw [List.getLast?_eq_none_iff] at hz; subst hz; exact absurd hv (List.not_mem_nil)
  | some z =>
    have hc : cut s p = cutPath s z p := by unfold cut; rw [hz]
    rw [hc]
    clear hc hz
    induction p generalizing z with
    | nil => exact absurd hv (List.not_mem_nil)
    | cons b l ih =>
      simp only [cutPath, List.mem_append]
      rcases List.mem_cons.mp hv with rfl | hv
      · left
        unfold cutStep
        rw [if_pos hs]
        split <;> simp
      · exact Or.inr (ih hv b)

/-- The part of a convex polygon on one side of a line: exactly its points on that side. -/
theorem cut_hull {Q : Pt → Prop} (hQ : SegClosed Q) {s : Pt → Rat} (hs : Directed s) {p : List Pt}
    (h : Around Q p) (r : Pt) : InHull (cut s p) r ↔ InHull p r ∧ 0 ≤ s r := by
  have haf := directed_affine hs
  constructor
  · intro hr
    exact hull_sub (segClosed_side (segClosed_hull p) haf)
      (cut_mem (segClosed_hull p) haf fun v hv => InHull.corner hv) hr
  · rintro ⟨hr, hsr⟩
    -- a point on the line
    have hline : ∀ {a b : Pt}, InHull p a → InHull p b → 0 ≤ s a → s b < 0 →
        InHull (cut s p) (meet a b (s a) (s b)) := by
      intro a b ha hb hsa hsb
      have hin : ∃ v ∈ p, 0 ≤ s v := by
        by_contra hn
        push Not at hn
        have : s a < 0 := hull_sub (Q := fun r => s r < 0) (by
          intro a b t h0 h1 ha hb
          rw [haf]
          rcases eq_or_lt_of_le h0 with h | h
          · rw [← h]; linarith
          · nlinarith [mul_nonneg (sub_nonneg.mpr h1) (le_of_lt (neg_pos.mpr ha)), mul_pos h (neg_pos.mpr hb)])
          hn ha
        linarith
      have hout : ∃ v ∈ p, s v < 0 := by
        by_contra hn
        push Not at hn
        have := hull_sub (segClosed_side segClosed_true haf) (fun v hv => ⟨trivial, hn v hv⟩) hb
        linarith [this.2]
      obtain ⟨v, hv, hsv⟩ := hin
      obtain ⟨w, hw, hsw⟩ := hout
      have hQr : ∀ {q}, InHull p q → Q q := fun hq => hull_sub hQ h.within hq
      exact cut_line hQ hs h (meet_between hQ (hQr ha) (hQr hb) (Or.inl ⟨hsa, hsb⟩))
        (meet_zero haf fun h => absurd hsa (by rw [h]; exact not_le.mpr hsb)) hv hsv hw hsw
    induction hr with
    | corner hv => exact InHull.corner (cut_corner hv hsr)
    | @between a b t ha hb h0 h1 iha ihb =>
      by_cases hsa : 0 ≤ s a
      · by_cases hsb : 0 ≤ s b
        · exact InHull.between (iha hsa) (ihb hsb) h0 h1
        · have hsb := not_le.mp hsb
          have hm := hline ha hb hsa hsb
          rw [haf] at hsr
          -- the point is between `a` and the line
          by_cases ha0 : s a = 0
          · have ht : t = 0 := by
              rw [ha0] at hsr
              rcases eq_or_lt_of_le h0 with h | h
              · exact h.symm
              · nlinarith
            subst ht
            have : ((a.1 + 0 * (b.1 - a.1), a.2 + 0 * (b.2 - a.2)) : Pt) = a := by ext <;> simp
            rw [this]
            exact iha hsa
          · have hpos : 0 < s a := lt_of_le_of_ne hsa (Ne.symm ha0)
            have hd : s a - s b ≠ 0 := by intro h; linarith
            have key := InHull.between (t := t * (s a - s b) / s a) (iha hsa) hm
              (div_nonneg (mul_nonneg h0 (by linarith)) hsa) (by rw [div_le_one hpos]; linarith)
            have e : t * (s a - s b) / s a * (s a / (s a - s b)) = t := by field_simp
            have ep : ∀ d : Rat, t * (s a - s b) / s a * (s a / (s a - s b) * d) = t * d := by
              intro d; rw [← mul_assoc, e]
            simp only [meet, add_sub_cancel_left, ep] at key
            exact key
      · have hsa := not_le.mp hsa
        by_cases hsb : 0 ≤ s b
        · have hm := hline hb ha hsb hsa
          rw [haf] at hsr
          by_cases hb0 : s b = 0
          · have ht : t = 1 := by
              rw [hb0] at hsr
              rcases eq_or_lt_of_le h1 with h | h
              · exact h
              · nlinarith
            subst ht
            have : ((a.1 + 1 * (b.1 - a.1), a.2 + 1 * (b.2 - a.2)) : Pt) = b := by ext <;> simp
            rw [this]
            exact ihb hsb
          · have hpos : 0 < s b := lt_of_le_of_ne hsb (Ne.symm hb0)
            have hd : s b - s a ≠ 0 := by intro h; linarith
            have key := InHull.between (t := (1 - t) * (s b - s a) / s b) (ihb hsb) hm
              (div_nonneg (mul_nonneg (by linarith) (by linarith)) hsb) (by rw [div_le_one hpos]; linarith)
            have e : (1 - t) * (s b - s a) / s b * (s b / (s b - s a)) = 1 - t := by field_simp
            have ep : ∀ d : Rat, (1 - t) * (s b - s a) / s b * (s b / (s b - s a) * d) = (1 - t) * d := by
              intro d; rw [← mul_assoc, e]
            simp only [meet, add_sub_cancel_left, ep] at key
            have e3 : ((a.1 + t * (b.1 - a.1), a.2 + t * (b.2 - a.2)) : Pt) =
                (b.1 + (1 - t) * (a.1 - b.1), b.2 + (1 - t) * (a.2 - b.2)) := by
              ext
              · simp only; ring
              · simp only; ring
            rw [e3]
            exact key
        · have hsb := not_le.mp hsb
          exfalso
          rw [haf] at hsr
          rcases eq_or_lt_of_le h0 with h | h
          · rw [← h] at hsr; linarith
          · nlinarith [mul_nonneg (sub_nonneg.mpr h1) (le_of_lt (neg_pos.mpr hsa)), mul_pos h (neg_pos.mpr hsb)]

/-- The part in a rectangle: exactly the points of the polygon in the rectangle. -/
theorem cutRect_hull {Q : Pt → Prop} (hQ : SegClosed Q) {p : List Pt} (h : Around Q p) (x y X Y : Rat) (r : Pt) :
    InHull (cutRect p x y X Y) r ↔ InHull p r ∧ x ≤ r.1 ∧ r.1 ≤ X ∧ y ≤ r.2 ∧ r.2 ≤ Y := by
  have q1 := segClosed_side hQ (affine_leftOf X)
  have q2 := segClosed_side q1 (affine_rightOf x)
  have q3 := segClosed_side q2 (affine_below Y)
  have a1 := cut_around hQ (directed_leftOf X) h
  have a2 := cut_around q1 (directed_rightOf x) a1
  have a3 := cut_around q2 (directed_below Y) a2
  unfold cutRect
  rw [cut_hull q3 (directed_above y) a3, cut_hull q2 (directed_below Y) a2, cut_hull q1 (directed_rightOf x) a1,
    cut_hull hQ (directed_leftOf X) h]
  simp only [leftOf, rightOf, below, above, sub_nonneg]
  tauto

end Verif.Proofs
