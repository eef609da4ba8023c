import Verif.Proofs.ConvexClip

/-!
# Cells that are divided

The parts of a polygon in the cells of a division of a rectangle make up its part in the rectangle, whether the polygon is convex
or not.
-/

namespace Verif.Proofs

open Verif.Py Verif.Spec

/-- The share of an edge is that of its two pieces. -/
theorem share_split {α β t : Rat} (t0 : 0 ≤ t) (t1 : t ≤ 1) :
    shareOf α (α + t * (β - α)) * t + shareOf (α + t * (β - α)) β * (1 - t) = shareOf α β := by
  have hγ : ∃ γ, γ = α + t * (β - α) := ⟨_, rfl⟩
  obtain ⟨γ, hγ⟩ := hγ
  rw [← hγ]
  unfold shareOf
  by_cases hα : 0 ≤ α <;> by_cases hβ : 0 ≤ β
  · have h : 0 ≤ γ := by rw [hγ]; nlinarith
    simp only [if_pos hα, if_pos hβ, if_pos h]
    ring
  · have hn : α - β ≠ 0 := by intro h; linarith
    by_cases h : 0 ≤ γ
    · simp only [if_pos hα, if_neg hβ, if_pos h]
      have ht : 1 - t ≠ 0 := by
        intro ht
        have : t = 1 := by linarith
        rw [this] at hγ
        linarith
      have e : γ - β = (1 - t) * (α - β) := by rw [hγ]; ring
      rw [e, hγ]
      field_simp
      ring
    · simp only [if_pos hα, if_neg hβ, if_neg h]
      have ht : t ≠ 0 := by
        intro ht
        rw [ht] at hγ
        exact h (by rw [hγ]; linarith)
      have e : α - γ = t * (α - β) := by rw [hγ]; ring
      rw [e]
      field_simp
      ring
  · have hn : β - α ≠ 0 := by intro h; linarith
    by_cases h : 0 ≤ γ
    · simp only [if_neg hα, if_pos hβ, if_pos h]
      have ht : t ≠ 0 := by
        intro ht
        rw [ht] at hγ
        linarith
      have e : γ - α = t * (β - α) := by rw [hγ]; ring
      rw [e, hγ]
      field_simp
      ring
    · simp only [if_neg hα, if_pos hβ, if_neg h]
      have ht : 1 - t ≠ 0 := by
        intro ht
        have : t = 1 := by linarith
        rw [this] at hγ
        exact h (by rw [hγ]; linarith)
      have e : β - γ = (1 - t) * (β - α) := by rw [hγ]; ring
      rw [e]
      field_simp
      ring
  · have h : ¬ 0 ≤ γ := by
      rw [hγ, show α + t * (β - α) = (1 - t) * α + t * β by ring]
      rw [not_le] at *
      rcases le_total t (1 / 2) with ht | ht
      · have h1 := mul_neg_of_pos_of_neg (show 0 < 1 - t by linarith) hα
        have h2 := mul_nonpos_of_nonneg_of_nonpos t0 hβ.le
        linarith
      · have h1 := mul_neg_of_pos_of_neg (show 0 < t by linarith) hβ
        have h2 := mul_nonpos_of_nonneg_of_nonpos (show 0 ≤ 1 - t by linarith) hα.le
        linarith
    simp only [if_neg hα, if_neg hβ, if_neg h]
    ring

/-- What is counted of an edge on one side of a line is what is counted of its two pieces. -/
theorem onCut_split {s : Pt → Rat} (hs : Affine s) (o a b : Pt) {t : Rat} (t0 : 0 ≤ t) (t1 : t ≤ 1) :
    onCut s (crossAt o) a (a.1 + t * (b.1 - a.1), a.2 + t * (b.2 - a.2)) +
      onCut s (crossAt o) (a.1 + t * (b.1 - a.1), a.2 + t * (b.2 - a.2)) b = onCut s (crossAt o) a b := by
  have e1 := crossAt_part o a b 0 t
  have e2 := crossAt_part o a b t 1
  simp only [zero_mul, add_zero, sub_zero, one_mul, add_sub_cancel] at e1 e2
  rw [onCut_crossAt, onCut_crossAt, onCut_crossAt, hs, e1, e2]
  have := share_split (α := s a) (β := s b) t0 t1
  rw [← this]
  ring

theorem crossAt_self (o a : Pt) : crossAt o a a = 0 := by
  simp only [crossAt, cross]; ring

theorem onCut_self (s : Pt → Rat) (o a : Pt) : onCut s (crossAt o) a a = 0 := by
  rw [onCut_crossAt, crossAt_self, mul_zero]

/-- The two parts of a polygon, each cut once more. -/
theorem cut_both_side {s u : Pt → Rat} {o : Pt} (h : OnLine s o) (h' : OnLine (fun p => - s p) o) (hu : OnLine u o)
    (p : List Pt) :
    signedArea (cut u (cut s p)) + signedArea (cut u (cut (fun p => - s p) p)) = signedArea (cut u p) := by
  have flat : ∀ a b, crossAt o a b = 0 → onCut u (crossAt o) a b = 0 := by
    intro a b h0
    rw [onCut_crossAt, h0, mul_zero]
  rw [cut_area hu, cut_area hu, cut_area hu, cut_sum h.affine fun a b ha hb => flat a b (h.flat a b ha hb),
    cut_sum h'.affine fun a b ha hb => flat a b (h'.flat a b ha hb), ← add_div, ← loopOf_add]
  congr 1
  apply loopOf_congr
  intro a b
  have neg : ∀ α β : Rat, -α / (-α - -β) = α / (α - β) := by
    intro α β
    rw [show -α - -β = -(α - β) by ring, neg_div_neg_eq]
  have split : ∀ {α β : Rat}, (0 ≤ α ∧ β < 0) ∨ (α < 0 ∧ 0 ≤ β) →
      onCut u (crossAt o) a (meet a b α β) + onCut u (crossAt o) (meet a b α β) b = onCut u (crossAt o) a b := by
    intro α β hαβ
    have hn : α - β ≠ 0 := by intro h'; rcases hαβ with h | h <;> linarith [h.1, h.2]
    apply onCut_split hu.affine
    · rcases hαβ with h | h
      · exact div_nonneg h.1 (by linarith [h.1, h.2])
      · exact div_nonneg_of_nonpos h.1.le (by linarith [h.1, h.2])
    · rcases hαβ with h | h
      · rw [div_le_one (by linarith [h.1, h.2])]; linarith [h.1, h.2]
      · rw [div_le_one_of_neg (by linarith [h.1, h.2])]; linarith [h.1, h.2]
  have same : ∀ α β : Rat, meet a b (-α) (-β) = meet a b α β := by
    intro α β
    unfold meet
    rw [neg]
  have at0 : ∀ β : Rat, meet a b 0 β = a := by
    intro β
    unfold meet
    simp
  have at1 : ∀ α : Rat, α ≠ 0 → meet a b α 0 = b := by
    intro α hα
    unfold meet
    rw [sub_zero, div_self hα]
    simp
  have self := onCut_self u o
  have flat' := fun ha hb => flat a b (h.flat a b ha hb)
  clear flat
  generalize onCut u (crossAt o) = g at self flat' split ⊢
  unfold onCut
  simp only [same]
  rcases lt_trichotomy (s a) 0 with ha | ha | ha <;> rcases lt_trichotomy (s b) 0 with hb | hb | hb
  · rw [if_neg (by linarith), if_neg (by linarith), if_pos (by linarith), if_pos (by linarith), zero_add]
  · rw [if_neg (by linarith), if_pos hb.ge, if_pos (by linarith), if_pos (by rw [hb]; norm_num), hb,
      at1 _ (by linarith), self, zero_add]
  · rw [if_neg (by linarith), if_pos hb.le, if_pos (by linarith), if_neg (by linarith), add_comm]
    exact split (Or.inr ⟨ha, hb.le⟩)
  · rw [if_pos ha.ge, if_neg (by linarith), if_pos (by rw [ha]; norm_num), if_pos (by linarith), ha, at0, self, zero_add]
  · rw [if_pos ha.ge, if_pos hb.ge, if_pos (by rw [ha]; norm_num), if_pos (by rw [hb]; norm_num), flat' ha hb, add_zero]
  · rw [if_pos ha.ge, if_pos hb.le, if_pos (by rw [ha]; norm_num), if_neg (by linarith), ha, at0, self, add_zero]
  · rw [if_pos ha.le, if_neg (by linarith), if_neg (by linarith), if_pos (by linarith)]
    exact split (Or.inl ⟨ha.le, hb⟩)
  · rw [if_pos ha.le, if_pos hb.ge, if_neg (by linarith), if_pos (by rw [hb]; norm_num), hb, at1 _ (by linarith), self,
      add_zero]
  · rw [if_pos ha.le, if_pos hb.le, if_neg (by linarith), if_neg (by linarith), add_zero]

/-- A point of an edge, found from a piece of the edge. -/
theorem meet_left (a b : Pt) {α β γ δ : Rat} (hδ : α ≠ δ) (hβ : α - β ≠ 0) {τ : Rat} (hτ : δ = α + τ * (β - α)) (hγ : γ = τ) :
    meet a (a.1 + γ * (b.1 - a.1), a.2 + γ * (b.2 - a.2)) α δ = meet a b α β := by
  subst hγ
  have hn : α - δ ≠ 0 := sub_ne_zero.mpr hδ
  have e : α - δ = γ * (α - β) := by rw [hτ]; ring
  have hg : γ ≠ 0 := by rintro rfl; apply hn; rw [e, zero_mul]
  unfold meet
  rw [e]
  refine Prod.ext ?_ ?_ <;> simp only <;> field_simp <;> ring

theorem meet_right (a b : Pt) {α β γ δ : Rat} (hδ : δ ≠ β) (hβ : α - β ≠ 0) (hτ : δ = α + γ * (β - α)) :
    meet (a.1 + γ * (b.1 - a.1), a.2 + γ * (b.2 - a.2)) b δ β = meet a b α β := by
  have hn : δ - β ≠ 0 := sub_ne_zero.mpr hδ
  have e : δ - β = (1 - γ) * (α - β) := by rw [hτ]; ring
  have hg : 1 - γ ≠ 0 := by intro h; apply hn; rw [e, h, zero_mul]
  unfold meet
  rw [e, hτ]
  refine Prod.ext ?_ ?_ <;> simp only <;> field_simp <;> ring

/-- Cutting by a parallel line farther out first makes no difference to what is counted. -/
theorem cut_parallel_sum {s s' : Pt → Rat} (h : Affine s) (h' : Affine s') {δ : Rat} (hδ : 0 < δ) (he : ∀ p, s' p = s p + δ)
    (g : Pt → Pt → Rat) (p : List Pt) : loopOf (onCut s g) (cut s' p) = loopOf (onCut s g) p := by
  rw [cut_sum h' (by
    intro p q hp hq
    rw [he] at hp hq
    exact onCut_out (by linarith) (by linarith))]
  apply loopOf_congr
  intro a b
  have hm : ∀ t : Rat, s (a.1 + t * (b.1 - a.1), a.2 + t * (b.2 - a.2)) = s a + t * (s b - s a) := h a b
  by_cases ha : 0 ≤ s' a
  · by_cases hb : 0 ≤ s' b
    · rw [onCut, if_pos ha, if_pos hb]
    · have hne : s' a ≠ s' b := fun h => hb (h ▸ ha)
      have hz := meet_zero h' hne
      rw [onCut, if_pos ha, if_neg hb]
      have hsb : s b < 0 := by have := not_le.mp hb; rw [he] at this; linarith
      rw [he] at hz
      have e1 : s (meet a b (s' a) (s' b)) = -δ := by linarith
      by_cases hsa : 0 ≤ s a
      · rw [onCut, if_pos hsa, if_neg (by rw [e1]; linarith), onCut, if_pos hsa, if_neg (by linarith)]
        congr 1
        rw [e1]
        unfold meet at e1
        rw [hm] at e1
        exact meet_left a b (by intro h; linarith) (by intro h; linarith) e1.symm rfl
      · rw [onCut_out (not_le.mp hsa) (by rw [e1]; linarith), onCut_out (not_le.mp hsa) hsb]
  · have hsa : s a < 0 := by have := not_le.mp ha; rw [he] at this; linarith
    by_cases hb : 0 ≤ s' b
    · have hne : s' a ≠ s' b := fun h => ha (h ▸ hb)
      have hz := meet_zero h' hne
      rw [onCut, if_neg ha, if_pos hb]
      rw [he] at hz
      have e1 : s (meet a b (s' a) (s' b)) = -δ := by linarith
      by_cases hsb : 0 ≤ s b
      · rw [onCut, if_neg (by rw [e1]; linarith), if_pos hsb, onCut, if_neg (by linarith), if_pos hsb]
        congr 1
        rw [e1]
        unfold meet at e1
        rw [hm] at e1
        exact meet_right a b (by intro h; linarith) (by intro h; linarith) e1.symm
      · rw [onCut_out (by rw [e1]; linarith) (not_le.mp hsb), onCut_out hsa (not_le.mp hsb)]
    · have hsb : s b < 0 := by have := not_le.mp hb; rw [he] at this; linarith
      rw [onCut, if_neg ha, if_neg hb, onCut_out hsa hsb]

theorem cut_parallel_side {s s' u : Pt → Rat} {o : Pt} (h : OnLine s o) (hu : OnLine u o) (h' : Affine s') {δ : Rat}
    (hδ : 0 < δ) (he : ∀ p, s' p = s p + δ) (p : List Pt) :
    signedArea (cut u (cut s (cut s' p))) = signedArea (cut u (cut s p)) := by
  have flat : ∀ a b, s a = 0 → s b = 0 → onCut u (crossAt o) a b = 0 := by
    intro a b ha hb
    rw [onCut_crossAt, h.flat a b ha hb, mul_zero]
  rw [cut_area hu, cut_area hu, cut_sum h.affine flat, cut_sum h.affine flat, cut_parallel_sum h.affine h' hδ he]

theorem corner_lines (c d : Rat) : OnLine (leftOf c) (c, d) ∧ OnLine (rightOf c) (c, d) ∧ OnLine (below d) (c, d) := by
  refine ⟨⟨affine_leftOf c, ?_⟩, ⟨affine_rightOf c, ?_⟩, ⟨affine_below d, ?_⟩⟩
  · intro p q h1 h2
    simp only [leftOf] at h1 h2
    simp only [crossAt, cross]
    rw [show p.1 - c = 0 by linarith, show q.1 - c = 0 by linarith]
    ring
  · intro p q h1 h2
    simp only [rightOf] at h1 h2
    simp only [crossAt, cross]
    rw [h1, h2]
    ring
  · intro p q h1 h2
    simp only [below] at h1 h2
    simp only [crossAt, cross]
    rw [show p.2 - d = 0 by linarith, show q.2 - d = 0 by linarith]
    ring

/-- What is below a line of the strip between two others. -/
theorem strip_below {c c' : Rat} (hc : c < c') (d : Rat) (p : List Pt) :
    signedArea (cut (below d) (cut (rightOf c) (cut (leftOf c') p))) =
      signedArea (cut (below d) (cut (leftOf c') p)) - signedArea (cut (below d) (cut (leftOf c) p)) := by
  obtain ⟨l, r, b⟩ := corner_lines c d
  have e : rightOf c = fun p => - leftOf c p := lines_x.opposite c
  have h1 := cut_both_side l (by rw [← e]; exact r) b (cut (leftOf c') p)
  rw [← e, cut_parallel_side l b (affine_leftOf c') (sub_pos.mpr hc) (lines_x.parallel c c')] at h1
  linarith

/-- The part of a rectangle in terms of what is to the left and below. -/
theorem cutRect_area {x y X Y : Rat} (hx : x < X) (hy : y < Y) (p : List Pt) :
    signedArea (cutRect p x y X Y) =
      (signedArea (cut (below Y) (cut (leftOf X) p)) - signedArea (cut (below Y) (cut (leftOf x) p))) -
      (signedArea (cut (below y) (cut (leftOf X) p)) - signedArea (cut (below y) (cut (leftOf x) p))) := by
  unfold cutRect
  rw [strip_area lines_y hy, strip_below hx, strip_below hx]

/-- The parts of a polygon in the cells of a division of a rectangle make up its part in the rectangle. -/
theorem cells_refine {x y : List Rat} (hx : ∀ k, k + 1 < x.length → x.getD k 0 < x.getD (k + 1) 0)
    (hy : ∀ k, k + 1 < y.length → y.getD k 0 < y.getD (k + 1) 0) (m n : Nat) (hm : m + 1 < x.length) (hn : n + 1 < y.length)
    (p : List Pt) :
    ((List.range (m + 1)).map fun i => ((List.range (n + 1)).map fun j =>
      signedArea (cutRect p (x.getD i 0) (y.getD j 0) (x.getD (i + 1) 0) (y.getD (j + 1) 0))).sum).sum =
      signedArea (cutRect p (x.getD 0 0) (y.getD 0 0) (x.getD (m + 1) 0) (y.getD (n + 1) 0)) := by
  have mono : ∀ {e : List Rat}, (∀ k, k + 1 < e.length → e.getD k 0 < e.getD (k + 1) 0) → ∀ k, k + 1 < e.length →
      e.getD 0 0 < e.getD (k + 1) 0 := by
    intro e he k
    induction k with
    | zero => exact he 0
    | succ k ih => intro hk; exact (ih (by omega)).trans (he _ hk)
  have tel : ∀ (f : Nat → Rat) (k : Nat), ((List.range k).map fun i => f (i + 1) - f i).sum = f k - f 0 := by
    intro f k
    induction k with
    | zero => simp
    | succ k ih =>
      rw [List.range_succ, List.map_append, List.sum_append, ih]
      simp
  rw [cutRect_area (mono hx m hm) (mono hy n hn)]
  let F : Nat → Nat → Rat := fun i j => signedArea (cut (below (y.getD j 0)) (cut (leftOf (x.getD i 0)) p))
  have inner : ∀ i, i < m + 1 → ((List.range (n + 1)).map fun j =>
      signedArea (cutRect p (x.getD i 0) (y.getD j 0) (x.getD (i + 1) 0) (y.getD (j + 1) 0))).sum =
      (F (i + 1) (n + 1) - F (i + 1) 0) - (F i (n + 1) - F i 0) := by
    intro i hi
    have := tel (fun j => F (i + 1) j - F i j) (n + 1)
    rw [show (F (i + 1) (n + 1) - F (i + 1) 0) - (F i (n + 1) - F i 0) =
      (F (i + 1) (n + 1) - F i (n + 1)) - (F (i + 1) 0 - F i 0) by ring, ← this]
    refine congrArg List.sum (List.map_congr_left fun j hj => ?_)
    rw [cutRect_area (hx i (by omega)) (hy j (by have := List.mem_range.mp hj; omega))]
  rw [List.map_congr_left fun i hi => inner i (List.mem_range.mp hi), tel fun i => F i (n + 1) - F i 0]
  ring

end Verif.Proofs
