import Verif.Proofs.ConvexClip

/-!
# The middle of a convex polygon

The mean of the corners of a polygon with an area is in its interior, so every rectangle around it has a part of the
polygon.
-/

namespace Verif.Proofs

open Verif.Py Verif.Spec

/-! ## Polygons without an area -/

theorem path_zero {g : Pt → Pt → Rat} (l : List Pt) (a : Pt) (h : List.IsChain (fun a b => 0 ≤ g a b) (a :: l))
    (h0 : pathOf g a l = 0) : 0 ≤ pathOf g a l ∧ List.IsChain (fun a b => g a b = 0) (a :: l) := by
  have nonneg : ∀ (l : List Pt) (a : Pt), List.IsChain (fun a b => 0 ≤ g a b) (a :: l) → 0 ≤ pathOf g a l := by
    intro l
    induction l with
    | nil => intro a _; exact le_refl _
    | cons b l ih =>
      intro a h
      rw [List.isChain_cons_cons] at h
      exact add_nonneg h.1 (ih b h.2)
  refine ⟨h0.ge, ?_⟩
  induction l generalizing a with
  | nil => exact List.IsChain.singleton _
  | cons b l ih =>
    rw [List.isChain_cons_cons] at h
    have h1 := nonneg l b h.2
    simp only [pathOf] at h0
    rw [List.isChain_cons_cons]
    exact ⟨by linarith [h.1], ih b h.2 (by linarith [h.1])⟩

theorem all_equal {l : List Pt} {a : Pt} (h : List.IsChain (fun a b => a = b) (a :: l)) : ∀ v ∈ l, v = a := by
  induction l generalizing a with
  | nil => intro v hv; exact absurd hv List.not_mem_nil
  | cons b l ih =>
    rw [List.isChain_cons_cons] at h
    obtain ⟨rfl, h⟩ := h
    intro v hv
    rcases List.mem_cons.mp hv with rfl | hv
    · rfl
    · exact ih h v hv

/-- A polygon with three points that are not on a line has an area. -/
theorem area_of_hull {Q : Pt → Prop} (hQ : SegClosed Q) {p : List Pt} (h : Around Q p) {o1 o2 o3 : Pt} (h1 : InHull p o1)
    (h2 : InHull p o2) (h3 : InHull p o3) (hne : crossAt o1 o2 o3 ≠ 0) : signedArea p ≠ 0 := by
  intro h0
  cases hz : p.getLast? with
  | none =>
    have hp : p = [] := List.getLast?_eq_none_iff.mp hz
    subst hp
    exact hull_sub (Q := fun _ => False) (fun _ _ _ _ _ h => h.elim) (fun v hv => absurd hv List.not_mem_nil) h1
  | some z =>
    have flat : ∀ o, Q o → List.IsChain (fun a b => crossAt o a b = 0) (z :: p) := by
      intro o ho
      refine (path_zero p z ((h.left z hz).imp fun a b hab => ?_) ?_).2
      · have := hab o ho
        have e : crossAt o a b = crossAt a b o := by simp only [crossAt, cross]; ring
        rw [e]
        exact this
      · rw [signedArea_loop, ← loopOf_crossAt o] at h0
        unfold loopOf at h0
        rw [hz] at h0
        simp only at h0
        linarith
    have q := fun {o} (ho : InHull p o) => hull_sub hQ h.within ho
    have equal : List.IsChain (fun a b : Pt => a = b) (z :: p) := by
      have c1 := List.isChain_iff_getElem.mp (flat o1 (q h1))
      have c2 := List.isChain_iff_getElem.mp (flat o2 (q h2))
      have c3 := List.isChain_iff_getElem.mp (flat o3 (q h3))
      rw [List.isChain_iff_getElem]
      intro k hk
      have e1 := c1 k hk
      have e2 := c2 k hk
      have e3 := c3 k hk
      generalize (z :: p)[k] = a at *
      generalize (z :: p)[k + 1] = b at *
      simp only [crossAt, cross] at e1 e2 e3 hne
      refine Prod.ext ?_ ?_
      · have : (a.1 - b.1) * ((o2.1 - o1.1) * (o3.2 - o1.2) - (o3.1 - o1.1) * (o2.2 - o1.2)) = 0 := by
          linear_combination (o2.1 - o3.1) * e1 + (o3.1 - o1.1) * e2 - (o2.1 - o1.1) * e3
        rcases mul_eq_zero.mp this with h | h
        · linarith
        · exact absurd h hne
      · have : (a.2 - b.2) * ((o2.1 - o1.1) * (o3.2 - o1.2) - (o3.1 - o1.1) * (o2.2 - o1.2)) = 0 := by
          linear_combination (o2.2 - o3.2) * e1 + (o3.2 - o1.2) * e2 - (o2.2 - o1.2) * e3
        rcases mul_eq_zero.mp this with h | h
        · linarith
        · exact absurd h hne
    have point : ∀ r, InHull p r → r = z := fun r hr => hull_sub (Q := fun r => r = z) (by
      rintro a b t - - rfl rfl
      simp) (all_equal equal) hr
    rw [point o1 h1, point o2 h2, point o3 h3] at hne
    exact hne (by simp [crossAt, cross])

/-! ## Around the mean -/

/-- The mean of points. -/
def middle (l : List Pt) : Pt := ((l.map Prod.fst).sum / l.length, (l.map Prod.snd).sum / l.length)

theorem middle_in {Q : Pt → Prop} (hQ : SegClosed Q) : ∀ {l : List Pt}, l ≠ [] → (∀ v ∈ l, Q v) → Q (middle l) := by
  intro l
  induction l with
  | nil => intro h; exact absurd rfl h
  | cons a l ih =>
    intro _ h
    have ha := h a List.mem_cons_self
    by_cases hl : l = []
    · subst hl
      have : middle [a] = a := by unfold middle; simp
      rw [this]
      exact ha
    · have hm := ih hl fun v hv => h v (List.mem_cons_of_mem _ hv)
      have hn : (0 : Rat) < l.length := by exact_mod_cast List.length_pos_of_ne_nil hl
      have := hQ a (middle l) (l.length / (l.length + 1)) (by positivity)
        (by rw [div_le_one (by positivity)]; linarith) ha hm
      have e : middle (a :: l) = (a.1 + l.length / (l.length + 1) * ((middle l).1 - a.1),
          a.2 + l.length / (l.length + 1) * ((middle l).2 - a.2)) := by
        unfold middle
        simp only [List.map_cons, List.sum_cons, List.length_cons, Nat.cast_add, Nat.cast_one]
        refine Prod.ext ?_ ?_ <;> simp only <;> field_simp <;> ring
      rw [e]
      exact this

/-- The point opposite to a corner, seen from the mean. -/
theorem middle_opposite {Q : Pt → Prop} (hQ : SegClosed Q) {l : List Pt} {a : Pt} (ha : a ∈ l) (h2 : 2 ≤ l.length)
    (h : ∀ v ∈ l, Q v) : Q ((middle l).1 - 1 / (l.length - 1) * (a.1 - (middle l).1),
      (middle l).2 - 1 / (l.length - 1) * (a.2 - (middle l).2)) := by
  have hp := List.perm_cons_erase ha
  have hlen : l.length = (l.erase a).length + 1 := by rw [hp.length_eq]; simp
  have hne : l.erase a ≠ [] := by
    intro h0
    rw [h0] at hlen
    simp at hlen
    omega
  have hm := middle_in hQ hne fun v hv => h v (List.mem_of_mem_erase hv)
  have hn : (0 : Rat) < (l.erase a).length := by exact_mod_cast List.length_pos_of_ne_nil hne
  have s1 : (l.map Prod.fst).sum = a.1 + ((l.erase a).map Prod.fst).sum := by
    rw [(hp.map Prod.fst).sum_eq]; simp
  have s2 : (l.map Prod.snd).sum = a.2 + ((l.erase a).map Prod.snd).sum := by
    rw [(hp.map Prod.snd).sum_eq]; simp
  have e : middle (l.erase a) = ((middle l).1 - 1 / (l.length - 1) * (a.1 - (middle l).1),
      (middle l).2 - 1 / (l.length - 1) * (a.2 - (middle l).2)) := by
    unfold middle
    rw [s1, s2, hlen]
    push_cast
    rw [add_sub_cancel_right]
    refine Prod.ext ?_ ?_ <;> simp only <;> field_simp <;> ring
  rw [← e]
  exact hm

/-- A set that is closed under segments and has four points around a centre has the parallelogram between them. -/
theorem parallelogram {Q : Pt → Prop} (hQ : SegClosed Q) {c u v : Pt} (h1 : Q (c.1 + u.1, c.2 + u.2))
    (h2 : Q (c.1 - u.1, c.2 - u.2)) (h3 : Q (c.1 + v.1, c.2 + v.2)) (h4 : Q (c.1 - v.1, c.2 - v.2)) {α β : Rat}
    (hs : |α| + |β| ≤ 1) : Q (c.1 + α * u.1 + β * v.1, c.2 + α * u.2 + β * v.2) := by
  have hc : Q c := by
    have := hQ _ _ (1/2) (by norm_num) (by norm_num) h1 h2
    have e : ((c.1 + u.1) + 1 / 2 * (c.1 - u.1 - (c.1 + u.1)), (c.2 + u.2) + 1 / 2 * (c.2 - u.2 - (c.2 + u.2))) = c := by
      refine Prod.ext ?_ ?_ <;> simp only <;> ring
    rw [← e]
    exact this
  -- for coefficients that are not negative
  have pos : ∀ {u v : Pt} {α β : Rat}, Q (c.1 + u.1, c.2 + u.2) → Q (c.1 + v.1, c.2 + v.2) → 0 ≤ α → 0 ≤ β → α + β ≤ 1 →
      Q (c.1 + α * u.1 + β * v.1, c.2 + α * u.2 + β * v.2) := by
    intro u v α β hu hv ha hb hab
    rcases eq_or_lt_of_le (add_nonneg ha hb) with h0 | h0
    · have ea : α = 0 := by linarith
      have eb : β = 0 := by linarith
      rw [ea, eb]
      simpa using hc
    · have hm := hQ _ _ (β / (α + β)) (by positivity) (by rw [div_le_one h0]; linarith) hu hv
      have := hQ _ _ (α + β) h0.le hab hc hm
      simp only at this
      convert this using 2 <;> field_simp <;> ring
  have neg : ∀ {u : Pt}, Q (c.1 - u.1, c.2 - u.2) → Q (c.1 + (-u.1, -u.2).1, c.2 + (-u.1, -u.2).2) := by
    intro u hu
    simpa [sub_eq_add_neg] using hu
  rcases le_total 0 α with ha | ha <;> rcases le_total 0 β with hb | hb
  · rw [abs_of_nonneg ha, abs_of_nonneg hb] at hs
    exact pos h1 h3 ha hb hs
  · rw [abs_of_nonneg ha, abs_of_nonpos hb] at hs
    have := pos h1 (neg h4) ha (neg_nonneg.mpr hb) hs
    simpa using this
  · rw [abs_of_nonpos ha, abs_of_nonneg hb] at hs
    have := pos (neg h2) h3 (neg_nonneg.mpr ha) hb hs
    simpa using this
  · rw [abs_of_nonpos ha, abs_of_nonpos hb] at hs
    have := pos (neg h2) (neg h4) (neg_nonneg.mpr ha) (neg_nonneg.mpr hb) hs
    simpa using this

/-- If no two corners are in different directions from a point, there is no area. -/
theorem two_directions {p : List Pt} (c : Pt) (h : signedArea p ≠ 0) : ∃ a ∈ p, ∃ b ∈ p, crossAt c a b ≠ 0 := by
  by_contra hn
  push Not at hn
  apply h
  rw [signedArea_loop, ← loopOf_crossAt c]
  unfold loopOf
  split
  · simp
  · rename_i z hz
    have key : ∀ (l : List Pt) (a : Pt), a ∈ p → (∀ v ∈ l, v ∈ p) → pathOf (crossAt c) a l = 0 := by
      intro l
      induction l with
      | nil => intro a _ _; rfl
      | cons b l ih =>
        intro a ha hl
        have hb := hl b List.mem_cons_self
        simp only [pathOf]
        rw [hn a ha b hb, ih b hb fun v hv => hl v (List.mem_cons_of_mem _ hv), add_zero]
    rw [key p z (List.mem_of_getLast? hz) fun v hv => hv, zero_div]

/-- A bound on a two-by-two determinant by its rows. -/
theorem minor_le {x y s t E : Rat} (hs : |s| ≤ E) (ht : |t| ≤ E) :
    |s * y - x * t| ≤ E * (|x| + |y|) := by
  have h := abs_add_le (s * y) (-(x * t))
  rw [abs_neg, abs_mul, abs_mul, ← sub_eq_add_neg] at h
  have h1 := mul_le_mul_of_nonneg_right hs (abs_nonneg y)
  have h2 := mul_le_mul_of_nonneg_left ht (abs_nonneg x)
  linarith

/-- All points near the mean of the corners belong to the polygon. -/
theorem around_middle {p : List Pt} (h : signedArea p ≠ 0) :
    ∃ δ > 0, ∀ r : Pt, |r.1 - (middle p).1| ≤ δ → |r.2 - (middle p).2| ≤ δ → InHull p r := by
  obtain ⟨a, ha, b, hb, hab⟩ := two_directions (middle p) h
  have hQ := segClosed_hull p
  have hcorner : ∀ v ∈ p, InHull p v := fun v hv => InHull.corner hv
  have hp : p ≠ [] := List.ne_nil_of_mem ha
  have h2 : 2 ≤ p.length := by
    by_contra hlt
    have h1 : p.length = 1 := by have := List.length_pos_of_ne_nil hp; omega
    obtain ⟨w, rfl⟩ := List.length_eq_one_iff.mp h1
    rw [List.mem_singleton] at ha hb
    rw [ha, hb] at hab
    exact hab (by simp only [crossAt, cross]; ring)
  have hc := middle_in hQ hp hcorner
  generalize hcm : middle p = c at *
  have hn : (1 : Rat) ≤ p.length - 1 := by
    have : (2 : Rat) ≤ p.length := by exact_mod_cast h2
    linarith
  -- the directions, short enough to go both ways
  let ε : Rat := 1 / (p.length - 1)
  have he0 : 0 < ε := by positivity
  have he1 : ε ≤ 1 := by
    show 1 / ((p.length : Rat) - 1) ≤ 1
    rw [div_le_one (by linarith)]
    exact hn
  have both : ∀ w ∈ p, InHull p (c.1 + ε * (w.1 - c.1), c.2 + ε * (w.2 - c.2)) ∧
      InHull p (c.1 - ε * (w.1 - c.1), c.2 - ε * (w.2 - c.2)) := by
    intro w hw
    refine ⟨hQ c w ε he0.le he1 hc (hcorner w hw), ?_⟩
    have := middle_opposite hQ hw h2 hcorner
    rw [hcm] at this
    exact this
  obtain ⟨a1, a2⟩ := both a ha
  obtain ⟨b1, b2⟩ := both b hb
  let u : Pt := (ε * (a.1 - c.1), ε * (a.2 - c.2))
  let v : Pt := (ε * (b.1 - c.1), ε * (b.2 - c.2))
  let D : Rat := u.1 * v.2 - v.1 * u.2
  have hD : D ≠ 0 := by
    have e : D = ε ^ 2 * crossAt c a b := by
      simp only [D, u, v, crossAt, cross]; ring
    rw [e]
    exact mul_ne_zero (pow_ne_zero _ he0.ne') hab
  let S : Rat := |u.1| + |u.2| + |v.1| + |v.2|
  have hS : 0 < S := by
    by_contra hle
    have s1 := abs_nonneg u.1
    have s2 := abs_nonneg u.2
    have s3 := abs_nonneg v.1
    have s4 := abs_nonneg v.2
    have t1 : |u.1| = 0 := by simp only [S] at hle; linarith
    have t3 : |v.1| = 0 := by simp only [S] at hle; linarith
    apply hD
    simp only [D]
    rw [abs_eq_zero.mp t1, abs_eq_zero.mp t3]
    ring
  refine ⟨|D| / S, div_pos (abs_pos.mpr hD) hS, ?_⟩
  intro r hr1 hr2
  let α : Rat := ((r.1 - c.1) * v.2 - v.1 * (r.2 - c.2)) / D
  let β : Rat := (u.1 * (r.2 - c.2) - (r.1 - c.1) * u.2) / D
  have hs : |α| + |β| ≤ 1 := by
    have n1 : |(r.1 - c.1) * v.2 - v.1 * (r.2 - c.2)| ≤ |D| / S * (|v.1| + |v.2|) := by
      exact minor_le hr1 hr2
    have n2 : |u.1 * (r.2 - c.2) - (r.1 - c.1) * u.2| ≤ |D| / S * (|u.1| + |u.2|) := by
      have := minor_le (x := u.1) (y := u.2) hr1 hr2
      rw [abs_sub_comm] at this
      exact this
    simp only [α, β]
    rw [abs_div, abs_div, ← add_div, div_le_one (abs_pos.mpr hD)]
    have e : |D| / S * (|v.1| + |v.2|) + |D| / S * (|u.1| + |u.2|) = |D| := by
      rw [← mul_add]
      have : |v.1| + |v.2| + (|u.1| + |u.2|) = S := by simp only [S]; ring
      rw [this]
      exact div_mul_cancel₀ _ hS.ne'
    linarith
  have := parallelogram hQ (c := c) (u := u) (v := v) a1 a2 b1 b2 hs
  have e : (c.1 + α * u.1 + β * v.1, c.2 + α * u.2 + β * v.2) = r := by
    refine Prod.ext ?_ ?_
    · simp only [α, β]
      field_simp
      simp only [D]
      ring
    · simp only [α, β]
      field_simp
      simp only [D]
      ring
  rw [← e]
  exact this

/-- A rectangle with the mean of the corners on it has a part of the polygon with an area. -/
theorem cutRect_middle {Q : Pt → Prop} (hQ : SegClosed Q) {p : List Pt} (h : Around Q p) (ha : signedArea p ≠ 0)
    {x y X Y : Rat} (hx : x < X) (hy : y < Y) (x0 : x ≤ (middle p).1) (x1 : (middle p).1 ≤ X) (y0 : y ≤ (middle p).2)
    (y1 : (middle p).2 ≤ Y) : signedArea (cutRect p x y X Y) ≠ 0 := by
  obtain ⟨δ, hδ, hin⟩ := around_middle ha
  have q1 := segClosed_side hQ (affine_leftOf X)
  have q2 := segClosed_side q1 (affine_rightOf x)
  have q3 := segClosed_side q2 (affine_below Y)
  have q4 := segClosed_side q3 (affine_above y)
  have a4 := cut_around q3 (directed_above y) (cut_around q2 (directed_below Y)
    (cut_around q1 (directed_rightOf x) (cut_around hQ (directed_leftOf X) h)))
  generalize middle p = c at *
  -- a smaller rectangle
  have mem : ∀ r : Pt, max x (c.1 - δ) ≤ r.1 → r.1 ≤ min X (c.1 + δ) → max y (c.2 - δ) ≤ r.2 → r.2 ≤ min Y (c.2 + δ) →
      InHull (cutRect p x y X Y) r := by
    intro r r1 r2 r3 r4
    rw [cutRect_hull hQ h]
    refine ⟨hin r (abs_le.mpr ⟨?_, ?_⟩) (abs_le.mpr ⟨?_, ?_⟩), ?_, ?_, ?_, ?_⟩
    · linarith [(le_max_right x (c.1 - δ)).trans r1]
    · linarith [r2.trans (min_le_right X (c.1 + δ))]
    · linarith [(le_max_right y (c.2 - δ)).trans r3]
    · linarith [r4.trans (min_le_right Y (c.2 + δ))]
    · exact (le_max_left _ _).trans r1
    · exact r2.trans (min_le_left _ _)
    · exact (le_max_left _ _).trans r3
    · exact r4.trans (min_le_left _ _)
  have lx : max x (c.1 - δ) < min X (c.1 + δ) := max_lt (lt_min hx (by linarith)) (lt_min (by linarith) (by linarith))
  have ly : max y (c.2 - δ) < min Y (c.2 + δ) := max_lt (lt_min hy (by linarith)) (lt_min (by linarith) (by linarith))
  refine area_of_hull q4 a4 (mem (max x (c.1 - δ), max y (c.2 - δ)) (le_refl _) lx.le (le_refl _) ly.le)
    (mem (min X (c.1 + δ), max y (c.2 - δ)) lx.le (le_refl _) (le_refl _) ly.le)
    (mem (max x (c.1 - δ), min Y (c.2 + δ)) (le_refl _) lx.le ly.le (le_refl _)) ?_
  simp only [crossAt, cross]
  have : (min X (c.1 + δ) - max x (c.1 - δ)) * (min Y (c.2 + δ) - max y (c.2 - δ)) ≠ 0 :=
    mul_ne_zero (by linarith) (by linarith)
  intro h0
  apply this
  linear_combination h0

end Verif.Proofs
