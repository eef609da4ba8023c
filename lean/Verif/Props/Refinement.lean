import Verif.Props.ConvexPixels
import Verif.Proofs.Refine

/-!
# C155: images on finer grids
-/

namespace Verif.Props

open Verif.Py Verif.Model Verif.Spec Verif.Proofs

/-- The centre of part `i` when the box with centre `c` is divided into `k` parts of size `d`. -/
def subCentre (k : Nat) (d c : Rat) (i : Nat) : Rat := c - k * d / 2 + (i + 1/2) * d

/-- The values in the parts of a box. -/
def partValues (K L : Nat) (v : Nat → Nat → Rat) : List Rat := (List.range K).flatMap fun i => (List.range L).map fun j => v i j

theorem mem_partValues {K L : Nat} {v : Nat → Nat → Rat} {u : Rat} :
    u ∈ partValues K L v ↔ ∃ i j, i < K ∧ j < L ∧ v i j = u := by
  unfold partValues
  simp only [List.mem_flatMap, List.mem_map, List.mem_range]
  constructor
  · rintro ⟨i, hi, j, hj, h⟩; exact ⟨i, j, hi, hj, h⟩
  · rintro ⟨i, j, hi, hj, h⟩; exact ⟨i, hi, j, hj, h⟩

/-- The area of a convex footprint in a box is the sum of its areas in the parts of the box. -/
theorem partArea_refine {p : Poly} (hc : ConvexPoly p) (ha : signedArea p ≠ 0) {dx dy : Rat} (hdx : 0 < dx) (hdy : 0 < dy)
    {K L : Nat} (hK : 0 < K) (hL : 0 < L) (X Y : Rat) :
    partArea convexClip p (pixelAt (K * dx) (L * dy) X Y) =
      overBoxes K L fun i j => partArea convexClip p (pixelAt dx dy (subCentre K dx X i) (subCentre L dy Y j)) := by
  obtain ⟨K, rfl⟩ := Nat.exists_eq_succ_of_ne_zero hK.ne'
  obtain ⟨L, rfl⟩ := Nat.exists_eq_succ_of_ne_zero hL.ne'
  have step : ∀ {lo d : Rat} {m : Nat}, 0 < d → ∀ k, k + 1 < (boxEdges lo d m).length →
      (boxEdges lo d m).getD k 0 < (boxEdges lo d m).getD (k + 1) 0 := by
    intro lo d m hd k hk
    rw [boxEdges_length] at hk
    rw [boxEdges_getD lo d (by omega), boxEdges_getD lo d (by omega)]
    push_cast
    linarith
  have h := cells_refine (x := boxEdges (X - (K + 1 : Nat) * dx / 2) dx (K + 1))
    (y := boxEdges (Y - (L + 1 : Nat) * dy / 2) dy (L + 1)) (step hdx) (step hdy) K L
    (by rw [boxEdges_length]; omega) (by rw [boxEdges_length]; omega) (counterclockwise p)
  unfold pixelAt overBoxes subCentre
  simp only [partArea_convex hc ha]
  rw [boxEdges_getD _ _ (by omega), boxEdges_getD _ _ (by omega), boxEdges_getD _ _ (by omega),
    boxEdges_getD _ _ (by omega)] at h
  have e : signedArea (cutRect (counterclockwise p) (X - (K + 1 : Nat) * dx / 2) (Y - (L + 1 : Nat) * dy / 2)
      (X + (K + 1 : Nat) * dx / 2) (Y + (L + 1 : Nat) * dy / 2)) =
      signedArea (cutRect (counterclockwise p) (X - (K + 1 : Nat) * dx / 2 + (0 : Nat) * dx)
        (Y - (L + 1 : Nat) * dy / 2 + (0 : Nat) * dy) (X - (K + 1 : Nat) * dx / 2 + (K + 1 : Nat) * dx)
        (Y - (L + 1 : Nat) * dy / 2 + (L + 1 : Nat) * dy)) := by
    congr 2 <;> push_cast <;> ring
  rw [e, ← h]
  refine congrArg List.sum (List.map_congr_left fun i hi => congrArg List.sum (List.map_congr_left fun j hj => ?_))
  rw [List.mem_range] at hi hj
  rw [boxEdges_getD _ _ (by omega), boxEdges_getD _ _ (by omega), boxEdges_getD _ _ (by omega),
    boxEdges_getD _ _ (by omega)]
  congr 2 <;> push_cast <;> ring

theorem overBoxes_zero {K L : Nat} {f : Nat → Nat → Rat} (h : ∀ i j, 0 ≤ f i j) :
    overBoxes K L f = 0 ↔ ∀ i j, i < K → j < L → f i j = 0 := by
  have zero : ∀ {n : Nat} {w : Nat → Rat}, (∀ a, 0 ≤ w a) → (((List.range n).map w).sum = 0 ↔ ∀ a < n, w a = 0) := by
    intro n w hw
    have := (kept_equal (l := List.range n) (f := fun _ => 0) (g := w) fun a _ => hw a).2
    simp only [List.map_const', List.sum_replicate, List.length_range, smul_zero] at this
    rw [eq_comm, this]
    exact ⟨fun h a ha => (h a (List.mem_range.mpr ha)).symm, fun h a ha => (h a (List.mem_range.mp ha)).symm⟩
  unfold overBoxes
  rw [zero fun i => sum_nonneg_map _ _ fun j _ => h i j]
  constructor
  · intro k i j hi hj
    exact (zero (h i)).mp (k i hi) j hj
  · intro k i hi
    exact (zero (h i)).mpr fun j hj => k i j hi hj

/-- A footprint reaches a box if it reaches one of its parts. -/
theorem reaches_refine {p : Poly} (hc : ConvexPoly p) (ha : signedArea p ≠ 0) {dx dy : Rat} (hdx : 0 < dx) (hdy : 0 < dy)
    {K L : Nat} (hK : 0 < K) (hL : 0 < L) (X Y : Rat) :
    convexClip p (pixelAt (K * dx) (L * dy) X Y) ≠ [] ↔
      ∃ i j, i < K ∧ j < L ∧ convexClip p (pixelAt dx dy (subCentre K dx X i) (subCentre L dy Y j)) ≠ [] := by
  have key : ∀ a b c d : Rat, convexClip p (rect a b c d) ≠ [] ↔ partArea convexClip p (rect a b c d) ≠ 0 := by
    intro a b c d
    rw [partArea_convex hc ha]
    unfold convexClip rect
    simp only
    split <;> rename_i h0
    · simp [h0]
    · simp [h0]
  have key' : ∀ dx dy X Y : Rat, convexClip p (pixelAt dx dy X Y) ≠ [] ↔ partArea convexClip p (pixelAt dx dy X Y) ≠ 0 :=
    fun _ _ _ _ => key _ _ _ _
  rw [key', partArea_refine hc ha hdx hdy hK hL, Ne, overBoxes_zero fun i j => partArea_nonneg _ _ _]
  simp only [key']
  push Not
  rfl

theorem sum_overBoxes {α : Type} {K L : Nat} {l : List α} {c : α → Rat} {f : α → Nat → Nat → Rat}
    (h : ∀ a ∈ l, c a = overBoxes K L (f a)) : (l.map c).sum = overBoxes K L fun i j => (l.map fun a => f a i j).sum := by
  rw [overBoxes_sum]
  exact congrArg List.sum (List.map_congr_left h)

/-- What a box holds, from what its parts hold. -/
theorem PixelHolds.refine {foot : Pt → Poly} {me mg : Option Int} {files : List GFile} {dx dy X Y : Rat} {K L : Nat}
    {fed fa te ged ga mfa : Rat} {fed' fa' te' ged' ga' mfa' : Nat → Nat → Rat} (hdx : 0 < dx) (hdy : 0 < dy) (hK : 0 < K)
    (hL : 0 < L)
    (hc : ∀ d ∈ files, ∀ e ∈ d.events, ConvexPoly (foot (placeOf e)) ∧ signedArea (foot (placeOf e)) ≠ 0)
    (hpos : ∀ d ∈ files, ∀ f ∈ countedFlashes me mg d, flashPlaces d f ≠ [] → 0 < f.val.area)
    (h : PixelHolds convexClip foot me mg files (K * dx) (L * dy) X Y fed fa te ged ga mfa)
    (h' : ∀ i j, i < K → j < L → PixelHolds convexClip foot me mg files dx dy (subCentre K dx X i) (subCentre L dy Y j)
      (fed' i j) (fa' i j) (te' i j) (ged' i j) (ga' i j) (mfa' i j)) :
    te = overBoxes K L te' ∧ K * L * fed = overBoxes K L fed' ∧ K * L * fa = overBoxes K L fa' ∧
    K * L * ged = overBoxes K L ged' ∧ K * L * ga = overBoxes K L ga' ∧
    LeastOrZero ((partValues K L mfa').filter fun u => u ≠ 0) mfa ∧ 0 ≤ mfa ∧ ∀ i j, i < K → j < L → 0 ≤ mfa' i j := by
  classical
  have hKL : (K : Rat) * L ≠ 0 := by positivity
  have flashFoot : ∀ d ∈ files, ∀ f : Row GVal, ∀ p ∈ flashPlaces d f, ConvexPoly (foot p) ∧ signedArea (foot p) ≠ 0 := by
    intro d hd f p hp
    obtain ⟨e, he, -, rfl⟩ := mem_flashPlaces.mp hp
    exact hc d hd e he
  have groupFoot : ∀ d ∈ files, ∀ f : Row GVal, ∀ p ∈ groupPlaces d f, ConvexPoly (foot p) ∧ signedArea (foot p) ≠ 0 := by
    intro d hd f p hp
    obtain ⟨e, he, -, rfl⟩ := mem_groupPlaces.mp hp
    exact hc d hd e he
  have cover : ∀ {ps : List Pt}, (∀ p ∈ ps, ConvexPoly (foot p) ∧ signedArea (foot p) ≠ 0) →
      (K : Rat) * L * (ps.map fun p => partArea convexClip (foot p) (pixelAt (K * dx) (L * dy) X Y) / (K * dx * (L * dy))).sum =
      overBoxes K L fun i j => (ps.map fun p => partArea convexClip (foot p)
        (pixelAt dx dy (subCentre K dx X i) (subCentre L dy Y j)) / (dx * dy)).sum := by
    intro ps hps
    rw [← List.sum_map_mul_left]
    refine sum_overBoxes fun p hp => ?_
    rw [partArea_refine (hps p hp).1 (hps p hp).2 hdx hdy hK hL]
    simp only [div_eq_inv_mul]
    rw [overBoxes_mul]
    field_simp
  refine ⟨?_, ?_, ?_, ?_, ?_, ?_⟩
  · rw [h.energy, overBoxes_congr fun i j hi hj => (h' i j hi hj).energy]
    refine sum_overBoxes fun d hd => sum_overBoxes fun e he => ?_
    obtain ⟨c1, c2⟩ := hc d hd e (List.mem_filter.mp he).1
    rw [partArea_refine c1 c2 hdx hdy hK hL, overBoxes_mul]
    simp only [div_eq_inv_mul]
    rw [overBoxes_mul]
  · rw [h.flashes, overBoxes_congr fun i j hi hj => (h' i j hi hj).flashes, ← List.sum_map_mul_left]
    refine sum_overBoxes fun d hd => ?_
    rw [← List.sum_map_mul_left]
    exact sum_overBoxes fun f _ => cover (flashFoot d hd f)
  · rw [h.flashArea, overBoxes_congr fun i j hi hj => (h' i j hi hj).flashArea, ← List.sum_map_mul_left]
    refine sum_overBoxes fun d hd => ?_
    rw [← List.sum_map_mul_left]
    refine sum_overBoxes fun f _ => ?_
    rw [overBoxes_mul, ← cover (flashFoot d hd f)]
    ring
  · rw [h.groups, overBoxes_congr fun i j hi hj => (h' i j hi hj).groups, ← List.sum_map_mul_left]
    refine sum_overBoxes fun d hd => ?_
    rw [← List.sum_map_mul_left]
    exact sum_overBoxes fun f _ => cover (groupFoot d hd f)
  · rw [h.groupArea, overBoxes_congr fun i j hi hj => (h' i j hi hj).groupArea, ← List.sum_map_mul_left]
    refine sum_overBoxes fun d hd => ?_
    rw [← List.sum_map_mul_left]
    refine sum_overBoxes fun f _ => ?_
    rw [overBoxes_mul, ← cover (groupFoot d hd f)]
    ring
  · -- the areas of the flashes that reach a box
    let reach : (Poly → Prop) → List Rat := fun R => files.flatMap fun d => ((countedFlashes me mg d).filter fun (f : Row GVal) =>
      ∃ p ∈ flashPlaces d f, R (foot p)).map fun f => f.val.area
    have hmem : ∀ R u, u ∈ reach R ↔ ∃ d ∈ files, ∃ f ∈ countedFlashes me mg d, (∃ p ∈ flashPlaces d f, R (foot p)) ∧
        f.val.area = u := by
      intro R u
      simp only [reach, List.mem_flatMap, List.mem_map, List.mem_filter, decide_eq_true_eq]
      constructor
      · rintro ⟨d, hd, f, ⟨hf, hp⟩, rfl⟩; exact ⟨d, hd, f, hf, hp, rfl⟩
      · rintro ⟨d, hd, f, hf, hp, rfl⟩; exact ⟨d, hd, f, ⟨hf, hp⟩, rfl⟩
    have hp : ∀ R, ∀ u ∈ reach R, 0 < u := by
      intro R u hu
      obtain ⟨d, hd, f, hf, ⟨p, hp, -⟩, rfl⟩ := (hmem R u).mp hu
      exact hpos d hd f hf (List.ne_nil_of_mem hp)
    have nonneg : ∀ {l : List Rat} {v : Rat}, LeastOrZero l v → (∀ u ∈ l, 0 < u) → 0 ≤ v := by
      intro l v hv hl
      by_cases h0 : l = []
      · rw [hv.1 h0]
      · exact (hl v (hv.2 h0).1).le
    let big : Poly → Prop := fun q => convexClip q (pixelAt (K * dx) (L * dy) X Y) ≠ []
    let small : Nat → Nat → Poly → Prop := fun i j q =>
      convexClip q (pixelAt dx dy (subCentre K dx X i) (subCentre L dy Y j)) ≠ []
    have hl : LeastOrZero (reach big) mfa := by
      convert h.least
    have hl' : ∀ i j, i < K → j < L → LeastOrZero (reach (small i j)) (mfa' i j) := by
      intro i j hi hj
      convert (h' i j hi hj).least
    have hin : ∀ u, u ∈ reach big ↔ ∃ i j, i < K ∧ j < L ∧ u ∈ reach (small i j) := by
      intro u
      rw [hmem]
      constructor
      · rintro ⟨d, hd, f, hf, ⟨p, hp, hr⟩, rfl⟩
        obtain ⟨c1, c2⟩ := flashFoot d hd f p hp
        obtain ⟨i, j, hi, hj, hr⟩ := (reaches_refine c1 c2 hdx hdy hK hL X Y).mp hr
        exact ⟨i, j, hi, hj, (hmem _ _).mpr ⟨d, hd, f, hf, ⟨p, hp, hr⟩, rfl⟩⟩
      · rintro ⟨i, j, hi, hj, hu⟩
        obtain ⟨d, hd, f, hf, ⟨p, hp, hr⟩, rfl⟩ := (hmem _ _).mp hu
        obtain ⟨c1, c2⟩ := flashFoot d hd f p hp
        exact ⟨d, hd, f, hf, ⟨p, hp, (reaches_refine c1 c2 hdx hdy hK hL X Y).mpr ⟨i, j, hi, hj, hr⟩⟩, rfl⟩
    have hne : ∀ i j, i < K → j < L → (mfa' i j ≠ 0 ↔ reach (small i j) ≠ []) := by
      intro i j hi hj
      constructor
      · intro h0 h1
        exact h0 ((hl' i j hi hj).1 h1)
      · intro h1
        exact (hp _ _ ((hl' i j hi hj).2 h1).1).ne'
    refine ⟨⟨fun h0 => hl.1 ?_, fun h0 => ?_⟩, nonneg hl (hp _), fun i j hi hj => nonneg (hl' i j hi hj) (hp _)⟩
    · rw [List.eq_nil_iff_forall_not_mem]
      intro u hu
      obtain ⟨i, j, hi, hj, hu⟩ := (hin u).mp hu
      have : mfa' i j ∈ (partValues K L mfa').filter fun u => u ≠ 0 := by
        rw [List.mem_filter, decide_eq_true_eq]
        exact ⟨mem_partValues.mpr ⟨i, j, hi, hj, rfl⟩, (hne i j hi hj).mpr (List.ne_nil_of_mem hu)⟩
      rw [h0] at this
      exact absurd this List.not_mem_nil
    · have hbig : reach big ≠ [] := by
        obtain ⟨u, hu⟩ := List.exists_mem_of_ne_nil _ h0
        rw [List.mem_filter, decide_eq_true_eq] at hu
        obtain ⟨i, j, hi, hj, rfl⟩ := mem_partValues.mp hu.1
        exact List.ne_nil_of_mem ((hin _).mpr ⟨i, j, hi, hj, ((hl' i j hi hj).2 ((hne i j hi hj).mp hu.2)).1⟩)
      obtain ⟨k1, k2⟩ := hl.2 hbig
      constructor
      · obtain ⟨i, j, hi, hj, hu⟩ := (hin _).mp k1
        have hs := List.ne_nil_of_mem hu
        obtain ⟨m1, m2⟩ := (hl' i j hi hj).2 hs
        have e : mfa' i j = mfa := le_antisymm (m2 _ hu) (k2 _ ((hin _).mpr ⟨i, j, hi, hj, m1⟩))
        rw [List.mem_filter, decide_eq_true_eq]
        exact ⟨mem_partValues.mpr ⟨i, j, hi, hj, e⟩, (hp _ _ k1).ne'⟩
      · intro u hu
        rw [List.mem_filter, decide_eq_true_eq] at hu
        obtain ⟨i, j, hi, hj, rfl⟩ := mem_partValues.mp hu.1
        exact k2 _ ((hin _).mpr ⟨i, j, hi, hj, ((hl' i j hi hj).2 ((hne i j hi hj).mp hu.2)).1⟩)

/-! ## From boxes to images -/

theorem atLeastStep_sum (sc : Bool) {step : Rat} (hs : 0 < step) {α : Type} {l : List α} {f : α → Rat} (hf : ∀ a ∈ l, 0 ≤ f a) :
    atLeastStep sc step (l.map f).sum ≤ (l.map fun a => atLeastStep sc step (f a)).sum := by
  induction l with
  | nil => simp [atLeastStep_zero]
  | cons a l ih =>
    rw [List.map_cons, List.map_cons, List.sum_cons, List.sum_cons]
    have ih := ih fun b hb => hf b (List.mem_cons_of_mem _ hb)
    have h2 : 0 ≤ (l.map f).sum := sum_nonneg_map _ _ fun b hb => hf b (List.mem_cons_of_mem _ hb)
    have := (atLeastStep_add sc hs (hf a List.mem_cons_self) h2).1
    linarith

theorem atLeastStep_boxes (sc : Bool) {step : Rat} (hs : 0 < step) {K L : Nat} {f : Nat → Nat → Rat}
    (hf : ∀ i j, i < K → j < L → 0 ≤ f i j) :
    atLeastStep sc step (overBoxes K L f) ≤ overBoxes K L fun i j => atLeastStep sc step (f i j) := by
  unfold overBoxes
  refine (atLeastStep_sum sc hs fun i hi => sum_nonneg_map _ _ fun j hj =>
    hf i j (List.mem_range.mp hi) (List.mem_range.mp hj)).trans (sum_le_sum_map _ _ _ fun i hi => ?_)
  exact atLeastStep_sum sc hs fun j hj => hf i j (List.mem_range.mp hi) (List.mem_range.mp hj)

theorem boxes_bound {K L : Nat} {f g : Nat → Nat → Rat} {step : Rat}
    (h : ∀ i j, i < K → j < L → f i j ≤ g i j ∧ g i j ≤ f i j + step) :
    overBoxes K L f ≤ overBoxes K L g ∧ overBoxes K L g ≤ overBoxes K L f + K * L * step := by
  have line : ∀ {n : Nat} {u v : Nat → Rat} {s : Rat}, (∀ a < n, u a ≤ v a ∧ v a ≤ u a + s) →
      ((List.range n).map u).sum ≤ ((List.range n).map v).sum ∧
      ((List.range n).map v).sum ≤ ((List.range n).map u).sum + n * s := by
    intro n u v s hs
    refine ⟨sum_le_sum_map _ _ _ fun a ha => (hs a (List.mem_range.mp ha)).1, ?_⟩
    refine (sum_le_sum_map _ _ _ fun a ha => (hs a (List.mem_range.mp ha)).2).trans (le_of_eq ?_)
    rw [List.sum_map_add]
    simp
  unfold overBoxes
  have := line (n := K) (s := L * step) fun i hi => line (n := L) fun j hj => h i j hi hj
  rw [mul_assoc]
  exact this

theorem atLeastStep_eq_zero {sc : Bool} {step v : Rat} (hs : 0 < step) : atLeastStep sc step v = 0 ↔ v = 0 := by
  unfold atLeastStep
  split
  · rename_i h
    exact ⟨fun h0 => absurd h0 hs.ne', fun h0 => absurd h0 h.2.1.ne'⟩
  · rfl

theorem atLeastStep_mono {sc : Bool} {step u v : Rat} (hu : 0 < u) (h : u ≤ v) : atLeastStep sc step u ≤ atLeastStep sc step v := by
  cases sc with
  | false => simpa only [atLeastStep_false] using h
  | true => rw [atLeastStep_pos hu, atLeastStep_pos (hu.trans_le h)]; exact max_le_max h le_rfl

theorem atLeastStep_leastOrZero {sc : Bool} {step : Rat} (hs : 0 < step) {K L : Nat} {f : Nat → Nat → Rat} {m : Rat}
    (hf : ∀ i j, i < K → j < L → 0 ≤ f i j) (h : LeastOrZero ((partValues K L f).filter fun u => u ≠ 0) m)
    {v : Nat → Nat → Rat} (hv : ∀ i j, i < K → j < L → v i j = atLeastStep sc step (f i j)) :
    LeastOrZero ((partValues K L v).filter fun u => u ≠ 0) (atLeastStep sc step m) := by
  have mem : ∀ {g : Nat → Nat → Rat} {u : Rat}, u ∈ ((partValues K L g).filter fun u => u ≠ 0) ↔
      (∃ i j, i < K ∧ j < L ∧ g i j = u) ∧ u ≠ 0 := by
    intro g u
    rw [List.mem_filter, decide_eq_true_eq, mem_partValues]
  have tov : ∀ i j, i < K → j < L → f i j ≠ 0 → v i j ∈ ((partValues K L v).filter fun u => u ≠ 0) := by
    intro i j hi hj h0
    exact mem.mpr ⟨⟨i, j, hi, hj, rfl⟩, by rw [hv i j hi hj]; exact fun h1 => h0 ((atLeastStep_eq_zero hs).mp h1)⟩
  have back : ∀ i j, i < K → j < L → v i j ≠ 0 → f i j ∈ ((partValues K L f).filter fun u => u ≠ 0) := by
    intro i j hi hj h0
    refine mem.mpr ⟨⟨i, j, hi, hj, rfl⟩, fun h1 => h0 ?_⟩
    rw [hv i j hi hj, h1, atLeastStep_zero]
  constructor
  · intro h0
    have : ((partValues K L f).filter fun u => u ≠ 0) = [] := by
      rw [List.eq_nil_iff_forall_not_mem]
      intro u hu
      obtain ⟨⟨i, j, hi, hj, rfl⟩, hne⟩ := mem.mp hu
      have := tov i j hi hj hne
      rw [h0] at this
      exact absurd this List.not_mem_nil
    rw [h.1 this, atLeastStep_zero]
  · intro h0
    have hne : ((partValues K L f).filter fun u => u ≠ 0) ≠ [] := by
      obtain ⟨u, hu⟩ := List.exists_mem_of_ne_nil _ h0
      obtain ⟨⟨i, j, hi, hj, rfl⟩, hne⟩ := mem.mp hu
      exact List.ne_nil_of_mem (back i j hi hj hne)
    obtain ⟨k1, k2⟩ := h.2 hne
    obtain ⟨⟨a, b, ha, hb, e⟩, hm⟩ := mem.mp k1
    have hpos : 0 < m := lt_of_le_of_ne (e ▸ hf a b ha hb) (Ne.symm hm)
    constructor
    · have := tov a b ha hb (by rw [e]; exact hm)
      rwa [hv a b ha hb, e] at this
    · intro u hu
      obtain ⟨⟨i, j, hi, hj, rfl⟩, hne⟩ := mem.mp hu
      rw [hv i j hi hj]
      exact atLeastStep_mono hpos (k2 _ (back i j hi hj hne))

/-- C155: when the boxes of one call are divided into the boxes of another, the energy of a pixel is the sum over its parts, the
extent densities are means, the average areas are means weighted with the densities, and the minimum flash area is the least one. -/
theorem C155_finer_grid {env env' : Surroundings} {kw kw' shared shared' sh sh' : Dict} {xlo ylo xlo' ylo' dx dy : Rat}
    {K L M N s M' N' s' : Nat} {me mg : Option Int} {files files' opened opened' : List GFile}
    {runs runs' : List (TileRun TileState ImageFile)} {sc : Bool} (hK : 0 < K) (hL : 0 < L)
    (h : ConvexCall env kw xlo ylo (K * dx) (L * dy) M N s me mg files opened)
    (h' : ConvexCall env' kw' xlo' ylo' dx dy M' N' s' me mg files' opened') (hfoot : env'.foot = env.foot)
    (hall : opened'.Perm opened) (hpos : ∀ d ∈ opened, ∀ e ∈ d.events, 0 ≤ e.val.energy)
    (hr : gridGlmFlashes (lutGridder env) files kw shared = .ok (runs, sh))
    (hr' : gridGlmFlashes (lutGridder env') files' kw' shared' = .ok (runs', sh'))
    (hsc : Scaled runs sc) (hsc' : Scaled runs' sc) (X Y : Rat) :
    (∀ (c : Rat) (v : Nat → Nat → Rat), Shows runs "total_energy" X Y c →
      (∀ i j, i < K → j < L → Shows runs' "total_energy" (subCentre K dx X i) (subCentre L dy Y j) (v i j)) →
      c ≤ overBoxes K L v ∧ overBoxes K L v ≤ c + K * L * (152597 / 100000000000) ∧ (sc = false → c = overBoxes K L v)) ∧
    (∀ name step, (name, step) ∈ [("flash_extent_density", (1/16 : Rat)), ("group_extent_density", 1/4)] →
      ∀ (c : Rat) (v : Nat → Nat → Rat), Shows runs name X Y c →
      (∀ i j, i < K → j < L → Shows runs' name (subCentre K dx X i) (subCentre L dy Y j) (v i j)) →
      |c - overBoxes K L v / (K * L)| ≤ step ∧ (sc = false → c = overBoxes K L v / (K * L))) ∧
    (∀ (c : Rat) (v : Nat → Nat → Rat), Shows runs "minimum_flash_area" X Y c →
      (∀ i j, i < K → j < L → Shows runs' "minimum_flash_area" (subCentre K dx X i) (subCentre L dy Y j) (v i j)) →
      LeastOrZero ((partValues K L v).filter fun u => u ≠ 0) c) ∧
    (sc = false → ∀ name density, (name, density) ∈ [("average_flash_area", "flash_extent_density"),
        ("average_group_area", "group_extent_density")] →
      ∀ (c w : Rat) (v u : Nat → Nat → Rat), Shows runs name X Y c → Shows runs density X Y w →
      (∀ i j, i < K → j < L → Shows runs' name (subCentre K dx X i) (subCentre L dy Y j) (v i j)) →
      (∀ i j, i < K → j < L → Shows runs' density (subCentre K dx X i) (subCentre L dy Y j) (u i j)) →
      c * w = (overBoxes K L fun i j => v i j * u i j) / (K * L)) := by
  have hW : (0 : Rat) < K * L := by positivity
  have key : ∀ name, name ∈ sixNames → ∀ c (v : Nat → Nat → Rat), Shows runs name X Y c →
      (∀ i j, i < K → j < L → Shows runs' name (subCentre K dx X i) (subCentre L dy Y j) (v i j)) →
      ∃ (fed fa te ged ga mfa : Rat) (fed' fa' te' ged' ga' mfa' : Nat → Nat → Rat),
        (te = overBoxes K L te' ∧ K * L * fed = overBoxes K L fed' ∧ K * L * fa = overBoxes K L fa' ∧
          K * L * ged = overBoxes K L ged' ∧ K * L * ga = overBoxes K L ga' ∧
          LeastOrZero ((partValues K L mfa').filter fun u => u ≠ 0) mfa ∧ 0 ≤ mfa ∧ ∀ i j, i < K → j < L → 0 ≤ mfa' i j) ∧
        (0 ≤ fed ∧ 0 ≤ ged ∧ (fed = 0 → fa = 0) ∧ (ged = 0 → ga = 0)) ∧
        (∀ i j, i < K → j < L → 0 ≤ te' i j ∧ 0 ≤ fed' i j ∧ 0 ≤ ged' i j ∧ (fed' i j = 0 → fa' i j = 0) ∧
          (ged' i j = 0 → ga' i j = 0)) ∧
        (∀ name c, name ∈ sixNames → Shows runs name X Y c → (name, c) ∈ shown sc fed fa te ged ga mfa) ∧
        ∀ i j, i < K → j < L → ∀ name c, name ∈ sixNames → Shows runs' name (subCentre K dx X i) (subCentre L dy Y j) c →
          (name, c) ∈ shown sc (fed' i j) (fa' i j) (te' i j) (ged' i j) (ga' i j) (mfa' i j) := by
    intro name hn c v hc hv
    obtain ⟨fed, fa, te, ged, ga, mfa, p⟩ := h.good.pixel hr ⟨name, c, hc⟩
    have one : ∀ i j, ∃ q : Rat × Rat × Rat × Rat × Rat × Rat, i < K → j < L →
        PixelHolds env'.clip env'.foot me mg opened' dx dy (subCentre K dx X i) (subCentre L dy Y j) q.1 q.2.1 q.2.2.1 q.2.2.2.1
          q.2.2.2.2.1 q.2.2.2.2.2 := by
      intro i j
      by_cases hij : i < K ∧ j < L
      · obtain ⟨a1, a2, a3, a4, a5, a6, pq⟩ := h'.good.pixel hr' ⟨name, v i j, hv i j hij.1 hij.2⟩
        exact ⟨(a1, a2, a3, a4, a5, a6), fun _ _ => pq⟩
      · exact ⟨(0, 0, 0, 0, 0, 0), fun a b => absurd ⟨a, b⟩ hij⟩
    choose q hq using one
    have vals := fun name c h1 h2 => h.good.value hr hsc p (name := name) (v := c) h1 h2
    have vals' := fun i j hi hj name c h1 h2 => h'.good.value hr' hsc' (hq i j hi hj) (name := name) (v := c) h1 h2
    have nn := p.nonneg h.xPos h.yPos
    rw [h.clip] at p
    have hq' : ∀ i j, i < K → j < L → PixelHolds convexClip env.foot me mg opened dx dy (subCentre K dx X i) (subCentre L dy Y j)
        (q i j).1 (q i j).2.1 (q i j).2.2.1 (q i j).2.2.2.1 (q i j).2.2.2.2.1 (q i j).2.2.2.2.2 := by
      intro i j hi hj
      have := hq i j hi hj
      rw [h'.clip, hfoot] at this
      exact this.perm hall
    refine ⟨fed, fa, te, ged, ga, mfa, fun i j => (q i j).1, fun i j => (q i j).2.1, fun i j => (q i j).2.2.1,
      fun i j => (q i j).2.2.2.1, fun i j => (q i j).2.2.2.2.1, fun i j => (q i j).2.2.2.2.2, ?_, nn, ?_, vals, vals'⟩
    · refine PixelHolds.refine h'.xPos h'.yPos hK hL ?_ ?_ p hq'
      · intro d hd e he
        exact ⟨h.convex d hd e he, (h.compact d hd (List.ne_nil_of_mem he)).polygons e he |>.2⟩
      · intro d hd f hf hpl
        exact (h.compact d hd (by
          obtain ⟨a, ha⟩ := List.exists_mem_of_ne_nil _ hpl
          exact events_of_place ha)).areas f (List.mem_filter.mp hf).1
    · intro i j hi hj
      obtain ⟨n1, n2, n3, n4⟩ := (hq' i j hi hj).nonneg h'.xPos h'.yPos
      exact ⟨(hq' i j hi hj).energy_nonneg hpos, n1, n2, n3, n4⟩
  have six : ∀ name ∈ ["flash_extent_density", "average_flash_area", "total_energy", "group_extent_density",
    "average_group_area", "minimum_flash_area"], name ∈ sixNames := fun _ h => h
  have mean : ∀ {step c x : Rat} {v f : Nat → Nat → Rat}, 0 < step → c = atLeastStep sc step x → K * L * x = overBoxes K L f →
      (∀ i j, i < K → j < L → v i j = atLeastStep sc step (f i j)) →
      |c - overBoxes K L v / (K * L)| ≤ step ∧ (sc = false → c = overBoxes K L v / (K * L)) := by
    intro step c x v f hs hc hx hv
    constructor
    · obtain ⟨k1, k2⟩ := boxes_bound (step := step) fun i j hi hj => (by
        rw [hv i j hi hj]; exact atLeastStep_bounds sc hs : f i j ≤ v i j ∧ v i j ≤ f i j + step)
      obtain ⟨m1, m2⟩ := atLeastStep_bounds sc hs (v := x)
      rw [← hc] at m1 m2
      rw [← hx] at k1 k2
      have l1 : x ≤ overBoxes K L v / (K * L) := by rw [le_div_iff₀ hW]; linarith
      have l2 : overBoxes K L v / (K * L) ≤ x + step := by rw [div_le_iff₀ hW]; linarith
      rw [abs_le]
      constructor <;> linarith
    · intro h0
      subst h0
      rw [atLeastStep_false] at hc
      rw [overBoxes_congr fun i j hi hj => (hv i j hi hj).trans (atLeastStep_false _ _), ← hx, hc]
      field_simp
  refine ⟨?_, ?_, ?_, ?_⟩
  · intro c v hc hv
    have hn := six "total_energy" (by simp)
    obtain ⟨fed, fa, te, ged, ga, mfa, fed', fa', te', ged', ga', mfa', ⟨e1, -⟩, -, nn', vC, vF⟩ := key _ hn c v hc hv
    have wC := (shown_of (vC _ c hn hc)).2.2.1 rfl
    have wF : ∀ i j, i < K → j < L → v i j = atLeastStep sc (152597 / 100000000000) (te' i j) := fun i j hi hj =>
      (shown_of (vF i j hi hj _ _ hn (hv i j hi hj))).2.2.1 rfl
    have hs : (0 : Rat) < 152597 / 100000000000 := by norm_num
    refine ⟨?_, ?_, fun h0 => ?_⟩
    · rw [wC, e1, overBoxes_congr wF]
      exact atLeastStep_boxes sc hs fun i j hi hj => (nn' i j hi hj).1
    · have k2 := (boxes_bound fun i j hi hj => (by
        rw [wF i j hi hj]; exact atLeastStep_bounds sc hs : te' i j ≤ v i j ∧ v i j ≤ te' i j + 152597 / 100000000000)).2
      have := (atLeastStep_bounds sc hs (v := te)).1
      rw [← wC] at this
      rw [← e1] at k2
      linarith
    · subst h0
      rw [wC, e1, overBoxes_congr wF]
      simp only [atLeastStep_false]
  · intro name step hname c v hc hv
    simp only [List.mem_cons, Prod.mk.injEq, List.not_mem_nil, or_false] at hname
    rcases hname with ⟨rfl, rfl⟩ | ⟨rfl, rfl⟩
    · have hn := six "flash_extent_density" (by simp)
      obtain ⟨fed, fa, te, ged, ga, mfa, fed', fa', te', ged', ga', mfa', ⟨-, e2, -⟩, -, -, vC, vF⟩ := key _ hn c v hc hv
      exact mean (by norm_num) ((shown_of (vC _ c hn hc)).1 rfl) e2 fun i j hi hj =>
        (shown_of (vF i j hi hj _ _ hn (hv i j hi hj))).1 rfl
    · have hn := six "group_extent_density" (by simp)
      obtain ⟨fed, fa, te, ged, ga, mfa, fed', fa', te', ged', ga', mfa', ⟨-, -, -, e4, -⟩, -, -, vC, vF⟩ := key _ hn c v hc hv
      exact mean (by norm_num) ((shown_of (vC _ c hn hc)).2.2.2.1 rfl) e4 fun i j hi hj =>
        (shown_of (vF i j hi hj _ _ hn (hv i j hi hj))).2.2.2.1 rfl
  · intro c v hc hv
    have hn := six "minimum_flash_area" (by simp)
    obtain ⟨fed, fa, te, ged, ga, mfa, fed', fa', te', ged', ga', mfa', ⟨-, -, -, -, -, e6, -, e8⟩, -, -, vC, vF⟩ :=
      key _ hn c v hc hv
    rw [(shown_of (vC _ c hn hc)).2.2.2.2.2 rfl]
    exact atLeastStep_leastOrZero (by norm_num) e8 e6 fun i j hi hj =>
      (shown_of (vF i j hi hj _ _ hn (hv i j hi hj))).2.2.2.2.2 rfl
  · intro h0 name density hname c w v u hc hw hv hu
    subst h0
    simp only [List.mem_cons, Prod.mk.injEq, List.not_mem_nil, or_false] at hname
    rcases hname with ⟨rfl, rfl⟩ | ⟨rfl, rfl⟩
    · have hn := six "average_flash_area" (by simp)
      have hn' := six "flash_extent_density" (by simp)
      obtain ⟨fed, fa, te, ged, ga, mfa, fed', fa', te', ged', ga', mfa', ⟨-, -, e3, -⟩, nn, nn', vC, vF⟩ := key _ hn c v hc hv
      have prod : ∀ i j, i < K → j < L → v i j * u i j = fa' i j := by
        intro i j hi hj
        rw [(shown_of (vF i j hi hj _ _ hn (hv i j hi hj))).2.1 rfl, (shown_of (vF i j hi hj _ _ hn' (hu i j hi hj))).1 rfl]
        simp only [atLeastStep_false]
        exact averageOf_mul (nn' i j hi hj).2.2.2.1
      rw [overBoxes_congr prod, ← e3, (shown_of (vC _ c hn hc)).2.1 rfl, (shown_of (vC _ w hn' hw)).1 rfl]
      simp only [atLeastStep_false]
      rw [averageOf_mul nn.2.2.1]
      field_simp
    · have hn := six "average_group_area" (by simp)
      have hn' := six "group_extent_density" (by simp)
      obtain ⟨fed, fa, te, ged, ga, mfa, fed', fa', te', ged', ga', mfa', ⟨-, -, -, -, e5, -⟩, nn, nn', vC, vF⟩ :=
        key _ hn c v hc hv
      have prod : ∀ i j, i < K → j < L → v i j * u i j = ga' i j := by
        intro i j hi hj
        rw [(shown_of (vF i j hi hj _ _ hn (hv i j hi hj))).2.2.2.2.1 rfl,
          (shown_of (vF i j hi hj _ _ hn' (hu i j hi hj))).2.2.2.1 rfl]
        simp only [atLeastStep_false]
        exact averageOf_mul (nn' i j hi hj).2.2.2.2
      rw [overBoxes_congr prod, ← e5, (shown_of (vC _ c hn hc)).2.2.2.2.1 rfl, (shown_of (vC _ w hn' hw)).2.2.2.1 rfl]
      simp only [atLeastStep_false]
      rw [averageOf_mul nn.2.2.2]
      field_simp

/-! ## Sample -/

/-- The call of the sample with boxes of half the size. -/
def fineCall : Dict :=
  [("proj_name", .str "geos"), ("fixed_grid", .bool true), ("dx", .num (1/2000)), ("dy", .num (1/2000)),
   ("x_bnd", .bnd 0 (6/1000)), ("y_bnd", .bnd (-1/1000) (5/1000)), ("clip_events", .bool true),
   ("ellipse_rev", .nat 1), ("nadir_lon", .num (-75)), ("output_filename_prefix", .str "GLM"),
   ("output_writer", .function "write_cf_netcdf"), ("min_points_per_flash", .nat 2)]

theorem fineCall_asked : FixedGridAsked fineCall 0 (-1/1000) (1/2000) (1/2000) 12 12 1 (some 2) none :=
  { proj := ⟨_, rfl⟩
    fixed := ⟨by decide +kernel, by decide +kernel⟩
    xBox := rfl
    yBox := rfl
    x := by decide +kernel
    y := by decide +kernel
    subdivide := Or.inr ⟨rfl, rfl⟩
    given := by decide +kernel
    minEvents := Or.inl ⟨2, rfl, rfl⟩
    minGroups := Or.inr ⟨Or.inr rfl, rfl⟩ }

theorem diamond_fine : ConvexCall diamondEnv fineCall 0 (-1/1000) (1/2000) (1/2000) 12 12 1 (some 2) none
    [wholeSample, secondSample] [wholeSample, secondSample] :=
  { asked := fineCall_asked
    xPos := by norm_num
    yPos := by norm_num
    tiles := by omega
    xTiles := by omega
    yTiles := by omega
    xPad := by norm_num
    yPad := by norm_num
    edges := arange_makesEdges
    clip := rfl
    order := fun l => List.Perm.refl l
    opens := fun _ _ => .cons rfl (.cons rfl .nil)
    some := ⟨wholeSample, by simp, by simp [wholeSample]⟩
    compact := by
      intro d hd hne
      simp only [List.mem_cons, List.not_mem_nil, or_false] at hd
      rcases hd with rfl | rfl
      all_goals exact
        { hasData := by unfold HasData; decide +kernel
          consistent := by decide +kernel
          derived := ⟨by decide +kernel, by decide +kernel, by decide +kernel, by decide +kernel⟩
          flashes := by unfold UniqueIds; decide +kernel
          groups := by unfold UniqueIds; decide +kernel
          areas := by decide +kernel
          pixels := by unfold PixelExact placeOf; decide +kernel
          polygons := by decide +kernel
          narrow := by decide +kernel
          view := by decide +kernel
          event := by decide +kernel
          flash := by decide +kernel }
    convex := fun _ _ _ _ => diamond_convex _
    mean := fun _ _ _ _ => diamond_mean _ }

/-- The energies that a call with these footprints shows, with their places. -/
def pixelEnergies (runs : List (TileRun TileState ImageFile)) : List (Rat × Rat × Rat) :=
  runs.flatMap fun r => r.written.flatMap fun nf => nf.2.fields.flatMap fun p => if p.1 = "total_energy" then
    (List.range nf.2.y.length).flatMap fun row => (List.range nf.2.x.length).map fun col =>
      (nf.2.x.getD col 0, nf.2.y.getD row 0, p.2.val row col) else []

theorem pixelEnergies_shows {runs : List (TileRun TileState ImageFile)} {X Y v : Rat} (h : (X, Y, v) ∈ pixelEnergies runs) :
    Shows runs "total_energy" X Y v := by
  simp only [pixelEnergies, List.mem_flatMap] at h
  obtain ⟨r, hr, nf, hnf, p, hp, h⟩ := h
  split at h
  · rename_i hname
    simp only [List.mem_flatMap, List.mem_map, List.mem_range, Prod.mk.injEq] at h
    obtain ⟨row, hrow, col, hcol, h1, h2, h3⟩ := h
    refine ⟨r, hr, nf, hnf, row, col, p.2, ?_, ?_, by rw [← hname]; exact hp, h3⟩
    · rw [← h1, List.getElem?_eq_getElem hcol, List.getD_eq_getElem _ _ hcol]
    · rw [← h2, List.getElem?_eq_getElem hrow, List.getD_eq_getElem _ _ hrow]
  · exact absurd h List.not_mem_nil

/-- The energies that a call for the samples shows, if it ends well and all its images have scaled integers. -/
def diamondEnergies (kw : Dict) : Option (List (Rat × Rat × Rat)) :=
  match gridGlmFlashes (lutGridder diamondEnv) [wholeSample, secondSample] kw [] with
  | .ok (runs, _) => if runs.all (fun r => r.scale != .bool false) then some (pixelEnergies runs) else none
  | .error _ => none

/-- The energies at the parts of the pixel at (3/2000, 3/2000), if there is one value for each. -/
def partEnergies (kw : Dict) (k : Nat) (d : Rat) : Option (List Rat) :=
  (diamondEnergies kw).bind fun l => ((List.range k).flatMap fun i => (List.range k).map fun j => (i, j)).mapM fun ij =>
    (l.find? fun q => q.1 = subCentre k d (3/2000) ij.1 ∧ q.2.1 = subCentre k d (3/2000) ij.2).map fun q => q.2.2

/-- The call of the sample with boxes of a sixth of the size. -/
def finestCall : Dict :=
  [("proj_name", .str "geos"), ("fixed_grid", .bool true), ("dx", .num (1/6000)), ("dy", .num (1/6000)),
   ("x_bnd", .bnd 0 (6/1000)), ("y_bnd", .bnd (-1/1000) (5/1000)), ("clip_events", .bool true),
   ("ellipse_rev", .nat 1), ("nadir_lon", .num (-75)), ("output_filename_prefix", .str "GLM"),
   ("output_writer", .function "write_cf_netcdf"), ("min_points_per_flash", .nat 2)]

theorem wide_energy : partEnergies wideCall 1 (1/1000) = some [43/12] := by decide +kernel

/-- C155 for the samples: a pixel and its four parts. -/
example : partEnergies wideCall 1 (1/1000) = some [43/12] ∧ partEnergies fineCall 2 (1/2000) = some [0, 11/12, 0, 8/3] :=
  ⟨wide_energy, by decide +kernel⟩

/-- The two calls of the sample meet the hypotheses of `C155_finer_grid`. -/
example {runs runs' : List (TileRun TileState ImageFile)} {sh sh' : Dict} {c : Rat} {v : Nat → Nat → Rat}
    (hr : gridGlmFlashes (lutGridder diamondEnv) [wholeSample, secondSample] wideCall [] = .ok (runs, sh))
    (hr' : gridGlmFlashes (lutGridder diamondEnv) [wholeSample, secondSample] fineCall [] = .ok (runs', sh'))
    (hsc : Scaled runs true) (hsc' : Scaled runs' true) (hc : Shows runs "total_energy" (3/2000) (3/2000) c)
    (hv : ∀ i j, i < 2 → j < 2 →
      Shows runs' "total_energy" (subCentre 2 (1/2000) (3/2000) i) (subCentre 2 (1/2000) (3/2000) j) (v i j)) :
    c ≤ overBoxes 2 2 v := by
  have h : ConvexCall diamondEnv wideCall 0 (-1/1000) ((2 : Nat) * (1/2000)) ((2 : Nat) * (1/2000)) 6 6 1 (some 2) none
      [wholeSample, secondSample] [wholeSample, secondSample] := by
    convert diamond_call using 1 <;> norm_num
  exact ((C155_finer_grid (by omega) (by omega) h diamond_fine rfl (List.Perm.refl _) (by decide +kernel) hr hr' hsc hsc'
    (3/2000) (3/2000)).1 c v hc hv).1

/-- C155 for the energy, for footprints of any width. -/
def C155_any_width : Prop := ∀ (env : Surroundings) (kw kw' sh sh' : Dict) (xlo ylo dx dy : Rat) (K L M N M' N' : Nat)
    (me mg : Option Int) (files : List GFile) (runs runs' : List (TileRun TileState ImageFile)) (sc : Bool),
    0 < K → 0 < L → 0 < dx → 0 < dy → FixedGridAsked kw xlo ylo (K * dx) (L * dy) M N 1 me mg →
    FixedGridAsked kw' xlo ylo dx dy M' N' 1 me mg → MakesEdges env.edges → env.clip = convexClip →
    (∀ l, (env.order l).Perm l) → (∀ rev f, env.openFile rev f = .ok f) → (∀ d ∈ files, HasData d ∧ Consistent d ∧ Derived d) →
    (∀ d ∈ files, ∀ e ∈ d.events, ConvexPoly (env.foot (placeOf e)) ∧ signedArea (env.foot (placeOf e)) ≠ 0 ∧
      meanPoint (env.foot (placeOf e)) = placeOf e ∧ 0 ≤ e.val.energy) →
    gridGlmFlashes (lutGridder env) files kw [] = .ok (runs, sh) →
    gridGlmFlashes (lutGridder env) files kw' [] = .ok (runs', sh') → Scaled runs sc → Scaled runs' sc →
    ∀ (X Y c : Rat) (v : Nat → Nat → Rat), Shows runs "total_energy" X Y c →
      (∀ i j, i < K → j < L → Shows runs' "total_energy" (subCentre K dx X i) (subCentre L dy Y j) (v i j)) →
      c ≤ overBoxes K L v

theorem mapM_some {α : Type} {f : α → Option Rat} {l : List α} {r : List Rat} (h : l.mapM f = some r) :
    (∀ a ∈ l, f a = some ((f a).getD 0)) ∧ r = l.map fun a => (f a).getD 0 := by
  induction l generalizing r with
  | nil => simp at h; exact ⟨fun _ h => absurd h List.not_mem_nil, by simp [h]⟩
  | cons a l ih =>
    rw [List.mapM_cons] at h
    match hf : f a, hl : l.mapM f with
    | none, _ => rw [hf] at h; simp at h
    | some b, none => rw [hf, hl] at h; simp at h
    | some b, some t =>
      rw [hf, hl] at h
      simp at h
      obtain ⟨i1, i2⟩ := ih hl
      refine ⟨fun c hc => ?_, ?_⟩
      · rcases List.mem_cons.mp hc with rfl | hc
        · rw [hf]; rfl
        · exact i1 c hc
      · rw [List.map_cons, hf, ← i2]
        exact h.symm

theorem partEnergies_shows {kw : Dict} {k : Nat} {d : Rat} {l : List Rat} (h : partEnergies kw k d = some l) :
    ∃ runs sh, gridGlmFlashes (lutGridder diamondEnv) [wholeSample, secondSample] kw [] = .ok (runs, sh) ∧ Scaled runs true ∧
      ∃ v : Nat → Nat → Rat, (∀ i j, i < k → j < k →
        Shows runs "total_energy" (subCentre k d (3/2000) i) (subCentre k d (3/2000) j) (v i j)) ∧
        l = (List.range k).flatMap fun i => (List.range k).map fun j => v i j := by
  unfold partEnergies diamondEnergies at h
  match hr : gridGlmFlashes (lutGridder diamondEnv) [wholeSample, secondSample] kw [] with
  | .error e => rw [hr] at h; simp at h
  | .ok (runs, sh) =>
    rw [hr] at h
    simp only at h
    split at h
    · rename_i hsc
      rw [Option.bind_some] at h
      refine ⟨runs, sh, rfl, fun r hrr => List.all_eq_true.mp hsc r hrr, ?_⟩
      refine ⟨fun i j => (((pixelEnergies runs).find? fun q => q.1 = subCentre k d (3/2000) i ∧
        q.2.1 = subCentre k d (3/2000) j).map fun q => q.2.2).getD 0, ?_, ?_⟩
      · intro i j hi hj
        have := (mapM_some h).1 (i, j) (List.mem_flatMap.mpr ⟨i, List.mem_range.mpr hi, List.mem_map.mpr
          ⟨j, List.mem_range.mpr hj, rfl⟩⟩)
        match hq : (pixelEnergies runs).find? fun q => q.1 = subCentre k d (3/2000) i ∧ q.2.1 = subCentre k d (3/2000) j with
        | none => simp only [hq] at this; simp at this
        | some q =>
          have h1 := List.find?_some hq
          rw [decide_eq_true_eq] at h1
          have h2 := List.mem_of_find?_eq_some hq
          refine pixelEnergies_shows ?_
          simp only [hq, Option.map_some, Option.getD_some]
          rw [← h1.1, ← h1.2]
          exact h2
      · rw [(mapM_some h).2, List.map_flatMap]
        simp only [List.map_map]
        rfl
    · simp at h

theorem some_less {o : Option (List Rat)} {c : Rat} (h : (o.map fun l => decide (l.sum < c)) = some true) :
    ∃ l, o = some l ∧ l.sum < c := by
  match o with
  | none => simp at h
  | some l => exact ⟨l, rfl, by simpa using h⟩

theorem finest_less : ∃ l, partEnergies finestCall 6 (1/6000) = some l ∧ l.sum < 43/12 :=
  some_less (by decide +kernel)

theorem finestCall_asked : FixedGridAsked finestCall 0 (-1/1000) (1/6000) (1/6000) 36 36 1 (some 2) none :=
  { proj := ⟨_, rfl⟩
    fixed := ⟨by decide +kernel, by decide +kernel⟩
    xBox := rfl
    yBox := rfl
    x := by decide +kernel
    y := by decide +kernel
    subdivide := Or.inr ⟨rfl, rfl⟩
    given := by decide +kernel
    minEvents := Or.inl ⟨2, rfl, rfl⟩
    minGroups := Or.inr ⟨Or.inr rfl, rfl⟩ }

/-- When footprints reach further than the search looks, energy is lost: with boxes of a sixth of the size, the parts of the
pixel hold less than the pixel. -/
theorem C155_any_width_false : ¬ C155_any_width := by
  intro hall
  obtain ⟨l', hl', hlt⟩ := finest_less
  have hl := wide_energy
  obtain ⟨runs, sh, h1, h2, v, h3, h4⟩ := partEnergies_shows hl
  obtain ⟨runs', sh', k1, k2, v', k3, k4⟩ := partEnergies_shows hl'
  have e : v 0 0 = 43/12 := by simpa using h4.symm
  have e' : l'.sum = overBoxes 6 6 v' := by
    rw [k4]
    unfold overBoxes
    rw [List.flatMap, List.sum_flatten, List.map_map]; rfl
  have hc : Shows runs "total_energy" (3/2000) (3/2000) (43/12) := by
    have := h3 0 0 (by omega) (by omega)
    rw [e] at this
    have e2 : subCentre 1 (1/1000) (3/2000) 0 = 3/2000 := by unfold subCentre; norm_num
    rwa [e2] at this
  have hw : FixedGridAsked wideCall 0 (-1/1000) ((6 : Nat) * (1/6000)) ((6 : Nat) * (1/6000)) 6 6 1 (some 2) none := by
    convert wideCall_asked using 1 <;> norm_num
  have := hall diamondEnv wideCall finestCall sh sh' 0 (-1/1000) (1/6000) (1/6000) 6 6 6 6 36 36 (some 2) none
    [wholeSample, secondSample] runs runs' true (by omega) (by omega) (by norm_num) (by norm_num) hw
    finestCall_asked
    arange_makesEdges rfl (fun l => List.Perm.refl l) (fun _ _ => rfl)
    (fun d hd => by
      have := diamond_fine.compact d hd (by
        simp only [List.mem_cons, List.not_mem_nil, or_false] at hd
        rcases hd with rfl | rfl <;> simp [wholeSample, secondSample])
      exact ⟨this.hasData, this.consistent, this.derived⟩)
    (fun d hd e he => ⟨diamond_convex _, ((diamond_fine.compact d hd (List.ne_nil_of_mem he)).polygons e he).2, diamond_mean _, by
      revert e; revert d; decide +kernel⟩)
    h1 k1 h2 k2 (3/2000) (3/2000) (43/12) v' hc k3
  linarith

end Verif.Props
