import Verif.Props.Refinement

/-!
# C157: the fields of an image agree

What the six fields of a pixel say about one another, whatever the data.
-/

namespace Verif.Props

open Verif.Py Verif.Model Verif.Spec Verif.Proofs

/-! ## Sums -/

theorem sum_pos_iff {α : Type} {l : List α} {f : α → Rat} (h : ∀ a ∈ l, 0 ≤ f a) : 0 < (l.map f).sum ↔ ∃ a ∈ l, 0 < f a := by
  induction l with
  | nil => simp
  | cons a l ih =>
    have h1 := h a (by simp)
    have h2 : 0 ≤ (l.map f).sum := List.sum_nonneg (by simpa using fun b hb => h b (by simp [hb]))
    have ih := ih fun b hb => h b (by simp [hb])
    rw [List.map_cons, List.sum_cons]
    constructor
    · intro h0
      by_cases ha : 0 < f a
      · exact ⟨a, by simp, ha⟩
      · obtain ⟨b, hb, hb2⟩ := ih.mp (by linarith)
        exact ⟨b, by simp [hb], hb2⟩
    · rintro ⟨b, hb, hb2⟩
      rcases List.mem_cons.mp hb with rfl | hb
      · linarith
      · linarith [ih.mpr ⟨b, hb, hb2⟩]

theorem sum_le_of_subset {α : Type} {l m : List α} (hn : l.Nodup) (hs : l ⊆ m) {f : α → Rat} (h : ∀ a, 0 ≤ f a) :
    (l.map f).sum ≤ (m.map f).sum := by
  classical
  obtain ⟨k, hk, hs⟩ := List.subperm_of_subset hn hs
  rw [← (hk.map f).sum_eq]
  exact (hs.map f).sum_le_sum fun a ha => by
    obtain ⟨b, -, rfl⟩ := List.mem_map.mp ha
    exact h b

theorem sum_map_flatMap {α β : Type} (l : List α) (g : α → List β) (f : β → Rat) :
    ((l.flatMap g).map f).sum = (l.map fun a => ((g a).map f).sum).sum := by
  induction l with
  | nil => rfl
  | cons a l ih => simp [List.flatMap_cons, ih]

section
variable {foot : Pt → Poly} {me mg : Option Int} {files : List GFile} {dx dy X Y fed fa te ged ga mfa : Rat}

theorem convexClip_pos {p q : Poly} (h : convexClip p q ≠ []) : 0 < partArea convexClip p q := by
  unfold partArea
  unfold convexClip at h ⊢
  split at h
  · next x y _ X Y _ =>
    by_cases h0 : signedArea (cutRect (counterclockwise p) x y X Y) = 0
    · rw [if_pos h0] at h; exact absurd rfl h
    · simp only [if_neg h0, List.map_cons, List.map_nil, List.sum_cons, List.sum_nil, add_zero]
      exact abs_pos.mpr h0
  · exact absurd rfl h

theorem partArea_pos_iff {p q : Poly} : 0 < partArea convexClip p q ↔ convexClip p q ≠ [] := by
  refine ⟨fun h h0 => ?_, convexClip_pos⟩
  unfold partArea at h
  rw [h0] at h
  simp at h

/-- There is lightning in a pixel: an event that counts has a part of its footprint there. -/
def LightningIn (foot : Pt → Poly) (me mg : Option Int) (files : List GFile) (dx dy X Y : Rat) : Prop :=
  ∃ d ∈ files, ∃ e ∈ countedEvents me mg d, convexClip (foot (placeOf e)) (pixelAt dx dy X Y) ≠ []

theorem mem_countedEvents {d : GFile} {e : Row GVal} :
    e ∈ countedEvents me mg d ↔ e ∈ d.events ∧ ∃ f ∈ countedFlashes me mg d, EventOfFlash d f.id e := by
  unfold countedEvents
  simp

theorem mem_countedGroups {d : GFile} {g : Row GVal} :
    g ∈ countedGroups me mg d ↔ g ∈ d.groups ∧ ∃ f ∈ countedFlashes me mg d, f.id = g.pid := by
  unfold countedGroups
  simp

/-- Lightning by flashes. -/
theorem lightning_flash : LightningIn foot me mg files dx dy X Y ↔ ∃ d ∈ files, ∃ f ∈ countedFlashes me mg d,
    ∃ p ∈ flashPlaces d f, convexClip (foot p) (pixelAt dx dy X Y) ≠ [] := by
  constructor
  · rintro ⟨d, hd, e, he, hc⟩
    obtain ⟨h1, f, hf, h2⟩ := mem_countedEvents.mp he
    exact ⟨d, hd, f, hf, placeOf e, mem_flashPlaces.mpr ⟨e, h1, h2, rfl⟩, hc⟩
  · rintro ⟨d, hd, f, hf, p, hp, hc⟩
    obtain ⟨e, he, h2, rfl⟩ := mem_flashPlaces.mp hp
    exact ⟨d, hd, e, mem_countedEvents.mpr ⟨he, f, hf, h2⟩, hc⟩

/-- Lightning by groups. -/
theorem lightning_group : LightningIn foot me mg files dx dy X Y ↔ ∃ d ∈ files, ∃ g ∈ countedGroups me mg d,
    ∃ p ∈ groupPlaces d g, convexClip (foot p) (pixelAt dx dy X Y) ≠ [] := by
  constructor
  · rintro ⟨d, hd, e, he, hc⟩
    obtain ⟨h1, f, hf, g, hg, h2, h3⟩ := mem_countedEvents.mp he
    exact ⟨d, hd, g, mem_countedGroups.mpr ⟨hg, f, hf, h3.symm⟩, placeOf e, mem_groupPlaces.mpr ⟨e, h1, h2.symm, rfl⟩, hc⟩
  · rintro ⟨d, hd, g, hg, p, hp, hc⟩
    obtain ⟨e, he, h2, rfl⟩ := mem_groupPlaces.mp hp
    obtain ⟨h1, f, hf, h3⟩ := mem_countedGroups.mp hg
    exact ⟨d, hd, e, mem_countedEvents.mpr ⟨he, f, hf, g, h1, h2.symm, h3.symm⟩, hc⟩

/-- A share of a pixel. -/
theorem share_pos_iff (hx : 0 < dx) (hy : 0 < dy) (l : List Pt) :
    0 < (l.map fun p => partArea convexClip (foot p) (pixelAt dx dy X Y) / (dx * dy)).sum ↔
      ∃ p ∈ l, convexClip (foot p) (pixelAt dx dy X Y) ≠ [] := by
  have hxy : 0 < dx * dy := mul_pos hx hy
  rw [sum_pos_iff fun p _ => div_nonneg (partArea_nonneg _ _ _) hxy.le]
  refine exists_congr fun p => and_congr_right fun _ => ?_
  rw [← partArea_pos_iff]
  exact ⟨fun h => by have := (div_pos_iff_of_pos_right hxy).mp h; exact this, fun h => div_pos h hxy⟩

theorem share_nonneg (hx : 0 < dx) (hy : 0 < dy) (l : List Pt) :
    0 ≤ (l.map fun p => partArea convexClip (foot p) (pixelAt dx dy X Y) / (dx * dy)).sum := by
  refine List.sum_nonneg ?_
  intro v hv
  obtain ⟨p, -, rfl⟩ := List.mem_map.mp hv
  exact div_nonneg (partArea_nonneg _ _ _) (mul_pos hx hy).le

/-- Each of the accumulated values is positive exactly where there is lightning, and not negative. -/
theorem PixelHolds.positive (h : PixelHolds convexClip foot me mg files dx dy X Y fed fa te ged ga mfa) (hx : 0 < dx) (hy : 0 < dy)
    (hf : ∀ d ∈ files, ∀ f ∈ countedFlashes me mg d, flashPlaces d f ≠ [] → 0 < f.val.area)
    (hg : ∀ d ∈ files, ∀ g ∈ d.groups, 0 < g.val.area) (he : ∀ d ∈ files, ∀ e ∈ d.events, 0 < e.val.energy)
    (hs : ∀ d ∈ files, ∀ e ∈ d.events, signedArea (foot (placeOf e)) ≠ 0) :
    (0 < fed ↔ LightningIn foot me mg files dx dy X Y) ∧ (0 < fa ↔ LightningIn foot me mg files dx dy X Y) ∧
    (0 < te ↔ LightningIn foot me mg files dx dy X Y) ∧ (0 < ged ↔ LightningIn foot me mg files dx dy X Y) ∧
    (0 < ga ↔ LightningIn foot me mg files dx dy X Y) ∧ (0 < mfa ↔ LightningIn foot me mg files dx dy X Y) := by
  have nonneg : ∀ {α : Type} (l : List α) (f : α → Rat), (∀ a ∈ l, 0 ≤ f a) → 0 ≤ (l.map f).sum := by
    intro α l f h
    refine List.sum_nonneg ?_
    intro v hv
    obtain ⟨a, ha, rfl⟩ := List.mem_map.mp hv
    exact h a ha
  have fterm : ∀ d ∈ files, ∀ f ∈ countedFlashes me mg d, 0 ≤ f.val.area *
      ((flashPlaces d f).map fun p => partArea convexClip (foot p) (pixelAt dx dy X Y) / (dx * dy)).sum := by
    intro d hd f hff
    by_cases hp : flashPlaces d f = []
    · simp [hp]
    · exact mul_nonneg (hf d hd f hff hp).le (share_nonneg hx hy _)
  have gterm : ∀ d ∈ files, ∀ g ∈ countedGroups me mg d, 0 ≤ g.val.area *
      ((groupPlaces d g).map fun p => partArea convexClip (foot p) (pixelAt dx dy X Y) / (dx * dy)).sum := fun d hd g hgg =>
    mul_nonneg (hg d hd g (mem_countedGroups.mp hgg).1).le (share_nonneg hx hy _)
  have eterm : ∀ d ∈ files, ∀ e ∈ countedEvents me mg d, 0 ≤ e.val.energy *
      (partArea convexClip (foot (placeOf e)) (pixelAt dx dy X Y) / |signedArea (foot (placeOf e))|) := fun d hd e hee =>
    mul_nonneg (he d hd e (mem_countedEvents.mp hee).1).le (div_nonneg (partArea_nonneg _ _ _) (abs_nonneg _))
  refine ⟨?_, ?_, ?_, ?_, ?_, ?_⟩
  · rw [h.flashes, lightning_flash, sum_pos_iff fun d _ => nonneg _ _ fun f _ => share_nonneg hx hy _]
    refine exists_congr fun d => and_congr_right fun _ => ?_
    rw [sum_pos_iff fun f _ => share_nonneg hx hy _]
    exact exists_congr fun f => and_congr_right fun _ => share_pos_iff hx hy _
  · rw [h.flashArea, lightning_flash, sum_pos_iff fun d hd => nonneg _ _ fun f hff => fterm d hd f hff]
    refine exists_congr fun d => and_congr_right fun hd => ?_
    rw [sum_pos_iff fun f hff => fterm d hd f hff]
    refine exists_congr fun f => and_congr_right fun hff => ?_
    rw [← share_pos_iff hx hy]
    constructor
    · intro h0
      rcases (share_nonneg hx hy (flashPlaces d f)).lt_or_eq with h1 | h1
      · exact h1
      · rw [← h1, mul_zero] at h0; exact absurd h0 (lt_irrefl _)
    · intro h0
      refine mul_pos (hf d hd f hff fun hp => ?_) h0
      rw [hp] at h0; simp at h0
  · rw [h.energy, sum_pos_iff fun d hd => nonneg _ _ fun e hee => eterm d hd e hee]
    refine exists_congr fun d => and_congr_right fun hd => ?_
    rw [sum_pos_iff fun e hee => eterm d hd e hee]
    refine exists_congr fun e => and_congr_right fun hee => ?_
    have he1 := (mem_countedEvents.mp hee).1
    rw [← partArea_pos_iff, mul_pos_iff_of_pos_left (he d hd e he1), div_pos_iff_of_pos_right (abs_pos.mpr (hs d hd e he1))]
  · rw [h.groups, lightning_group, sum_pos_iff fun d _ => nonneg _ _ fun f _ => share_nonneg hx hy _]
    refine exists_congr fun d => and_congr_right fun _ => ?_
    rw [sum_pos_iff fun f _ => share_nonneg hx hy _]
    exact exists_congr fun f => and_congr_right fun _ => share_pos_iff hx hy _
  · rw [h.groupArea, lightning_group, sum_pos_iff fun d hd => nonneg _ _ fun f hff => gterm d hd f hff]
    refine exists_congr fun d => and_congr_right fun hd => ?_
    rw [sum_pos_iff fun f hff => gterm d hd f hff]
    refine exists_congr fun g => and_congr_right fun hgg => ?_
    rw [mul_pos_iff_of_pos_left (hg d hd g (mem_countedGroups.mp hgg).1), share_pos_iff hx hy]
  · rw [lightning_flash]
    have hl := h.least
    constructor
    · intro h0
      by_contra hno
      refine absurd (hl.1 (List.eq_nil_iff_forall_not_mem.mpr fun v hv => hno ?_)) h0.ne'
      obtain ⟨d, hd, hv⟩ := List.mem_flatMap.mp hv
      obtain ⟨f, hff, -⟩ := List.mem_map.mp hv
      rw [List.mem_filter, decide_eq_true_eq] at hff
      exact ⟨d, hd, f, hff.1, hff.2⟩
    · rintro ⟨d, hd, f, hff, hp⟩
      have := (hl.2 (List.ne_nil_of_mem (List.mem_flatMap.mpr ⟨d, hd, List.mem_map.mpr ⟨f, by
        rw [List.mem_filter, decide_eq_true_eq]; exact ⟨hff, hp⟩, rfl⟩⟩))).1
      obtain ⟨d', hd', hv⟩ := List.mem_flatMap.mp this
      obtain ⟨f', hff', e'⟩ := List.mem_map.mp hv
      rw [List.mem_filter, decide_eq_true_eq] at hff'
      rw [← e']
      obtain ⟨p, hp', -⟩ := hff'.2
      exact hf d' hd' f' hff'.1 (List.ne_nil_of_mem hp')

/-- A flash is nowhere denser than its groups. -/
theorem PixelHolds.groups_denser (h : PixelHolds convexClip foot me mg files dx dy X Y fed fa te ged ga mfa) (hx : 0 < dx)
    (hy : 0 < dy) (hu : ∀ d ∈ files, d.events ≠ [] → UniqueIds d.flashes) : fed ≤ ged := by
  rw [h.flashes, h.groups]
  refine List.sum_le_sum fun d hd => ?_
  set s : Pt → Rat := fun p => partArea convexClip (foot p) (pixelAt dx dy X Y) / (dx * dy) with hs
  by_cases he : d.events = []
  · have h1 : ∀ f, flashPlaces d f = [] := fun f => by unfold flashPlaces; simp [he]
    have h2 : ∀ g, groupPlaces d g = [] := fun g => by unfold groupPlaces; simp [he]
    simp [h1, h2]
  · have e1 : ((countedFlashes me mg d).map fun f => ((flashPlaces d f).map s).sum).sum =
        (((countedFlashes me mg d).flatMap fun f => (flashPlaces d f).map fun p => (f.id, p)).map fun q => s q.2).sum := by
      rw [sum_map_flatMap]; simp [Function.comp_def]
    have e2 : ((countedGroups me mg d).map fun g => ((groupPlaces d g).map s).sum).sum =
        (((countedGroups me mg d).flatMap fun g => (groupPlaces d g).map fun p => (g.pid, p)).map fun q => s q.2).sum := by
      rw [sum_map_flatMap]; simp [Function.comp_def]
    rw [e1, e2]
    refine sum_le_of_subset ?_ ?_ fun q => div_nonneg (partArea_nonneg _ _ _) (mul_pos hx hy).le
    · rw [List.nodup_flatMap]
      constructor
      · intro f _
        exact (List.nodup_dedup _).map fun a b hab => (Prod.mk.inj hab).2
      · have hn : ((countedFlashes me mg d).map Row.id).Nodup :=
          (List.Sublist.map Row.id List.filter_sublist).nodup (hu d hd he)
        rw [List.Nodup, List.pairwise_map] at hn
        refine hn.imp fun {a b} hab => ?_
        intro q hq1 hq2
        obtain ⟨p, -, rfl⟩ := List.mem_map.mp hq1
        obtain ⟨p', -, e⟩ := List.mem_map.mp hq2
        exact hab (Prod.mk.inj e).1.symm
    · intro q hq
      obtain ⟨f, hf, hq⟩ := List.mem_flatMap.mp hq
      obtain ⟨p, hp, rfl⟩ := List.mem_map.mp hq
      obtain ⟨e, he, ⟨g, hg, h1, h2⟩, rfl⟩ := mem_flashPlaces.mp hp
      refine List.mem_flatMap.mpr ⟨g, mem_countedGroups.mpr ⟨hg, f, hf, h2.symm⟩, List.mem_map.mpr ⟨placeOf e,
        mem_groupPlaces.mpr ⟨e, he, h1.symm, rfl⟩, by rw [h2]⟩⟩

/-- The average over the places of flashes, or of groups, is not more than the largest area, and not less than the least. -/
theorem weighted_bounds {α : Type} {l : List α} {area share : α → Rat} (hs : ∀ a ∈ l, 0 ≤ share a) {A : Rat} :
    ((∀ a ∈ l, 0 < share a → area a ≤ A) → (l.map fun a => area a * share a).sum ≤ A * (l.map share).sum) ∧
    ((∀ a ∈ l, 0 < share a → A ≤ area a) → A * (l.map share).sum ≤ (l.map fun a => area a * share a).sum) := by
  rw [← List.sum_map_mul_left]
  constructor <;> intro h <;> refine List.sum_le_sum fun a ha => ?_ <;> rcases (hs a ha).lt_or_eq with h0 | h0
  · exact mul_le_mul_of_nonneg_right (h a ha h0) h0.le
  · rw [← h0]; simp
  · exact mul_le_mul_of_nonneg_right (h a ha h0) h0.le
  · rw [← h0]; simp

theorem sum_flatMap_pair {β γ : Type} (l : List β) (g : β → List γ) (f : β → γ → Rat) :
    (l.map fun b => ((g b).map (f b)).sum).sum = ((l.flatMap fun b => (g b).map fun c => (b, c)).map fun q => f q.1 q.2).sum := by
  rw [sum_map_flatMap]; simp [Function.comp_def]

/-- The total of the areas of flashes is between the density times the least and the density times the largest area of those
that reach the pixel; that of groups likewise. -/
theorem PixelHolds.between (h : PixelHolds convexClip foot me mg files dx dy X Y fed fa te ged ga mfa) (hx : 0 < dx) (hy : 0 < dy)
    {A B : Rat} (hA : ∀ d ∈ files, ∀ f ∈ countedFlashes me mg d,
      (∃ p ∈ flashPlaces d f, convexClip (foot p) (pixelAt dx dy X Y) ≠ []) → f.val.area ≤ A)
    (hB : ∀ d ∈ files, ∀ g ∈ countedGroups me mg d,
      (∃ p ∈ groupPlaces d g, convexClip (foot p) (pixelAt dx dy X Y) ≠ []) → g.val.area ≤ B) :
    mfa * fed ≤ fa ∧ fa ≤ A * fed ∧ ga ≤ B * ged := by
  rw [h.flashes, h.flashArea, h.groups, h.groupArea]
  simp only [sum_flatMap_pair files (countedFlashes me mg), sum_flatMap_pair files (countedGroups me mg)]
  have mem : ∀ {sel : GFile → List (Row GVal)} {q : GFile × Row GVal}, q ∈ (files.flatMap fun d => (sel d).map fun c => (d, c)) →
      q.1 ∈ files ∧ q.2 ∈ sel q.1 := by
    intro sel q hq
    obtain ⟨d, hd, hq⟩ := List.mem_flatMap.mp hq
    obtain ⟨r, hr, rfl⟩ := List.mem_map.mp hq
    exact ⟨hd, hr⟩
  refine ⟨(weighted_bounds (area := fun q : GFile × Row GVal => q.2.val.area) fun q _ => share_nonneg hx hy _).2 ?_,
    (weighted_bounds (area := fun q : GFile × Row GVal => q.2.val.area) fun q _ => share_nonneg hx hy _).1 ?_,
    (weighted_bounds (area := fun q : GFile × Row GVal => q.2.val.area) fun q _ => share_nonneg hx hy _).1 ?_⟩
  · intro q hq h0
    have hm : q.2.val.area ∈ files.flatMap fun d => ((countedFlashes me mg d).filter fun (f : Row GVal) =>
        ∃ p ∈ flashPlaces d f, convexClip (foot p) (pixelAt dx dy X Y) ≠ []).map fun f => f.val.area :=
      List.mem_flatMap.mpr ⟨q.1, (mem hq).1, List.mem_map.mpr ⟨q.2, by
        rw [List.mem_filter, decide_eq_true_eq]; exact ⟨(mem hq).2, (share_pos_iff hx hy _).mp h0⟩, rfl⟩⟩
    exact (h.least.2 (List.ne_nil_of_mem hm)).2 _ hm
  · exact fun q hq h0 => hA q.1 (mem hq).1 q.2 (mem hq).2 ((share_pos_iff hx hy _).mp h0)
  · exact fun q hq h0 => hB q.1 (mem hq).1 q.2 (mem hq).2 ((share_pos_iff hx hy _).mp h0)

/-- None of the accumulated values is negative. -/
theorem PixelHolds.nonnegative (h : PixelHolds convexClip foot me mg files dx dy X Y fed fa te ged ga mfa) (hx : 0 < dx)
    (hy : 0 < dy) (hf : ∀ d ∈ files, ∀ f ∈ countedFlashes me mg d, flashPlaces d f ≠ [] → 0 < f.val.area)
    (hg : ∀ d ∈ files, ∀ g ∈ d.groups, 0 < g.val.area) (he : ∀ d ∈ files, ∀ e ∈ d.events, 0 < e.val.energy) :
    0 ≤ fed ∧ 0 ≤ fa ∧ 0 ≤ te ∧ 0 ≤ ged ∧ 0 ≤ ga ∧ 0 ≤ mfa := by
  have nonneg : ∀ {α : Type} (l : List α) (f : α → Rat), (∀ a ∈ l, 0 ≤ f a) → 0 ≤ (l.map f).sum := by
    intro α l f h
    refine List.sum_nonneg ?_
    intro v hv
    obtain ⟨a, ha, rfl⟩ := List.mem_map.mp hv
    exact h a ha
  refine ⟨?_, ?_, ?_, ?_, ?_, ?_⟩
  · rw [h.flashes]; exact nonneg _ _ fun d _ => nonneg _ _ fun f _ => share_nonneg hx hy _
  · rw [h.flashArea]
    refine nonneg _ _ fun d hd => nonneg _ _ fun f hff => ?_
    by_cases hp : flashPlaces d f = []
    · simp [hp]
    · exact mul_nonneg (hf d hd f hff hp).le (share_nonneg hx hy _)
  · rw [h.energy]
    exact nonneg _ _ fun d hd => nonneg _ _ fun e hee => mul_nonneg (he d hd e (mem_countedEvents.mp hee).1).le
      (div_nonneg (partArea_nonneg _ _ _) (abs_nonneg _))
  · rw [h.groups]; exact nonneg _ _ fun d _ => nonneg _ _ fun f _ => share_nonneg hx hy _
  · rw [h.groupArea]
    exact nonneg _ _ fun d hd => nonneg _ _ fun g hgg => mul_nonneg (hg d hd g (mem_countedGroups.mp hgg).1).le
      (share_nonneg hx hy _)
  · by_cases hn : (files.flatMap fun d => ((countedFlashes me mg d).filter fun (f : Row GVal) =>
        ∃ p ∈ flashPlaces d f, convexClip (foot p) (pixelAt dx dy X Y) ≠ []).map fun f => f.val.area) = []
    · exact (h.least.1 hn).ge
    · obtain ⟨d, hd, hv⟩ := List.mem_flatMap.mp (h.least.2 hn).1
      obtain ⟨f, hff, e⟩ := List.mem_map.mp hv
      rw [List.mem_filter, decide_eq_true_eq] at hff
      obtain ⟨p, hp, -⟩ := hff.2
      rw [← e]
      exact (hf d hd f hff.1 (List.ne_nil_of_mem hp)).le

/-- There is a largest area. -/
theorem area_bound (files : List GFile) (sel : GFile → List (Row GVal)) (P : GFile → Row GVal → Prop) :
    ∃ A : Rat, ∀ d ∈ files, ∀ f ∈ sel d, P d f → f.val.area ≤ A := by
  have one : ∀ l : List Rat, ∃ A, ∀ a ∈ l, a ≤ A := by
    intro l
    induction l with
    | nil => exact ⟨0, by simp⟩
    | cons a l ih =>
      obtain ⟨A, h⟩ := ih
      exact ⟨max a A, fun b hb => by
        rcases List.mem_cons.mp hb with rfl | hb
        · exact le_max_left _ _
        · exact (h b hb).trans (le_max_right _ _)⟩
  obtain ⟨A, h⟩ := one (files.flatMap fun d => (sel d).map fun f => f.val.area)
  exact ⟨A, fun d hd f hf _ => h _ (List.mem_flatMap.mpr ⟨d, hd, List.mem_map.mpr ⟨f, hf, rfl⟩⟩)⟩

end

/-! ## What the images show -/

theorem atLeastStep_pos_iff {sc : Bool} {step v : Rat} (hs : 0 < step) : 0 < atLeastStep sc step v ↔ 0 < v := by
  unfold atLeastStep
  split
  · rename_i h; exact ⟨fun _ => h.2.1, fun _ => hs⟩
  · rfl

theorem averageOf_nonneg {t n : Rat} (ht : 0 ≤ t) (hn : 0 ≤ n) : 0 ≤ averageOf t n := by
  unfold averageOf
  split
  · exact le_rfl
  · exact div_nonneg ht hn

theorem averageOf_pos_iff {t n : Rat} (ht : 0 ≤ t) (hn : 0 < n ↔ 0 < t) : 0 < averageOf t n ↔ 0 < t := by
  unfold averageOf
  split
  · rename_i h; subst h; exact ⟨fun h => absurd h (lt_irrefl _), fun h => absurd (hn.mpr h) (lt_irrefl _)⟩
  · constructor
    · intro h
      rcases ht.lt_or_eq with h1 | h1
      · exact h1
      · rw [← h1, zero_div] at h; exact absurd h (lt_irrefl _)
    · exact fun h => div_pos h (hn.mpr h)

theorem atLeastStep_nonneg {sc : Bool} {step v : Rat} (hs : 0 < step) (h : 0 ≤ v) : 0 ≤ atLeastStep sc step v :=
  h.trans (atLeastStep_bounds sc hs).1

theorem atLeastStep_le_max {sc : Bool} {step v A : Rat} (h : v ≤ A) : atLeastStep sc step v ≤ max A step := by
  unfold atLeastStep
  split
  · exact le_max_right _ _
  · exact h.trans (le_max_left _ _)

/-- All areas and energies in the files are positive. -/
structure PositiveData (files : List GFile) : Prop where
  groups : ∀ d ∈ files, ∀ g ∈ d.groups, 0 < g.val.area
  events : ∀ d ∈ files, ∀ e ∈ d.events, 0 < e.val.energy

section
variable {env : Surroundings} {kw shared sh : Dict} {xlo ylo dx dy : Rat} {M N s : Nat} {me mg : Option Int}
  {files opened : List GFile} {runs : List (TileRun TileState ImageFile)} {sc : Bool} {X Y : Rat}

theorem no_places {d : GFile} (h : d.events = []) (f : Row GVal) : flashPlaces d f = [] := by
  unfold flashPlaces; simp [h]

/-- C157: at each pixel all six fields are positive, or all are zero; they are positive where there is lightning. -/
theorem C157_together (h : ConvexCall env kw xlo ylo dx dy M N s me mg files opened) (hpos : PositiveData opened)
    (hr : gridGlmFlashes (lutGridder env) files kw shared = .ok (runs, sh)) (hsc : Scaled runs sc)
    {name : String} (hn : name ∈ ["flash_extent_density", "average_flash_area", "total_energy", "group_extent_density",
      "average_group_area", "minimum_flash_area"]) {v : Rat} (hv : Shows runs name X Y v) :
    0 ≤ v ∧ (0 < v ↔ LightningIn env.foot me mg opened dx dy X Y) := by
  obtain ⟨fed, fa, te, ged, ga, mfa, p⟩ := h.good.pixel hr ⟨name, v, hv⟩
  have hval := h.good.value hr hsc p hn hv
  have hf : ∀ d ∈ opened, ∀ f ∈ countedFlashes me mg d, flashPlaces d f ≠ [] → 0 < f.val.area := fun d hd f hf hp =>
    (h.compact d hd fun he => hp (no_places he f)).areas f (List.mem_filter.mp hf).1
  rw [h.clip] at p
  have q := p.positive h.xPos h.yPos hf hpos.groups hpos.events fun d hd e he =>
    ((h.compact d hd (List.ne_nil_of_mem he)).polygons e he).2
  have nn := p.nonnegative h.xPos h.yPos hf hpos.groups hpos.events
  obtain ⟨n1, n2, n3, n4, n5, n6⟩ := nn
  obtain ⟨q1, q2, q3, q4, q5, q6⟩ := q
  have s1 : (0 : Rat) < 1/16 := by norm_num
  have s2 : (0 : Rat) < 10 := by norm_num
  have s3 : (0 : Rat) < 152597 / 100000000000 := by norm_num
  have s4 : (0 : Rat) < 1/4 := by norm_num
  have s5 : (0 : Rat) < 1 := by norm_num
  obtain ⟨w1, w2, w3, w4, w5, w6⟩ := shown_of hval
  simp only [List.mem_cons, List.not_mem_nil, or_false] at hn
  rcases hn with hn | hn | hn | hn | hn | hn
  · rw [w1 hn]
    exact ⟨atLeastStep_nonneg s1 n1, (atLeastStep_pos_iff s1).trans q1⟩
  · rw [w2 hn]
    exact ⟨atLeastStep_nonneg s2 (averageOf_nonneg n2 (atLeastStep_nonneg s1 n1)), (atLeastStep_pos_iff s2).trans
      ((averageOf_pos_iff n2 ((atLeastStep_pos_iff s1).trans (q1.trans q2.symm))).trans q2)⟩
  · rw [w3 hn]
    exact ⟨atLeastStep_nonneg s3 n3, (atLeastStep_pos_iff s3).trans q3⟩
  · rw [w4 hn]
    exact ⟨atLeastStep_nonneg s4 n4, (atLeastStep_pos_iff s4).trans q4⟩
  · rw [w5 hn]
    exact ⟨atLeastStep_nonneg s5 (averageOf_nonneg n5 (atLeastStep_nonneg s4 n4)), (atLeastStep_pos_iff s5).trans
      ((averageOf_pos_iff n5 ((atLeastStep_pos_iff s4).trans (q4.trans q5.symm))).trans q5)⟩
  · rw [w6 hn]
    exact ⟨atLeastStep_nonneg s2 n6, (atLeastStep_pos_iff s2).trans q6⟩

/-- C157: no pixel has a greater density of flashes than of groups. -/
theorem C157_denser (h : ConvexCall env kw xlo ylo dx dy M N s me mg files opened)
    (hr : gridGlmFlashes (lutGridder env) files kw shared = .ok (runs, sh)) (hsc : Scaled runs sc) {u v : Rat}
    (hu : Shows runs "flash_extent_density" X Y u) (hv : Shows runs "group_extent_density" X Y v) : u ≤ v := by
  obtain ⟨fed, fa, te, ged, ga, mfa, p⟩ := h.good.pixel hr ⟨_, u, hu⟩
  have e1 := (shown_of (h.good.value hr hsc p (by decide) hu)).1 rfl
  have e2 := (shown_of (h.good.value hr hsc p (by decide) hv)).2.2.2.1 rfl
  have nn := (p.nonneg h.xPos h.yPos).1
  rw [h.clip] at p
  have hle := p.groups_denser h.xPos h.yPos fun d hd he => (h.compact d hd he).flashes
  rw [e1, e2]
  unfold atLeastStep
  split
  · rename_i h1
    split
    · norm_num
    · rename_i h2
      by_contra hlt
      exact h2 ⟨h1.1, h1.2.1.trans_le hle, by linarith⟩
  · split
    · rename_i h2; linarith [h2.2.2]
    · exact hle

/-- C157: the averages are not above the largest area of a flash or group that reaches the pixel; with scaled integers, not
above that and one step. -/
theorem C157_largest (h : ConvexCall env kw xlo ylo dx dy M N s me mg files opened) (hpos : PositiveData opened)
    (hr : gridGlmFlashes (lutGridder env) files kw shared = .ok (runs, sh)) (hsc : Scaled runs sc) {A v : Rat} :
    (Shows runs "average_flash_area" X Y v → 0 < v → (∀ d ∈ opened, ∀ f ∈ countedFlashes me mg d,
        (∃ p ∈ flashPlaces d f, convexClip (env.foot p) (pixelAt dx dy X Y) ≠ []) → f.val.area ≤ A) →
      v ≤ if sc then max A 10 else A) ∧
    (Shows runs "average_group_area" X Y v → 0 < v → (∀ d ∈ opened, ∀ g ∈ countedGroups me mg d,
        (∃ p ∈ groupPlaces d g, convexClip (env.foot p) (pixelAt dx dy X Y) ≠ []) → g.val.area ≤ A) →
      v ≤ if sc then max A 1 else A) := by
  have key : ∀ {t n step A : Rat}, 0 < step → 0 ≤ t → 0 ≤ n → t ≤ A * n → 0 < averageOf t (atLeastStep sc step n) →
      averageOf t (atLeastStep sc step n) ≤ A := by
    intro t n step A hs ht hn hle h0
    unfold averageOf at h0 ⊢
    split
    · rename_i h1; rw [if_pos h1] at h0; exact absurd h0 (lt_irrefl _)
    · rename_i h1
      have hn' : 0 < n := by
        rcases hn.lt_or_eq with h2 | h2
        · exact h2
        · exact absurd ((atLeastStep_eq_zero hs).mpr h2.symm) h1
      have hb := (atLeastStep_bounds sc (v := n) hs).1
      have hA : 0 ≤ A := by
        by_contra hA
        nlinarith
      rw [div_le_iff₀ (hn'.trans_le hb)]
      exact hle.trans (mul_le_mul_of_nonneg_left hb hA)
  have fin : ∀ {step u A : Rat}, u ≤ A → atLeastStep sc step u ≤ if sc then max A step else A := by
    intro step u A hle
    cases sc with
    | false => simpa [atLeastStep] using hle
    | true => simpa using atLeastStep_le_max hle
  constructor
  all_goals
    intro hv h0 hA
    obtain ⟨fed, fa, te, ged, ga, mfa, p⟩ := h.good.pixel hr ⟨_, v, hv⟩
    have hw := shown_of (h.good.value hr hsc p (by decide) hv)
    have hf : ∀ d ∈ opened, ∀ f ∈ countedFlashes me mg d, flashPlaces d f ≠ [] → 0 < f.val.area := fun d hd f hf hp =>
      (h.compact d hd fun he => hp (no_places he f)).areas f (List.mem_filter.mp hf).1
    rw [h.clip] at p
    obtain ⟨n1, n2, n3, n4, n5, n6⟩ := p.nonnegative h.xPos h.yPos hf hpos.groups hpos.events
  · have e := hw.2.1 rfl
    obtain ⟨B, hB⟩ : ∃ B : Rat, ∀ d ∈ opened, ∀ g ∈ countedGroups me mg d,
        (∃ p ∈ groupPlaces d g, convexClip (env.foot p) (pixelAt dx dy X Y) ≠ []) → g.val.area ≤ B := area_bound _ _ _
    have hb := (p.between h.xPos h.yPos hA hB).2.1
    rw [e] at h0 ⊢
    exact fin (key (by norm_num) n2 n1 hb ((atLeastStep_pos_iff (by norm_num)).mp h0))
  · have e := hw.2.2.2.2.1 rfl
    obtain ⟨B, hB⟩ : ∃ B : Rat, ∀ d ∈ opened, ∀ f ∈ countedFlashes me mg d,
        (∃ p ∈ flashPlaces d f, convexClip (env.foot p) (pixelAt dx dy X Y) ≠ []) → f.val.area ≤ B := area_bound _ _ _
    have hb := (p.between h.xPos h.yPos hB hA).2.2
    rw [e] at h0 ⊢
    exact fin (key (by norm_num) n5 n4 hb ((atLeastStep_pos_iff (by norm_num)).mp h0))

/-- C157: without scaled integers, the least area at a pixel is not above the average. -/
theorem C157_least_partial (h : ConvexCall env kw xlo ylo dx dy M N s me mg files opened) (hpos : PositiveData opened)
    (hr : gridGlmFlashes (lutGridder env) files kw shared = .ok (runs, sh)) (hsc : Scaled runs false) {u v : Rat}
    (hu : Shows runs "minimum_flash_area" X Y u) (hv : Shows runs "average_flash_area" X Y v) : u ≤ v := by
  obtain ⟨fed, fa, te, ged, ga, mfa, p⟩ := h.good.pixel hr ⟨_, u, hu⟩
  have e1 := (shown_of (h.good.value hr hsc p (by decide) hu)).2.2.2.2.2 rfl
  have e2 := (shown_of (h.good.value hr hsc p (by decide) hv)).2.1 rfl
  have t1 := C157_together h hpos hr hsc (by decide) hu
  have t2 := C157_together h hpos hr hsc (by decide) hv
  rw [h.clip] at p
  obtain ⟨A, hA⟩ : ∃ A : Rat, ∀ d ∈ opened, ∀ f ∈ countedFlashes me mg d,
    (∃ p ∈ flashPlaces d f, convexClip (env.foot p) (pixelAt dx dy X Y) ≠ []) → f.val.area ≤ A := area_bound _ _ _
  obtain ⟨B, hB⟩ : ∃ B : Rat, ∀ d ∈ opened, ∀ g ∈ countedGroups me mg d,
    (∃ p ∈ groupPlaces d g, convexClip (env.foot p) (pixelAt dx dy X Y) ≠ []) → g.val.area ≤ B := area_bound _ _ _
  have hb := (p.between h.xPos h.yPos hA hB).1
  simp only [atLeastStep_false] at e1 e2
  by_cases hl : LightningIn env.foot me mg opened dx dy X Y
  · have hv0 := t2.2.mpr hl
    rw [e2] at hv0 ⊢
    rw [e1]
    unfold averageOf at hv0 ⊢
    split
    · rename_i h1; rw [if_pos h1] at hv0; exact absurd hv0 (lt_irrefl _)
    · rename_i h1
      have hn := (p.nonneg h.xPos h.yPos).1
      rw [le_div_iff₀ (lt_of_le_of_ne hn (Ne.symm h1))]
      exact hb
  · exact (not_lt.mp fun h0 => hl (t1.2.mp h0)).trans t2.1

end

/-- C157: the six fields of a pixel are positive together, there are no more flashes than groups, and the average area is
not below the least one. -/
def C157_full : Prop := ∀ (env : Surroundings) (kw shared sh : Dict) (xlo ylo dx dy : Rat) (M N s : Nat) (me mg : Option Int)
  (files opened : List GFile) (runs : List (TileRun TileState ImageFile)) (sc : Bool) (X Y fed fa te ged ga mfa : Rat),
  ConvexCall env kw xlo ylo dx dy M N s me mg files opened → PositiveData opened →
  gridGlmFlashes (lutGridder env) files kw shared = .ok (runs, sh) → Scaled runs sc →
  Shows runs "flash_extent_density" X Y fed → Shows runs "average_flash_area" X Y fa → Shows runs "total_energy" X Y te →
  Shows runs "group_extent_density" X Y ged → Shows runs "average_group_area" X Y ga →
  Shows runs "minimum_flash_area" X Y mfa →
  ((0 < fed ∧ 0 < fa ∧ 0 < te ∧ 0 < ged ∧ 0 < ga ∧ 0 < mfa) ∨
    (fed = 0 ∧ fa = 0 ∧ te = 0 ∧ ged = 0 ∧ ga = 0 ∧ mfa = 0)) ∧ fed ≤ ged ∧ mfa ≤ fa

/-! ## Samples -/

/-- The values of a field that a call for the samples shows at a place, if it ends well and all its images have scaled
integers, or none. -/
def diamondValues (kw shared : Dict) (sc : Bool) (names : List String) (X Y : Rat) : Option (List (String × Rat)) :=
  match gridGlmFlashes (lutGridder diamondEnv) [wholeSample, secondSample] kw shared with
  | .ok (runs, _) => if runs.all (fun r => (r.scale != .bool false) == sc) then
      some (runs.flatMap fun r => r.written.flatMap fun nf => nf.2.fields.flatMap fun p => if p.1 ∈ names then
        (List.range nf.2.y.length).flatMap fun row => (List.range nf.2.x.length).filterMap fun col =>
          if nf.2.x[col]? = some X ∧ nf.2.y[row]? = some Y then some (p.1, p.2.val row col) else none else [])
      else none
  | .error _ => none

theorem diamondValues_shows {kw shared : Dict} {sc : Bool} {names : List String} {X Y : Rat} {l : List (String × Rat)}
    (h : diamondValues kw shared sc names X Y = some l) :
    ∃ runs sh, gridGlmFlashes (lutGridder diamondEnv) [wholeSample, secondSample] kw shared = .ok (runs, sh) ∧ Scaled runs sc ∧
      ∀ q ∈ l, Shows runs q.1 X Y q.2 := by
  unfold diamondValues at h
  split at h
  · rename_i runs sh hr
    split at h
    · rename_i hall
      refine ⟨runs, sh, hr, fun r hr => beq_iff_eq.mp (List.all_eq_true.mp hall r hr), fun q hq => ?_⟩
      rw [← Option.some.inj h] at hq
      simp only [List.mem_flatMap] at hq
      obtain ⟨r, hr, nf, hnf, p, hp, hq⟩ := hq
      split at hq
      · simp only [List.mem_flatMap, List.mem_filterMap] at hq
        obtain ⟨row, -, col, -, hq⟩ := hq
        split at hq
        · rename_i hxy
          rw [← Option.some.inj hq]
          exact ⟨r, hr, nf, hnf, row, col, p.2, hxy.1, hxy.2, hp, rfl⟩
        · cases hq
      · exact absurd hq List.not_mem_nil
    · cases h
  · cases h

/-- Where the footprints take up little of a pixel, the average area is much too small. -/
theorem diamond_fields : diamondValues wideCall [] true ["flash_extent_density", "average_flash_area", "total_energy",
      "group_extent_density", "average_group_area", "minimum_flash_area"] (7/2000) (7/2000) =
    some [("flash_extent_density", 1/16), ("average_flash_area", 40), ("total_energy", 2/9), ("group_extent_density", 1/4),
      ("average_group_area", 25/3), ("minimum_flash_area", 60)] := by decide +kernel

theorem diamond_positive : PositiveData [wholeSample, secondSample] :=
  { groups := by decide +kernel, events := by decide +kernel }

/-- C157 is false: with scaled integers the least area can be above the average. -/
theorem C157_full_false : ¬ C157_full := by
  intro hfull
  obtain ⟨runs, sh, hr, hsc, hs⟩ := diamondValues_shows diamond_fields
  have := (hfull _ _ _ _ _ _ _ _ _ _ _ _ _ _ _ runs true (7/2000) (7/2000) (1/16) 40 (2/9) (1/4) (25/3) 60 diamond_call
    diamond_positive hr hsc (hs ("flash_extent_density", 1/16) (by simp)) (hs ("average_flash_area", 40) (by simp))
    (hs ("total_energy", 2/9) (by simp)) (hs ("group_extent_density", 1/4) (by simp))
    (hs ("average_group_area", 25/3) (by simp)) (hs ("minimum_flash_area", 60) (by simp))).2.2
  norm_num at this

/-- The sample meets the hypotheses of `C157_together` and `C157_denser`. -/
example : ∃ runs sh, gridGlmFlashes (lutGridder diamondEnv) [wholeSample, secondSample] wideCall [] = .ok (runs, sh) ∧
    (∀ v, Shows runs "total_energy" (7/2000) (7/2000) v → 0 < v) ∧
    ∃ u v, Shows runs "flash_extent_density" (7/2000) (7/2000) u ∧ Shows runs "group_extent_density" (7/2000) (7/2000) v ∧
      0 < u ∧ u ≤ v := by
  obtain ⟨runs, sh, hr, hsc, hs⟩ := diamondValues_shows diamond_fields
  refine ⟨runs, sh, hr, fun v hv => ?_, 1/16, 1/4, hs ("flash_extent_density", 1/16) (by simp),
    hs ("group_extent_density", 1/4) (by simp), by norm_num, by norm_num⟩
  exact (C157_together diamond_call diamond_positive hr hsc (by decide) hv).2.mpr
    ((C157_together diamond_call diamond_positive hr hsc (by decide) (hs ("minimum_flash_area", 60) (by simp))).2.mp (by norm_num))

/-- The call of the sample for images without scaled integers. -/
def plainCall : Dict := wideCall ++ [("output_kwargs", .shared)]

theorem plainCall_asked : FixedGridAsked plainCall 0 (-1/1000) (1/1000) (1/1000) 6 6 1 (some 2) none :=
  { proj := ⟨_, rfl⟩
    fixed := ⟨by decide +kernel, by decide +kernel⟩
    xBox := rfl
    yBox := rfl
    x := by decide +kernel
    y := by decide +kernel
    subdivide := Or.inr ⟨rfl, rfl⟩
    given := by decide +kernel
    minEvents := Or.inl ⟨2, rfl, rfl⟩
    minGroups := Or.inr ⟨Or.inr rfl, rfl⟩ }

theorem diamond_plain : ConvexCall diamondEnv plainCall 0 (-1/1000) (1/1000) (1/1000) 6 6 1 (some 2) none
    [wholeSample, secondSample] [wholeSample, secondSample] :=
  { diamond_call with
    asked := plainCall_asked
    opens := fun _ _ => .cons rfl (.cons rfl .nil) }

theorem plain_fields : diamondValues plainCall [("scale_and_offset", .bool false)] false
      ["average_flash_area", "minimum_flash_area"] (1/2000) (5/2000) =
    some [("average_flash_area", 1540/19), ("minimum_flash_area", 80)] := by decide +kernel

/-- The sample meets the hypotheses of `C157_least_partial` and `C157_largest`, without scaled integers. -/
example : ∃ runs sh, gridGlmFlashes (lutGridder diamondEnv) [wholeSample, secondSample] plainCall
      [("scale_and_offset", .bool false)] = .ok (runs, sh) ∧ ∃ u v, Shows runs "minimum_flash_area" (1/2000) (5/2000) u ∧
    Shows runs "average_flash_area" (1/2000) (5/2000) v ∧ 0 < u ∧ u < v ∧ v ≤ 100 := by
  obtain ⟨runs, sh, hr, hsc, hs⟩ := diamondValues_shows plain_fields
  have hu := hs ("minimum_flash_area", 80) (by simp)
  have hv := hs ("average_flash_area", 1540/19) (by simp)
  have := C157_least_partial diamond_plain diamond_positive hr hsc hu hv
  refine ⟨runs, sh, hr, 80, 1540/19, hu, hv, by norm_num, by norm_num, ?_⟩
  refine (C157_largest (A := 100) diamond_plain diamond_positive hr hsc).1 hv (by norm_num) fun d hd f hf _ => ?_
  have hall : ∀ d ∈ [wholeSample, secondSample], ∀ f ∈ d.flashes, f.val.area ≤ 100 := by decide +kernel
  exact hall d hd f (List.mem_filter.mp hf).1

end Verif.Props
