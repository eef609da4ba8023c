import Verif.Props.FileSums

/-!
# C131, C133 and C134 from files to images

What is proved of grids is said here of calls and the images they write: stricter criteria give smaller values, images hold
no more energy than is recorded, and their energy can be compared with that of the files.
-/

namespace Verif.Props

open Verif.Py Verif.Model Verif.Spec Verif.Proofs

theorem atLeastStep_rises (sc : Bool) {step a b : Rat} (h : a ≤ b) :
    atLeastStep sc step a ≤ atLeastStep sc step b ∨ b ≤ 0 := by
  unfold atLeastStep
  by_cases hb : b ≤ 0
  · exact Or.inr hb
  · left
    rw [not_le] at hb
    split <;> split
    · exact le_refl _
    · rename_i h1 h2
      by_contra hc
      exact h2 ⟨h1.1, hb, not_le.mp hc⟩
    · rename_i h1 h2
      exact h.trans h2.2.2.le
    · exact h

theorem atLeastStep_le (sc : Bool) {step a b : Rat} (h0 : 0 ≤ a) (h : a ≤ b) :
    atLeastStep sc step a ≤ atLeastStep sc step b := by
  rcases atLeastStep_rises sc (step := step) h with k | k
  · exact k
  · rw [show a = b from le_antisymm h (k.trans h0)]

/-! ## Energy -/

/-- The pixels of a domain hold no more than the area of a convex footprint. -/
theorem parts_le {p : Poly} (hc : ConvexPoly p) (ha : signedArea p ≠ 0) {xlo ylo dx dy : Rat} (hdx : 0 < dx)
    (hdy : 0 < dy) {M N : Nat} (hM : 0 < M) (hN : 0 < N) :
    overBoxes M N (fun m n => partArea convexClip p (pixelAt dx dy (xlo + (m + 1/2) * dx) (ylo + (n + 1/2) * dy))) ≤
      |signedArea p| := by
  obtain ⟨k1, k2⟩ := counterclockwise_ok hc ha
  have step : ∀ {lo d : Rat} {m : Nat}, 0 < d → ∀ k, k + 1 < (boxEdges lo d m).length →
      (boxEdges lo d m).getD k 0 < (boxEdges lo d m).getD (k + 1) 0 := by
    intro lo d m hd k hk
    rw [boxEdges_length] at hk
    rw [boxEdges_getD lo d (by omega), boxEdges_getD lo d (by omega)]
    push_cast
    linarith
  have h := cells_le (x := boxEdges xlo dx M) (y := boxEdges ylo dy N) (step hdx) (step hdy)
    (by rw [boxEdges_length]; omega) (by rw [boxEdges_length]; omega) (segClosed_inside _) (convex_around k1)
  rw [k2, boxEdges_length, boxEdges_length, Nat.add_sub_cancel, Nat.add_sub_cancel] at h
  refine le_of_eq_of_le ?_ h
  unfold overBoxes
  refine congrArg List.sum (List.map_congr_left fun m hm => congrArg List.sum (List.map_congr_left fun n hn => ?_))
  rw [List.mem_range] at hm hn
  unfold pixelAt
  show partArea convexClip p _ = _
  rw [partArea_convex hc ha, boxEdges_getD xlo dx (by omega), boxEdges_getD ylo dy (by omega),
    boxEdges_getD xlo dx (by omega), boxEdges_getD ylo dy (by omega)]
  push_cast
  congr 2 <;> ring

theorem pixelEnergy_le {clip : Poly → Poly → List Poly} {foot : Pt → Poly} {me mg : Option Int} {files : List GFile}
    {xlo ylo dx dy : Rat} {M N : Nat} (hA : ∀ d ∈ files, ∀ e ∈ d.events, signedArea (foot (placeOf e)) ≠ 0)
    (hpos : ∀ d ∈ files, ∀ e ∈ d.events, 0 ≤ e.val.energy)
    (hin : ∀ d ∈ files, ∀ e ∈ d.events, overBoxes M N (fun m n => partArea clip (foot (placeOf e))
      (pixelAt dx dy (xlo + (m + 1/2) * dx) (ylo + (n + 1/2) * dy))) ≤ |signedArea (foot (placeOf e))|) :
    overBoxes M N (fun m n => pixelEnergy clip foot me mg files dx dy (xlo + (m + 1/2) * dx) (ylo + (n + 1/2) * dy)) ≤
      countedEnergy me mg files := by
  unfold pixelEnergy countedEnergy
  rw [overBoxes_sum M N files fun d m n => ((countedEvents me mg d).map fun e => e.val.energy *
    (partArea clip (foot (placeOf e)) (pixelAt dx dy (xlo + (m + 1/2) * dx) (ylo + (n + 1/2) * dy)) /
      |signedArea (foot (placeOf e))|)).sum]
  refine sum_le_sum_map _ _ _ fun d hd => ?_
  rw [overBoxes_sum M N (countedEvents me mg d) fun e m n => e.val.energy *
    (partArea clip (foot (placeOf e)) (pixelAt dx dy (xlo + (m + 1/2) * dx) (ylo + (n + 1/2) * dy)) /
      |signedArea (foot (placeOf e))|)]
  refine sum_le_sum_map _ _ _ fun e he => ?_
  have he := (List.mem_filter.mp he).1
  have hp := hin d hd e he
  rw [overBoxes_mul]
  have e1 : overBoxes M N (fun m n => partArea clip (foot (placeOf e)) (pixelAt dx dy (xlo + (m + 1/2) * dx)
      (ylo + (n + 1/2) * dy)) / |signedArea (foot (placeOf e))|) ≤ 1 := by
    have hs := abs_pos.mpr (hA d hd e he)
    simp only [div_eq_inv_mul]
    rw [overBoxes_mul]
    simp only [one_div, mul_one] at hp ⊢
    rw [inv_mul_le_iff₀ hs, mul_one]
    exact hp
  exact mul_le_of_le_one_right (hpos d hd e he) e1

section
variable {env : Surroundings} {order : List Int → List Int} {nav : Rat → Rat → Rat × Rat} {kw shared sh : Dict}
  {xlo ylo dx dy : Rat} {M N s : Nat} {me mg : Option Int} {files : List GFile} {runs : List (TileRun TileState ImageFile)}
  {sc : Bool}

/-- **C134** for files.  Wherever the footprints are, no pixel has a negative energy and the images hold no more energy than is
recorded for the events of the flashes that are large enough; with scaled integers, but for one step in each pixel. -/
theorem C134_from_files (h : FileCall env order nav kw xlo ylo dx dy M N s me mg files)
    (hr : gridGlmFlashes (lutGridder env) files kw shared = .ok (runs, sh)) (hsc : Scaled runs sc)
    (hpos : EnergiesHold files) (v : Nat → Nat → Rat) (hv : ∀ m n, m < M → n < N →
      Shows runs "total_energy" (xlo + (m + 1/2) * dx) (ylo + (n + 1/2) * dy) (v m n)) :
    (∀ m n, m < M → n < N → 0 ≤ v m n) ∧
    overBoxes M N v ≤ recordedEnergy me mg files + 152597 / 100000000000 * (M * N) ∧
    (sc = false → overBoxes M N v ≤ recordedEnergy me mg files) := by
  obtain ⟨parts, opened, hp, ho, hc, -⟩ := call_opening h
  have g := hc.good
  have hpos' : ∀ d ∈ opened, ∀ e ∈ d.events, 0 ≤ e.val.energy := by
    intro d' hd' e' he'
    obtain ⟨d, hd, e, he, e1, -⟩ := opened_event hp ho d' hd' e' he'
    rw [e1]
    exact hpos d hd e he
  have hn : "total_energy" ∈ sixNames := by simp [sixNames]
  let te : Nat → Nat → Rat := fun m n =>
    pixelEnergy convexClip env.foot me mg opened dx dy (xlo + (m + 1/2) * dx) (ylo + (n + 1/2) * dy)
  have hte : ∀ m n, m < M → n < N → 0 ≤ te m n ∧ v m n = atLeastStep sc (152597 / 100000000000) (te m n) := by
    intro m n hm hn'
    obtain ⟨fed, fa, t, ged, ga, mfa, hp⟩ := g.pixel hr ⟨_, _, hv m n hm hn'⟩
    have h1 := (shown_of (g.value hr hsc hp hn (hv m n hm hn'))).2.2.1 rfl
    have h2 := hp.energy_nonneg hpos'
    rw [hp.energy, hc.clip] at h1 h2
    exact ⟨h2, h1⟩
  have area : ∀ d ∈ opened, ∀ e ∈ d.events, signedArea (env.foot (placeOf e)) ≠ 0 :=
    fun d hd e he => ((hc.compact d hd (List.ne_nil_of_mem he)).polygons e he).2
  have total : overBoxes M N te ≤ recordedEnergy me mg files := by
    rw [← opened_energy hp ho]
    exact pixelEnergy_le area hpos' fun d hd e he => parts_le (hc.convex d hd e he) (area d hd e he) hc.xPos hc.yPos
      (by have := hc.tiles; have := hc.xTiles; omega) (by have := hc.tiles; have := hc.yTiles; omega)
  have hst : (0 : Rat) < 152597 / 100000000000 := by norm_num
  refine ⟨fun m n hm hn' => ?_, ?_, ?_⟩
  · rw [(hte m n hm hn').2]
    exact (hte m n hm hn').1.trans (atLeastStep_bounds sc hst).1
  · refine le_trans ?_ (add_le_add_left total _)
    rw [← overBoxes_add_const]
    refine overBoxes_le fun m n hm hn' => ?_
    rw [(hte m n hm hn').2]
    exact (atLeastStep_bounds sc hst).2
  · rintro rfl
    refine le_trans (overBoxes_le fun m n hm hn' => ?_) total
    rw [(hte m n hm hn').2, atLeastStep_false]

/-- **C133** for files.  If the flashes with enough events and groups are those in the region asked for, and footprints are in
the domain, the images hold the energy that `total_energy_in_L2` returns for the files. -/
theorem C133_from_files_partial (h : FileCall env order nav kw xlo ylo dx dy M N s me mg files)
    (hr : gridGlmFlashes (lutGridder env) files kw shared = .ok (runs, sh)) (hsc : Scaled runs sc)
    (hpos : EnergiesHold files) (hin : FootprintsIn env.foot nav xlo ylo dx dy M N files)
    (hgood : ∀ d ∈ files, GoodFile d) (lon lat : Rat × Rat)
    (hsame : ∀ d ∈ files, ∀ f ∈ d.flashes, Enough me mg d f ↔ InRegion nav lon lat d f)
    (v : Nat → Nat → Rat) (hv : ∀ m n, m < M → n < N →
      Shows runs "total_energy" (xlo + (m + 1/2) * dx) (ylo + (n + 1/2) * dy) (v m n)) :
    ∃ energy, totalEnergyInL2 order nav lon lat files = .ok energy ∧ energy ≤ overBoxes M N v ∧
      overBoxes M N v ≤ energy + 152597 / 100000000000 * (M * N) ∧ (sc = false → overBoxes M N v = energy) := by
  classical
  refine ⟨_, C133_energy_partial order nav lon lat files h.ids hgood, ?_⟩
  have e : (files.map (regionEnergy nav lon lat)).sum = recordedEnergy me mg files := by
    unfold recordedEnergy
    refine congrArg List.sum (List.map_congr_left fun d hd => ?_)
    unfold regionEnergy fileEvents
    refine congrArg (fun l : List (Row GVal) => (l.map fun e => e.val.energy).sum) (List.filter_congr fun e _ => ?_)
    rw [decide_eq_decide]
    constructor
    · rintro ⟨f, hf, k⟩
      exact ⟨f, hf.flash, (hsame d hd f hf.flash).mpr hf, k⟩
    · rintro ⟨f, hf, k1, k2⟩
      exact ⟨f, (hsame d hd f hf).mp k1, k2⟩
  rw [e]
  exact (C141_from_files h hr hsc hpos hin v hv).2

end

/-! ## Criteria -/

/-- What the images of a call for files show in a pixel. -/
theorem file_pixel {env : Surroundings} {order : List Int → List Int} {nav : Rat → Rat → Rat × Rat} {kw shared sh : Dict}
    {xlo ylo dx dy : Rat} {M N s : Nat} {me mg : Option Int} {files : List GFile} {runs : List (TileRun TileState ImageFile)}
    {sc : Bool} (h : FileCall env order nav kw xlo ylo dx dy M N s me mg files)
    (hr : gridGlmFlashes (lutGridder env) files kw shared = .ok (runs, sh)) (hsc : Scaled runs sc) {X Y : Rat}
    (hex : ∃ name v, Shows runs name X Y v) : ∃ fed fa te ged ga mfa,
      FilesHold convexClip env.foot nav me mg files dx dy X Y fed fa te ged ga mfa ∧
      0 ≤ fed ∧ 0 ≤ ged ∧ (fed = 0 → fa = 0) ∧ (ged = 0 → ga = 0) ∧
      ∀ name v, name ∈ sixNames → Shows runs name X Y v → (name, v) ∈ shown sc fed fa te ged ga mfa := by
  obtain ⟨parts, opened, hp, ho, hc, -⟩ := call_opening h
  obtain ⟨fed, fa, te, ged, ga, mfa, hpx⟩ := hc.good.pixel hr hex
  have val := fun name v hn hv => hc.good.value hr hsc hpx (name := name) (v := v) hn hv
  obtain ⟨n1, n2, n3, n4⟩ := hpx.nonneg hc.xPos hc.yPos
  rw [hc.clip] at hpx
  exact ⟨fed, fa, te, ged, ga, mfa, part_holds hp (opened_holds ho hpx), n1, n2, n3, n4, val⟩

/-- Fewer flashes that count give smaller sums. -/
theorem FilesHold.fewer {clip : Poly → Poly → List Poly} {foot : Pt → Poly} {nav : Rat → Rat → Rat × Rat}
    {me mg me' mg' : Option Int} {files : List GFile} {dx dy X Y fed fa te ged ga mfa fed' fa' te' ged' ga' mfa' : Rat}
    (h : FilesHold clip foot nav me mg files dx dy X Y fed fa te ged ga mfa)
    (h' : FilesHold clip foot nav me' mg' files dx dy X Y fed' fa' te' ged' ga' mfa') (hdx : 0 < dx) (hdy : 0 < dy)
    (hme : ∀ n, AtLeast me n → AtLeast me' n) (hmg : ∀ n, AtLeast mg n → AtLeast mg' n)
    (hf : ∀ d ∈ files, ∀ f ∈ d.flashes, 0 < f.val.area) (hg : ∀ d ∈ files, ∀ g ∈ d.groups, 0 ≤ g.val.area)
    (he : EnergiesHold files) :
    fed ≤ fed' ∧ fa ≤ fa' ∧ (0 ≤ te ∧ te ≤ te') ∧ ged ≤ ged' ∧ ga ≤ ga' ∧ 0 ≤ mfa ∧ (mfa ≠ 0 → 0 < mfa' ∧ mfa' ≤ mfa) := by
  classical
  have enough : ∀ {d f}, Enough me mg d f → Enough me' mg' d f := fun k => ⟨hme _ k.events, hmg _ k.groups⟩
  have share : ∀ p, 0 ≤ pixelShare clip foot dx dy X Y p := fun p => div_nonneg (partArea_nonneg _ _ _) (mul_pos hdx hdy).le
  have shares : ∀ l : List Pt, 0 ≤ (l.map (pixelShare clip foot dx dy X Y)).sum := fun l => sum_nonneg_map _ _ fun p _ => share p
  have groups : ∀ d (g : Row GVal), (decide (∃ f ∈ d.flashes, Enough me mg d f ∧ f.id = g.pid)) = true →
      (decide (∃ f ∈ d.flashes, Enough me' mg' d f ∧ f.id = g.pid)) = true := by
    intro d g k
    obtain ⟨f, k1, k2, k3⟩ := of_decide_eq_true k
    exact decide_eq_true ⟨f, k1, enough k2, k3⟩
  have energies : ∀ d ∈ files, ∀ e ∈ d.events, 0 ≤ e.val.energy *
      (partArea clip (foot (navPlace nav e)) (pixelAt dx dy X Y) / |signedArea (foot (navPlace nav e))|) := fun d hd e hee =>
    mul_nonneg (he d hd e hee) (div_nonneg (partArea_nonneg _ _ _) (abs_nonneg _))
  have areas : ∀ me mg, ∀ u ∈ files.flatMap fun d => ((fileFlashes me mg d).filter fun (f : Row GVal) =>
      ∃ p ∈ placesOfFlash nav d f, clip (foot p) (pixelAt dx dy X Y) ≠ []).map fun f => f.val.area, 0 < u := by
    intro me mg u hu
    obtain ⟨d, hd, hu⟩ := List.mem_flatMap.mp hu
    obtain ⟨f, hff, rfl⟩ := List.mem_map.mp hu
    exact hf d hd f (List.mem_filter.mp (List.mem_filter.mp hff).1).1
  refine ⟨?_, ?_, ⟨?_, ?_⟩, ?_, ?_, ?_, ?_⟩
  · rw [h.flashes, h'.flashes]
    refine sum_le_sum_map _ _ _ fun d _ => sum_filter_le _ _ _ _ (fun f _ k => ?_) fun f _ => shares _
    exact decide_eq_true (enough (of_decide_eq_true k))
  · rw [h.flashArea, h'.flashArea]
    refine sum_le_sum_map _ _ _ fun d hd => sum_filter_le _ _ _ _ (fun f _ k => ?_) fun f hff =>
      mul_nonneg (hf d hd f hff).le (shares _)
    exact decide_eq_true (enough (of_decide_eq_true k))
  · rw [h.energy]
    exact sum_nonneg_map _ _ fun d hd => sum_nonneg_map _ _ fun e hee => energies d hd e (List.mem_filter.mp hee).1
  · rw [h.energy, h'.energy]
    refine sum_le_sum_map _ _ _ fun d hd => sum_filter_le _ _ _ _ (fun e _ k => ?_) (energies d hd)
    obtain ⟨f, k1, k2, k3⟩ := of_decide_eq_true k
    exact decide_eq_true ⟨f, k1, enough k2, k3⟩
  · rw [h.groups, h'.groups]
    exact sum_le_sum_map _ _ _ fun d _ => sum_filter_le _ _ _ _ (fun g _ => groups d g) fun g _ => shares _
  · rw [h.groupArea, h'.groupArea]
    exact sum_le_sum_map _ _ _ fun d hd => sum_filter_le _ _ _ _ (fun g _ => groups d g) fun g hgg =>
      mul_nonneg (hg d hd g hgg) (shares _)
  · by_cases hn : (files.flatMap fun d => ((fileFlashes me mg d).filter fun (f : Row GVal) =>
      ∃ p ∈ placesOfFlash nav d f, clip (foot p) (pixelAt dx dy X Y) ≠ []).map fun f => f.val.area) = []
    · rw [h.least.1 hn]
    · exact (areas _ _ _ (h.least.2 hn).1).le
  · intro h0
    have hn := fun hn => h0 (h.least.1 hn)
    obtain ⟨k1, -⟩ := h.least.2 hn
    obtain ⟨d, hd, hu⟩ := List.mem_flatMap.mp k1
    obtain ⟨f, hff, e⟩ := List.mem_map.mp hu
    obtain ⟨hff, hp⟩ := List.mem_filter.mp hff
    obtain ⟨hff, hen⟩ := List.mem_filter.mp hff
    have mem : mfa ∈ files.flatMap fun d => ((fileFlashes me' mg' d).filter fun (f : Row GVal) =>
        ∃ p ∈ placesOfFlash nav d f, clip (foot p) (pixelAt dx dy X Y) ≠ []).map fun f => f.val.area :=
      List.mem_flatMap.mpr ⟨d, hd, List.mem_map.mpr ⟨f, List.mem_filter.mpr ⟨List.mem_filter.mpr
        ⟨hff, decide_eq_true (enough (of_decide_eq_true hen))⟩, hp⟩, e⟩⟩
    obtain ⟨m1, m2⟩ := h'.least.2 (List.ne_nil_of_mem mem)
    exact ⟨areas _ _ _ m1, m2 _ mem⟩

/-- Sums behind pixels that grow, and what the pixels show. -/
theorem shown_grows {A B : String → Rat → Prop} {sc : Bool}
    (key : ∀ (_ : ∃ name v, A name v) (_ : ∃ name v, B name v),
      ∃ fed fa te ged ga mfa fed' fa' te' ged' ga' mfa',
        (0 ≤ fed ∧ 0 ≤ ged ∧ (fed = 0 → fa = 0) ∧ (ged = 0 → ga = 0)) ∧ ((fed' = 0 → fa' = 0) ∧ (ged' = 0 → ga' = 0)) ∧
        (fed ≤ fed' ∧ fa ≤ fa' ∧ (0 ≤ te ∧ te ≤ te') ∧ ged ≤ ged' ∧ ga ≤ ga' ∧ 0 ≤ mfa ∧
          (mfa ≠ 0 → 0 < mfa' ∧ mfa' ≤ mfa)) ∧
        (∀ name v, name ∈ sixNames → A name v → (name, v) ∈ shown sc fed fa te ged ga mfa) ∧
        ∀ name v, name ∈ sixNames → B name v → (name, v) ∈ shown sc fed' fa' te' ged' ga' mfa') :
    (∀ name ∈ ["flash_extent_density", "total_energy", "group_extent_density"], ∀ a b,
      A name a → B name b → 0 ≤ a ∧ a ≤ b) ∧
    (∀ a b, A "minimum_flash_area" a → B "minimum_flash_area" b →
      a ≠ 0 → 0 < b ∧ b ≤ a) ∧
    (sc = false → ∀ name density, (name, density) ∈ [("average_flash_area", "flash_extent_density"),
        ("average_group_area", "group_extent_density")] →
      ∀ a b u w, A name a → B name b →
        A density u → B density w → a * u ≤ b * w) := by
  have low : ∀ {step a : Rat}, 0 < step → 0 ≤ a → 0 ≤ atLeastStep sc step a :=
    fun hs ha => ha.trans (atLeastStep_bounds sc hs).1
  refine ⟨?_, ?_, ?_⟩
  · intro name hname a b ha hb
    obtain ⟨fed, fa, te, ged, ga, mfa, fed', fa', te', ged', ga', mfa', ⟨n1, n2, -, -⟩, -, ⟨l1, -, ⟨l3, l4⟩, l5, -⟩, vA, vB⟩ :=
      key ⟨_, _, ha⟩ ⟨_, _, hb⟩
    simp only [List.mem_cons, List.not_mem_nil, or_false] at hname
    have six : name ∈ sixNames := by rcases hname with rfl | rfl | rfl <;> simp [sixNames]
    have wA := shown_of (vA name a six ha)
    have wB := shown_of (vB name b six hb)
    rcases hname with rfl | rfl | rfl
    · rw [wA.1 rfl, wB.1 rfl]
      exact ⟨low (by norm_num) n1, atLeastStep_le sc n1 l1⟩
    · rw [wA.2.2.1 rfl, wB.2.2.1 rfl]
      exact ⟨low (by norm_num) l3, atLeastStep_le sc l3 l4⟩
    · rw [wA.2.2.2.1 rfl, wB.2.2.2.1 rfl]
      exact ⟨low (by norm_num) n2, atLeastStep_le sc n2 l5⟩
  · intro a b ha hb h0
    obtain ⟨fed, fa, te, ged, ga, mfa, fed', fa', te', ged', ga', mfa', -, -, ⟨-, -, -, -, -, m0, m1⟩, vA, vB⟩ :=
      key ⟨_, _, ha⟩ ⟨_, _, hb⟩
    have wA := (shown_of (vA _ a (by simp [sixNames]) ha)).2.2.2.2.2 rfl
    have wB := (shown_of (vB _ b (by simp [sixNames]) hb)).2.2.2.2.2 rfl
    have hm : mfa ≠ 0 := by
      rintro rfl
      apply h0
      rw [wA]
      unfold atLeastStep
      rw [if_neg (fun k => lt_irrefl _ k.2.1)]
    obtain ⟨p, q⟩ := m1 hm
    rw [wA, wB]
    exact ⟨p.trans_le (atLeastStep_bounds sc (by norm_num)).1, atLeastStep_le sc p.le q⟩
  · rintro rfl name density hname a b u w ha hb hu hw
    obtain ⟨fed, fa, te, ged, ga, mfa, fed', fa', te', ged', ga', mfa', ⟨-, -, n3, n4⟩, ⟨n3', n4'⟩, ⟨-, l2, -, -, l6, -⟩, vA, vB⟩ :=
      key ⟨_, _, ha⟩ ⟨_, _, hb⟩
    simp only [List.mem_cons, Prod.mk.injEq, List.not_mem_nil, or_false] at hname
    rcases hname with ⟨rfl, rfl⟩ | ⟨rfl, rfl⟩
    · rw [(shown_of (vA _ a (by simp [sixNames]) ha)).2.1 rfl, (shown_of (vB _ b (by simp [sixNames]) hb)).2.1 rfl,
        (shown_of (vA _ u (by simp [sixNames]) hu)).1 rfl, (shown_of (vB _ w (by simp [sixNames]) hw)).1 rfl]
      simp only [atLeastStep_false]
      rw [averageOf_mul n3, averageOf_mul n3']
      exact l2
    · rw [(shown_of (vA _ a (by simp [sixNames]) ha)).2.2.2.2.1 rfl, (shown_of (vB _ b (by simp [sixNames]) hb)).2.2.2.2.1 rfl,
        (shown_of (vA _ u (by simp [sixNames]) hu)).2.2.2.1 rfl, (shown_of (vB _ w (by simp [sixNames]) hw)).2.2.2.1 rfl]
      simp only [atLeastStep_false]
      rw [averageOf_mul n4, averageOf_mul n4']
      exact l6

/-- **C131** for files.  Two calls for the same files: what the first asks of the numbers of events and groups of a flash
implies what the second asks.  In every pixel that both show, densities and energies of the first are not above those of the
second; where the first shows a minimum flash area the second shows one that is not above it; and without scaled integers the
areas behind the averages are not above those of the second. -/
theorem C131_from_files {env : Surroundings} {order : List Int → List Int} {nav : Rat → Rat → Rat × Rat}
    {kwA kwB sA sB sA' sB' : Dict} {xA yA xB yB dx dy : Rat} {MA NA kA MB NB kB : Nat} {meA mgA meB mgB : Option Int}
    {files : List GFile} {runsA runsB : List (TileRun TileState ImageFile)} {sc : Bool}
    (hA : FileCall env order nav kwA xA yA dx dy MA NA kA meA mgA files)
    (hB : FileCall env order nav kwB xB yB dx dy MB NB kB meB mgB files)
    (hme : ∀ n, AtLeast meA n → AtLeast meB n) (hmg : ∀ n, AtLeast mgA n → AtLeast mgB n)
    (hg : ∀ d ∈ files, ∀ g ∈ d.groups, 0 ≤ g.val.area) (hpos : EnergiesHold files)
    (rA : gridGlmFlashes (lutGridder env) files kwA sA = .ok (runsA, sA'))
    (rB : gridGlmFlashes (lutGridder env) files kwB sB = .ok (runsB, sB'))
    (scA : Scaled runsA sc) (scB : Scaled runsB sc) (X Y : Rat) :
    (∀ name ∈ ["flash_extent_density", "total_energy", "group_extent_density"], ∀ a b,
      Shows runsA name X Y a → Shows runsB name X Y b → 0 ≤ a ∧ a ≤ b) ∧
    (∀ a b, Shows runsA "minimum_flash_area" X Y a → Shows runsB "minimum_flash_area" X Y b →
      a ≠ 0 → 0 < b ∧ b ≤ a) ∧
    (sc = false → ∀ name density, (name, density) ∈ [("average_flash_area", "flash_extent_density"),
        ("average_group_area", "group_extent_density")] →
      ∀ a b u w, Shows runsA name X Y a → Shows runsB name X Y b →
        Shows runsA density X Y u → Shows runsB density X Y w → a * u ≤ b * w) := by
  have key : ∀ (_ : ∃ name v, Shows runsA name X Y v) (_ : ∃ name v, Shows runsB name X Y v),
      ∃ fed fa te ged ga mfa fed' fa' te' ged' ga' mfa',
        (0 ≤ fed ∧ 0 ≤ ged ∧ (fed = 0 → fa = 0) ∧ (ged = 0 → ga = 0)) ∧ ((fed' = 0 → fa' = 0) ∧ (ged' = 0 → ga' = 0)) ∧
        (fed ≤ fed' ∧ fa ≤ fa' ∧ (0 ≤ te ∧ te ≤ te') ∧ ged ≤ ged' ∧ ga ≤ ga' ∧ 0 ≤ mfa ∧
          (mfa ≠ 0 → 0 < mfa' ∧ mfa' ≤ mfa)) ∧
        (∀ name v, name ∈ sixNames → Shows runsA name X Y v → (name, v) ∈ shown sc fed fa te ged ga mfa) ∧
        ∀ name v, name ∈ sixNames → Shows runsB name X Y v → (name, v) ∈ shown sc fed' fa' te' ged' ga' mfa' := by
    intro exA exB
    obtain ⟨fed, fa, te, ged, ga, mfa, pA, n1, n2, n3, n4, vA⟩ := file_pixel hA rA scA exA
    obtain ⟨fed', fa', te', ged', ga', mfa', pB, -, -, n3', n4', vB⟩ := file_pixel hB rB scB exB
    exact ⟨fed, fa, te, ged, ga, mfa, fed', fa', te', ged', ga', mfa', ⟨n1, n2, n3, n4⟩, ⟨n3', n4'⟩,
      pA.fewer pB hA.xPos hA.yPos hme hmg (fun d hd => (hA.fit d hd).areas) hg hpos, vA, vB⟩
  exact shown_grows (A := fun name v => Shows runsA name X Y v) (B := fun name v => Shows runsB name X Y v) key

/-! ### Samples -/

theorem plain_small : FileCall plainEnv id sampleNav wholeCall 0 0 (1/1000) (1/1000) 4 4 2 (some 2) none [plainFile] :=
  { plain_call with
    asked := wholeCall_asked
    tiles := by omega
    xTiles := by omega
    yTiles := by omega }

/-- `C134_from_files` for the sample: a domain that ends between the events of flash 3. -/
example {runs : List (TileRun TileState ImageFile)} {sh : Dict} {v : Nat → Nat → Rat}
    (hr : gridGlmFlashes (lutGridder plainEnv) [plainFile] wholeCall [] = .ok (runs, sh))
    (hsc : Scaled runs true) (hv : ∀ m n : Nat, m < 4 → n < 4 →
      Shows runs "total_energy" (0 + (m + 1/2) * (1/1000)) (0 + (n + 1/2) * (1/1000)) (v m n)) :
    overBoxes 4 4 v ≤ recordedEnergy (some 2) none [plainFile] + 152597 / 100000000000 * (4 * 4) :=
  (C134_from_files plain_small hr hsc (by unfold EnergiesHold; decide +kernel) v hv).2.1

/-- A call without thresholds. -/
def freeCall : Dict :=
  [("proj_name", .str "geos"), ("fixed_grid", .bool true), ("dx", .num (1/1000)), ("dy", .num (1/1000)),
   ("x_bnd", .bnd 0 (6/1000)), ("y_bnd", .bnd (-1/1000) (5/1000)), ("clip_events", .bool true),
   ("ellipse_rev", .nat 1), ("nadir_lon", .num (-75)), ("output_filename_prefix", .str "GLM"),
   ("output_writer", .function "write_cf_netcdf")]

theorem freeCall_asked : FixedGridAsked freeCall 0 (-1/1000) (1/1000) (1/1000) 6 6 1 none none :=
  { proj := ⟨_, rfl⟩
    fixed := ⟨by decide +kernel, by decide +kernel⟩
    xBox := rfl
    yBox := rfl
    x := by decide +kernel
    y := by decide +kernel
    subdivide := Or.inr ⟨rfl, rfl⟩
    given := by decide +kernel
    minEvents := Or.inr ⟨Or.inr rfl, rfl⟩
    minGroups := Or.inr ⟨Or.inr rfl, rfl⟩ }

/-- Energies in the images of calls with and without a threshold: flash 7 is in one of them. -/
def freeEnergies (kw : Dict) : List (List Rat) :=
  match gridGlmFlashes (lutGridder plainEnv) [plainFile] kw [] with
  | .ok (runs, _) => runs.flatMap fun (r : TileRun TileState ImageFile) => r.written.flatMap fun nf =>
      nf.2.fields.filterMap fun p => if p.1 = "total_energy"
        then some [p.2.val 2 1, p.2.val 3 1, p.2.val 2 0] else none
  | .error _ => []

theorem free_sample : freeEnergies wideCall = [[11/6, 11/6, 1/12]] ∧ freeEnergies freeCall = [[49/12, 11/6, 7/3]] := by
  decide +kernel

/-- `C131_from_files` for the sample. -/
example {runsA runsB : List (TileRun TileState ImageFile)} {sA sB : Dict}
    (rA : gridGlmFlashes (lutGridder plainEnv) [plainFile] wideCall [] = .ok (runsA, sA))
    (rB : gridGlmFlashes (lutGridder plainEnv) [plainFile] freeCall [] = .ok (runsB, sB))
    (scA : Scaled runsA true) (scB : Scaled runsB true) (X Y a b : Rat)
    (hA : Shows runsA "total_energy" X Y a) (hB : Shows runsB "total_energy" X Y b) : 0 ≤ a ∧ a ≤ b :=
  (C131_from_files plain_call { plain_call with asked := freeCall_asked } (fun _ _ => by unfold AtLeast; simp)
    (fun _ h => h) (by decide +kernel) (by unfold EnergiesHold; decide +kernel) rA rB scA scB X Y).1 "total_energy" (by simp) a b hA hB

/-- `plainFile` without the rows that are not in the tree. -/
def tidyFile : GFile where
  flashes := [⟨5, 0, { lon := 2, lat := 2, area := 100 }⟩, ⟨3, 0, { lon := 9/2, lat := 7/2, area := 60 }⟩,
    ⟨7, 0, { lon := 1, lat := 3, area := 20 }⟩]
  groups := [⟨11, 5, { area := 40 }⟩, ⟨12, 3, { area := 50 }⟩, ⟨13, 5, { area := 30 }⟩, ⟨14, 7, { area := 20 }⟩]
  events := [⟨100, 13, { lon := 2, lat := 2, energy := 2 }⟩, ⟨101, 11, { lon := 3/2, lat := 2, energy := 3 }⟩,
    ⟨102, 12, { lon := 9/2, lat := 7/2, energy := 4 }⟩, ⟨103, 12, { lon := 5, lat := 7/2, energy := 5 }⟩,
    ⟨104, 14, { lon := 1, lat := 3, energy := 9 }⟩]

theorem tidy_call : FileCall plainEnv id sampleNav wideCall 0 (-1/1000) (1/1000) (1/1000) 6 6 1 (some 2) none [tidyFile] :=
  { plain_call with
    some := by simp
    fit := by
      have hpads : padBoxes (28 / 10000) (1 / 1000) = 2 := by decide +kernel
      intro d hd
      rw [List.mem_singleton] at hd
      subst hd
      rw [hpads]
      exact
        { sound := ⟨by unfold HasData; decide +kernel, by decide +kernel, by decide +kernel,
            by unfold UniqueIds; decide +kernel, by unfold UniqueIds; decide +kernel⟩
          areas := by decide +kernel
          pixels := by unfold navPlace; decide +kernel
          convex := fun _ _ => diamond_convex _
          area := by unfold navPlace; decide +kernel
          mean := fun _ _ => diamond_mean _
          narrow := by unfold navPlace; decide +kernel
          padded := by unfold navPlace; decide +kernel
          view := by unfold navPlace; decide +kernel
          compact := by unfold navPlace; decide +kernel } }

/-- `C133_from_files_partial` for the sample: flash 7 has one event and is west of the region. -/
example {runs : List (TileRun TileState ImageFile)} {sh : Dict} {v : Nat → Nat → Rat}
    (hr : gridGlmFlashes (lutGridder plainEnv) [tidyFile] wideCall [] = .ok (runs, sh))
    (hsc : Scaled runs true) (hv : ∀ m n : Nat, m < 6 → n < 6 →
      Shows runs "total_energy" (0 + (m + 1/2) * (1/1000)) (-1/1000 + (n + 1/2) * (1/1000)) (v m n)) :
    ∃ energy, totalEnergyInL2 id sampleNav (3/2, 10) (0, 10) [tidyFile] = .ok energy ∧ energy ≤ overBoxes 6 6 v := by
  obtain ⟨energy, h1, h2, -⟩ := C133_from_files_partial tidy_call hr hsc (by unfold EnergiesHold; decide +kernel)
    (by unfold FootprintsIn navPlace; decide +kernel)
    (fun d hd => by
      rw [List.mem_singleton] at hd
      subst hd
      exact ⟨by unfold HasData; decide +kernel, by decide +kernel, by unfold UniqueIds; decide +kernel,
        by unfold UniqueIds; decide +kernel⟩) (3/2, 10) (0, 10)
    (by
      have key : ∀ f ∈ tidyFile.flashes, 2 ≤ (tidyFile.events.filter fun e => EventOfFlash tidyFile f.id e).length ↔
          (3/2 < f.val.lon ∧ f.val.lon < 10) ∧ (0 < f.val.lat ∧ f.val.lat < 10) ∧ ∃ e ∈ tidyFile.events,
            EventOfFlash tidyFile f.id e ∧ |(sampleNav e.val.lon e.val.lat).1| < 1349 / 10000 ∧
              |(sampleNav e.val.lon e.val.lat).2| < 1349 / 10000 := by
        decide +kernel
      intro d hd f hf
      rw [List.mem_singleton] at hd
      subst hd
      constructor
      · rintro ⟨k, -⟩
        obtain ⟨a, b, c⟩ := (key f hf).mp (by exact_mod_cast k 2 rfl)
        exact ⟨hf, a, b, c⟩
      · rintro ⟨-, a, b, c⟩
        refine ⟨?_, fun m hm => by cases hm⟩
        rintro m hm
        obtain rfl := Option.some.inj hm
        exact_mod_cast (key f hf).mpr ⟨a, b, c⟩)
    v hv
  exact ⟨energy, h1, h2⟩

end Verif.Props
