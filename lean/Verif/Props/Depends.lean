import Verif.Props.Agreement
import Verif.Props.Lightning

/-!
# C158: what each field depends on

C145 says that images depend on the lightning only.  Here it is shown which part of the lightning each field depends on: the
densities on the places, the areas on the places and areas, the energy on the energies and their places.
-/

namespace Verif.Props

open Verif.Py Verif.Model Verif.Spec Verif.Proofs

/-! ## Specification -/

/-- Two flashes have the same number of events and of groups. -/
def SameSize (F G : FlashOf) : Prop := F.events.length = G.events.length ∧ F.groups.length = G.groups.length

/-- The events are at the same places. -/
def SamePlaces (a b : List (Pt × Rat)) : Prop := ∀ p, p ∈ a.map Prod.fst ↔ p ∈ b.map Prod.fst

/-- For the density of flashes: flashes of the same size whose events are at the same places. -/
def LikeFlash (F G : FlashOf) : Prop := SameSize F G ∧ SamePlaces F.events G.events

/-- For the areas of flashes: the second flash has `k` times the area, too. -/
def LikeFlashArea (k : Rat) (F G : FlashOf) : Prop := LikeFlash F G ∧ G.area = k * F.area

/-- For the density of groups: flashes of the same size whose groups have events at the same places. -/
def LikeGroups (F G : FlashOf) : Prop := SameSize F G ∧ SameUpTo (fun A B => SamePlaces A.events B.events) F.groups G.groups

/-- For the areas of groups: the second groups have `k` times the area, too. -/
def LikeGroupAreas (k : Rat) (F G : FlashOf) : Prop :=
  SameSize F G ∧ SameUpTo (fun A B => SamePlaces A.events B.events ∧ B.area = k * A.area) F.groups G.groups

/-- For the energy: flashes of the same size with events at the same places, and `k` times the energy. -/
def LikeEnergy (k : Rat) (F G : FlashOf) : Prop :=
  SameSize F G ∧ (F.events.map fun e => (e.1, k * e.2)).Perm G.events

/-! ## What a pixel holds -/

section
variable {me mg : Option Int} {clip : Poly → Poly → List Poly} {foot : Pt → Poly} {a b : List FlashOf}
  {dx dy X Y fed fa te ged ga mfa fed' fa' te' ged' ga' mfa' k : Rat}

theorem sameSize_large {F G : FlashOf} (h : SameSize F G) : LargeEnough me mg F ↔ LargeEnough me mg G := by
  unfold LargeEnough
  rw [h.1, h.2]

theorem counted_like {R : FlashOf → FlashOf → Prop} (hR : ∀ F G, R F G → SameSize F G) (h : SameUpTo R a b) :
    SameUpTo R (counted me mg a) (counted me mg b) := by
  classical
  unfold counted
  exact sameUpTo_filter h fun F G hFG => by rw [decide_eq_decide, sameSize_large (hR F G hFG)]

theorem samePlaces_dedup {x y : List (Pt × Rat)} (h : SamePlaces x y) : (x.map Prod.fst).dedup.Perm (y.map Prod.fst).dedup :=
  (List.perm_ext_iff_of_nodup (List.nodup_dedup _) (List.nodup_dedup _)).mpr fun p => by
    rw [List.mem_dedup, List.mem_dedup]; exact h p

theorem sameUpTo_sum_mul {α : Type} {R : α → α → Prop} {x y : List α} (h : SameUpTo R x y) {F : α → Rat}
    (hF : ∀ u v, R u v → F v = k * F u) : (y.map F).sum = k * (x.map F).sum := by
  rw [← List.sum_map_mul_left]
  obtain ⟨l, h1, h2⟩ := h
  rw [(h1.map fun u => k * F u).sum_eq]
  congr 1
  clear h1
  induction h2 with
  | nil => rfl
  | cons hab _ ih => rw [List.map_cons, List.map_cons, hF _ _ hab, ih]

theorem lightning_flashes (h : LightningHolds clip foot me mg a dx dy X Y fed fa te ged ga mfa)
    (h' : LightningHolds clip foot me mg b dx dy X Y fed' fa' te' ged' ga' mfa') (hs : SameUpTo LikeFlash a b) : fed' = fed := by
  rw [h.flashes, h'.flashes]
  exact (sameUpTo_sum (counted_like (fun _ _ hFG => hFG.1) hs) fun F G hFG => ((samePlaces_dedup hFG.2).map _).sum_eq).symm

theorem lightning_flashAreas (h : LightningHolds clip foot me mg a dx dy X Y fed fa te ged ga mfa)
    (h' : LightningHolds clip foot me mg b dx dy X Y fed' fa' te' ged' ga' mfa') (hk : 0 < k)
    (hs : SameUpTo (LikeFlashArea k) a b) : fed' = fed ∧ fa' = k * fa ∧ mfa' = k * mfa := by
  have hl : SameUpTo LikeFlash a b := by
    obtain ⟨l, h1, h2⟩ := hs
    exact ⟨l, h1, h2.imp fun _ _ h => h.1⟩
  have hc := counted_like (me := me) (mg := mg) (fun F G (hFG : LikeFlashArea k F G) => hFG.1.1) hs
  refine ⟨lightning_flashes h h' hl, ?_, ?_⟩
  · rw [h.flashArea, h'.flashArea]
    refine sameUpTo_sum_mul hc fun F G hFG => ?_
    have : (F.places.map (pixelShare clip foot dx dy X Y)).sum = (G.places.map (pixelShare clip foot dx dy X Y)).sum :=
      ((samePlaces_dedup hFG.1.2).map _).sum_eq
    rw [hFG.2, ← this]; ring
  · have hf := sameUpTo_filter hc (P := fun F => decide (∃ p ∈ F.places, clip (foot p) (pixelAt dx dy X Y) ≠ []))
      fun F G hFG => by
        rw [decide_eq_decide]
        have hp : F.places.Perm G.places := samePlaces_dedup hFG.1.2
        exact ⟨fun ⟨p, hp1, h2⟩ => ⟨p, hp.mem_iff.mp hp1, h2⟩, fun ⟨p, hp1, h2⟩ => ⟨p, hp.mem_iff.mpr hp1, h2⟩⟩
    obtain ⟨l, h1, h2⟩ := hf
    have hm : (((counted me mg b).filter fun F => decide (∃ p ∈ F.places, clip (foot p) (pixelAt dx dy X Y) ≠ [])).map
        fun F => F.area).Perm ((((counted me mg a).filter fun F =>
          decide (∃ p ∈ F.places, clip (foot p) (pixelAt dx dy X Y) ≠ [])).map fun F => F.area).map (k * ·)) := by
      rw [List.map_map]
      refine List.Perm.symm ((h1.map _).trans (List.Perm.of_eq ?_))
      clear h1
      generalize (counted me mg b).filter _ = m at h2
      induction h2 with
      | nil => rfl
      | cons hab _ ih => rw [List.map_cons, List.map_cons, ih, Function.comp_apply, hab.2]
    refine leastOrZero_unique hm h'.least ?_
    refine ⟨fun h0 => ?_, fun h0 => ⟨?_, ?_⟩⟩
    · rw [h.least.1 (List.map_eq_nil_iff.mp h0), mul_zero]
    · exact List.mem_map.mpr ⟨mfa, (h.least.2 fun h1 => h0 (by rw [h1]; rfl)).1, rfl⟩
    · intro v hv
      obtain ⟨u, hu, rfl⟩ := List.mem_map.mp hv
      exact mul_le_mul_of_nonneg_left ((h.least.2 fun h1 => h0 (by rw [h1]; rfl)).2 u hu) hk.le

theorem lightning_groups (h : LightningHolds clip foot me mg a dx dy X Y fed fa te ged ga mfa)
    (h' : LightningHolds clip foot me mg b dx dy X Y fed' fa' te' ged' ga' mfa') (hs : SameUpTo LikeGroups a b) : ged' = ged := by
  rw [h.groups, h'.groups]
  exact (sameUpTo_sum (counted_like (fun _ _ hFG => hFG.1) hs) fun F G hFG =>
    sameUpTo_sum hFG.2 fun A B hAB => ((samePlaces_dedup hAB).map _).sum_eq).symm

theorem lightning_groupAreas (h : LightningHolds clip foot me mg a dx dy X Y fed fa te ged ga mfa)
    (h' : LightningHolds clip foot me mg b dx dy X Y fed' fa' te' ged' ga' mfa')
    (hs : SameUpTo (LikeGroupAreas k) a b) : ged' = ged ∧ ga' = k * ga := by
  have hl : SameUpTo LikeGroups a b := by
    obtain ⟨l, h1, h2⟩ := hs
    refine ⟨l, h1, h2.imp fun F G hFG => ⟨hFG.1, ?_⟩⟩
    obtain ⟨m, h3, h4⟩ := hFG.2
    exact ⟨m, h3, h4.imp fun _ _ h => h.1⟩
  refine ⟨lightning_groups h h' hl, ?_⟩
  rw [h.groupArea, h'.groupArea]
  refine sameUpTo_sum_mul (counted_like (fun F G (hFG : LikeGroupAreas k F G) => hFG.1) hs) fun F G hFG =>
    sameUpTo_sum_mul hFG.2 fun A B hAB => ?_
  have : (A.places.map (pixelShare clip foot dx dy X Y)).sum = (B.places.map (pixelShare clip foot dx dy X Y)).sum :=
    ((samePlaces_dedup hAB.1).map _).sum_eq
  rw [hAB.2, ← this]; ring

theorem lightning_energies (h : LightningHolds clip foot me mg a dx dy X Y fed fa te ged ga mfa)
    (h' : LightningHolds clip foot me mg b dx dy X Y fed' fa' te' ged' ga' mfa')
    (hs : SameUpTo (LikeEnergy k) a b) : te' = k * te := by
  rw [h.energy, h'.energy]
  refine sameUpTo_sum_mul (counted_like (fun F G (hFG : LikeEnergy k F G) => hFG.1) hs) fun F G hFG => ?_
  rw [← (hFG.2.map _).sum_eq, List.map_map, ← List.sum_map_mul_left]
  congr 1
  refine List.map_congr_left fun e _ => ?_
  simp only [Function.comp_apply]
  ring

end

/-! ## Images -/

section
variable {env env' : Surroundings} {order order' : List Int → List Int} {nav nav' : Rat → Rat → Rat × Rat}
  {attrs attrs' : GFile → FileAttrs} {kw kw' shared shared' sh sh' : Dict} {xlo ylo xlo' ylo' dx dy : Rat}
  {M N s M' N' s' : Nat} {me mg : Option Int} {files files' : List GFile} {runs runs' : List (TileRun TileState ImageFile)}
  {sc : Bool}

/-- What the two calls hold in a pixel. -/
theorem UnitsCall.holds (h : UnitsCall env order nav attrs kw xlo ylo dx dy M N s me mg files)
    (hr : gridGlmFlashes (lutGridder env) files kw shared = .ok (runs, sh)) (hsc : Scaled runs sc)
    {name : String} (hn : name ∈ sixNames) {X Y v : Rat} (hv : Shows runs name X Y v) :
    ∃ fed fa te ged ga mfa, LightningHolds convexClip env.foot me mg (files.flatMap fun d => lightning nav (inUnits (attrs d) d))
      dx dy X Y fed fa te ged ga mfa ∧ (name, v) ∈ shown sc fed fa te ged ga mfa := by
  have := shown_lightning hsc (fun d hd => by
    obtain ⟨d0, hd0, rfl⟩ := List.mem_map.mp hd
    exact ⟨(ids_map (by constructor <;> exact fun _ => rfl)).mpr (h.sound d0 hd0).flashes,
      (ids_map (by constructor <;> exact fun _ => rfl)).mpr (h.sound d0 hd0).groups⟩) (h.images_of hr) hn hv
  rw [List.flatMap_map] at this
  exact this

/-- C158: the densities depend on the places of events only: that of flashes on the places of each flash, that of groups on
those of each group. -/
theorem C158_densities (h : UnitsCall env order nav attrs kw xlo ylo dx dy M N s me mg files)
    (h' : UnitsCall env' order' nav' attrs' kw' xlo' ylo' dx dy M' N' s' me mg files') (hfoot : env'.foot = env.foot)
    (hr : gridGlmFlashes (lutGridder env) files kw shared = .ok (runs, sh))
    (hr' : gridGlmFlashes (lutGridder env') files' kw' shared' = .ok (runs', sh'))
    (hsc : Scaled runs sc) (hsc' : Scaled runs' sc) (X Y v v' : Rat) :
    (SameUpTo LikeFlash (files.flatMap fun d => lightning nav (inUnits (attrs d) d))
        (files'.flatMap fun d => lightning nav' (inUnits (attrs' d) d)) →
      Shows runs "flash_extent_density" X Y v → Shows runs' "flash_extent_density" X Y v' → v' = v) ∧
    (SameUpTo LikeGroups (files.flatMap fun d => lightning nav (inUnits (attrs d) d))
        (files'.flatMap fun d => lightning nav' (inUnits (attrs' d) d)) →
      Shows runs "group_extent_density" X Y v → Shows runs' "group_extent_density" X Y v' → v' = v) := by
  constructor
  all_goals
    intro hs hv hv'
    obtain ⟨fed, fa, te, ged, ga, mfa, p, q⟩ := h.holds hr hsc (by decide) hv
    obtain ⟨fed', fa', te', ged', ga', mfa', p', q'⟩ := h'.holds hr' hsc' (by decide) hv'
    rw [hfoot] at p'
  · rw [(shown_of q).1 rfl, (shown_of q').1 rfl, lightning_flashes p p' hs]
  · rw [(shown_of q).2.2.2.1 rfl, (shown_of q').2.2.2.1 rfl, lightning_groups p p' hs]

theorem averageOf_times {t n k : Rat} : averageOf (k * t) n = k * averageOf t n := by
  unfold averageOf
  split
  · rw [mul_zero]
  · rw [mul_div_assoc]

/-- C158: the areas depend on the places and the areas only, and are proportional to the areas.  With scaled integers this is
said for equal areas. -/
theorem C158_areas (h : UnitsCall env order nav attrs kw xlo ylo dx dy M N s me mg files)
    (h' : UnitsCall env' order' nav' attrs' kw' xlo' ylo' dx dy M' N' s' me mg files') (hfoot : env'.foot = env.foot)
    (hr : gridGlmFlashes (lutGridder env) files kw shared = .ok (runs, sh))
    (hr' : gridGlmFlashes (lutGridder env') files' kw' shared' = .ok (runs', sh'))
    (hsc : Scaled runs sc) (hsc' : Scaled runs' sc) {k : Rat} (hk : 0 < k) (hk1 : sc = true → k = 1) (X Y v v' : Rat) :
    (SameUpTo (LikeFlashArea k) (files.flatMap fun d => lightning nav (inUnits (attrs d) d))
        (files'.flatMap fun d => lightning nav' (inUnits (attrs' d) d)) →
      (Shows runs "average_flash_area" X Y v → Shows runs' "average_flash_area" X Y v' → v' = k * v) ∧
      (Shows runs "minimum_flash_area" X Y v → Shows runs' "minimum_flash_area" X Y v' → v' = k * v)) ∧
    (SameUpTo (LikeGroupAreas k) (files.flatMap fun d => lightning nav (inUnits (attrs d) d))
        (files'.flatMap fun d => lightning nav' (inUnits (attrs' d) d)) →
      Shows runs "average_group_area" X Y v → Shows runs' "average_group_area" X Y v' → v' = k * v) := by
  have step : ∀ {step u : Rat}, atLeastStep sc step (k * u) = k * atLeastStep sc step u := by
    intro step u
    cases sc with
    | false => simp only [atLeastStep_false]
    | true => rw [hk1 rfl, one_mul, one_mul]
  refine ⟨fun hs => ⟨fun hv hv' => ?_, fun hv hv' => ?_⟩, fun hs hv hv' => ?_⟩
  all_goals
    obtain ⟨fed, fa, te, ged, ga, mfa, p, q⟩ := h.holds hr hsc (by decide) hv
    obtain ⟨fed', fa', te', ged', ga', mfa', p', q'⟩ := h'.holds hr' hsc' (by decide) hv'
    rw [hfoot] at p'
  · obtain ⟨e1, e2, -⟩ := lightning_flashAreas p p' hk hs
    rw [(shown_of q).2.1 rfl, (shown_of q').2.1 rfl, e1, e2, averageOf_times, step]
  · obtain ⟨-, -, e3⟩ := lightning_flashAreas p p' hk hs
    rw [(shown_of q).2.2.2.2.2 rfl, (shown_of q').2.2.2.2.2 rfl, e3, step]
  · obtain ⟨e1, e2⟩ := lightning_groupAreas p p' hs
    rw [(shown_of q).2.2.2.2.1 rfl, (shown_of q').2.2.2.2.1 rfl, e1, e2, averageOf_times, step]

/-- C158: the energy depends on the energies of the events and their places only, and is proportional to the energies.  With
scaled integers this is said for equal energies. -/
theorem C158_energy (h : UnitsCall env order nav attrs kw xlo ylo dx dy M N s me mg files)
    (h' : UnitsCall env' order' nav' attrs' kw' xlo' ylo' dx dy M' N' s' me mg files') (hfoot : env'.foot = env.foot)
    (hr : gridGlmFlashes (lutGridder env) files kw shared = .ok (runs, sh))
    (hr' : gridGlmFlashes (lutGridder env') files' kw' shared' = .ok (runs', sh'))
    (hsc : Scaled runs sc) (hsc' : Scaled runs' sc) {k : Rat} (hk1 : sc = true → k = 1)
    (hs : SameUpTo (LikeEnergy k) (files.flatMap fun d => lightning nav (inUnits (attrs d) d))
      (files'.flatMap fun d => lightning nav' (inUnits (attrs' d) d))) (X Y v v' : Rat)
    (hv : Shows runs "total_energy" X Y v) (hv' : Shows runs' "total_energy" X Y v') : v' = k * v := by
  obtain ⟨fed, fa, te, ged, ga, mfa, p, q⟩ := h.holds hr hsc (by decide) hv
  obtain ⟨fed', fa', te', ged', ga', mfa', p', q'⟩ := h'.holds hr' hsc' (by decide) hv'
  rw [hfoot] at p'
  rw [(shown_of q).2.2.1 rfl, (shown_of q').2.2.1 rfl, lightning_energies p p' hs]
  cases sc with
  | false => simp only [atLeastStep_false]
  | true => rw [hk1 rfl, one_mul, one_mul]

end

/-! ## Sample -/

/-- Two flashes, one of them of two groups, with multiples of energies, areas of flashes and areas of groups. -/
def weightedFile (e a g : Rat) : GFile where
  flashes := [⟨5, 0, { lon := 2, lat := 2, area := a * 100000000 }⟩, ⟨4, 0, { lon := 9/2, lat := 7/2, area := a * 60000000 }⟩]
  groups := [⟨11, 5, { area := g * 40000000 }⟩, ⟨12, 4, { area := g * 50000000 }⟩, ⟨13, 5, { area := g * 30000000 }⟩]
  events := [⟨100, 13, { lon := 2, lat := 2, energy := e * (2/1000000000) }⟩,
    ⟨101, 11, { lon := 3/2, lat := 2, energy := e * (1/1000000000) }⟩,
    ⟨102, 12, { lon := 9/2, lat := 7/2, energy := e * (4/1000000000) }⟩,
    ⟨103, 12, { lon := 5, lat := 7/2, energy := e * (5/1000000000) }⟩]

theorem weighted_call {d : GFile} (hd : d ∈ [weightedFile 1 1 1, weightedFile 3 2 5]) :
    UnitsCall storedEnv id sampleNav (fun _ => plainAttrs) plainCall 0 (-1/1000) (1/1000) (1/1000) 6 6 1 (some 2) none [d] :=
  { asked := plainCall_asked
    xPos := by norm_num
    yPos := by norm_num
    tiles := by omega
    xTiles := by omega
    yTiles := by omega
    xPad := by norm_num
    yPad := by norm_num
    edges := arange_makesEdges
    clip := rfl
    sets := fun l => List.Perm.refl l
    ids := fun l => List.Perm.refl l
    opens := rfl
    some := by simp
    conventional := by
      intro d _
      constructor <;> decide
    sound := by
      intro d' hd'
      rw [List.mem_singleton] at hd'
      subst hd'
      simp only [List.mem_cons, List.not_mem_nil, or_false] at hd
      rcases hd with rfl | rfl <;> exact ⟨by unfold HasData; decide +kernel, by decide +kernel, by decide +kernel,
        by unfold UniqueIds; decide +kernel, by unfold UniqueIds; decide +kernel⟩
    times := by
      intro d _ hb
      exact absurd hb (by decide)
    fit := by
      have hpads : padBoxes (28 / 10000) (1 / 1000) = 2 := by decide +kernel
      intro d' hd'
      rw [List.mem_singleton] at hd'
      subst hd'
      rw [hpads]
      simp only [List.mem_cons, List.not_mem_nil, or_false] at hd
      rcases hd with rfl | rfl <;> exact
        { sound := ⟨by unfold HasData; decide +kernel, by decide +kernel, by decide +kernel,
            by unfold UniqueIds; decide +kernel, by unfold UniqueIds; decide +kernel⟩
          areas := by decide +kernel
          pixels := by unfold navPlace; decide +kernel
          convex := fun _ _ => diamond_convex _
          area := by unfold navPlace; decide +kernel
          mean := fun _ _ => diamond_mean _
          narrow := by unfold navPlace; decide +kernel
          padded := by unfold navPlace; decide +kernel
          view := by unfold navPlace; decide +kernel
          compact := by unfold navPlace; decide +kernel } }

theorem weighted_lightning : lightning sampleNav (inUnits plainAttrs (weightedFile 1 1 1)) =
      [⟨100, [⟨40, [((3/2000, 2/1000), 1)]⟩, ⟨30, [((2/1000, 2/1000), 2)]⟩]⟩,
       ⟨60, [⟨50, [((9/2000, 7/2000), 4), ((5/1000, 7/2000), 5)]⟩]⟩] ∧
    lightning sampleNav (inUnits plainAttrs (weightedFile 3 2 5)) =
      [⟨200, [⟨200, [((3/2000, 2/1000), 3)]⟩, ⟨150, [((2/1000, 2/1000), 6)]⟩]⟩,
       ⟨120, [⟨250, [((9/2000, 7/2000), 12), ((5/1000, 7/2000), 15)]⟩]⟩] := by decide +kernel

/-- Three times the energy in the events, and other areas: three times the energy in the image, and the same densities. -/
example {runs runs' : List (TileRun TileState ImageFile)} {sh sh' : Dict}
    (hr : gridGlmFlashes (lutGridder storedEnv) [weightedFile 1 1 1] plainCall [("scale_and_offset", .bool false)] = .ok (runs, sh))
    (hr' : gridGlmFlashes (lutGridder storedEnv) [weightedFile 3 2 5] plainCall [("scale_and_offset", .bool false)] =
      .ok (runs', sh')) (hsc : Scaled runs false) (hsc' : Scaled runs' false) (X Y v v' : Rat) :
    (Shows runs "total_energy" X Y v → Shows runs' "total_energy" X Y v' → v' = 3 * v) ∧
    (Shows runs "minimum_flash_area" X Y v → Shows runs' "minimum_flash_area" X Y v' → v' = 2 * v) ∧
    (Shows runs "average_group_area" X Y v → Shows runs' "average_group_area" X Y v' → v' = 5 * v) ∧
    (Shows runs "flash_extent_density" X Y v → Shows runs' "flash_extent_density" X Y v' → v' = v) ∧
    (Shows runs "group_extent_density" X Y v → Shows runs' "group_extent_density" X Y v' → v' = v) := by
  have c := weighted_call (d := weightedFile 1 1 1) (by simp)
  have c' := weighted_call (d := weightedFile 3 2 5) (by simp)
  have all : ∀ {R : FlashOf → FlashOf → Prop}, R ⟨100, [⟨40, [((3/2000, 2/1000), 1)]⟩, ⟨30, [((2/1000, 2/1000), 2)]⟩]⟩
      ⟨200, [⟨200, [((3/2000, 2/1000), 3)]⟩, ⟨150, [((2/1000, 2/1000), 6)]⟩]⟩ →
      R ⟨60, [⟨50, [((9/2000, 7/2000), 4), ((5/1000, 7/2000), 5)]⟩]⟩
        ⟨120, [⟨250, [((9/2000, 7/2000), 12), ((5/1000, 7/2000), 15)]⟩]⟩ →
      SameUpTo R ([weightedFile 1 1 1].flatMap fun d => lightning sampleNav (inUnits plainAttrs d))
        ([weightedFile 3 2 5].flatMap fun d => lightning sampleNav (inUnits plainAttrs d)) := by
    intro R h1 h2
    simp only [List.flatMap_cons, List.flatMap_nil, List.append_nil, weighted_lightning.1, weighted_lightning.2]
    exact ⟨_, List.Perm.refl _, .cons h1 (.cons h2 .nil)⟩
  refine ⟨C158_energy c c' rfl hr hr' hsc hsc' (by simp) (all ?_ ?_) X Y v v',
    ((C158_areas c c' rfl hr hr' hsc hsc' (k := 2) (by norm_num) (by simp) X Y v v').1 (all ?_ ?_)).2,
    (C158_areas c c' rfl hr hr' hsc hsc' (k := 5) (by norm_num) (by simp) X Y v v').2 (all ?_ ?_),
    (C158_densities c c' rfl hr hr' hsc hsc' X Y v v').1 (all ?_ ?_),
    (C158_densities c c' rfl hr hr' hsc hsc' X Y v v').2 (all ?_ ?_)⟩
  · exact ⟨⟨rfl, rfl⟩, by decide +kernel⟩
  · exact ⟨⟨rfl, rfl⟩, by decide +kernel⟩
  · exact ⟨⟨⟨rfl, rfl⟩, fun p => by simp [FlashOf.events]⟩, by norm_num⟩
  · exact ⟨⟨⟨rfl, rfl⟩, fun p => by simp [FlashOf.events]⟩, by norm_num⟩
  · exact ⟨⟨rfl, rfl⟩, _, List.Perm.refl _, .cons ⟨fun p => by simp, by norm_num⟩ (.cons ⟨fun p => by simp, by norm_num⟩ .nil)⟩
  · exact ⟨⟨rfl, rfl⟩, _, List.Perm.refl _, .cons ⟨fun p => by simp, by norm_num⟩ .nil⟩
  · exact ⟨⟨rfl, rfl⟩, fun p => by simp [FlashOf.events]⟩
  · exact ⟨⟨rfl, rfl⟩, fun p => by simp [FlashOf.events]⟩
  · exact ⟨⟨rfl, rfl⟩, _, List.Perm.refl _, .cons (fun p => by simp) (.cons (fun p => by simp) .nil)⟩
  · exact ⟨⟨rfl, rfl⟩, _, List.Perm.refl _, .cons (fun p => by simp) .nil⟩

/-- The calls of the sample end well, and a pixel shows lightning. -/
def weightedValues (e a g : Rat) : List (String × Rat) :=
  match gridGlmFlashes (lutGridder storedEnv) [weightedFile e a g] plainCall [("scale_and_offset", .bool false)] with
  | .ok (runs, _) => runs.flatMap fun (r : TileRun TileState ImageFile) => if r.scale != .bool false then [] else
      r.written.flatMap fun nf => (nf.2.fields.filter fun p => p.1 ∈ sixNames).map fun p => (p.1, p.2.val 2 1)
  | .error _ => []

example : weightedValues 1 1 1 = [("flash_extent_density", 25 / 48), ("average_flash_area", 100), ("total_energy", 17 / 18),
    ("group_extent_density", 25 / 48), ("average_group_area", 182 / 5), ("minimum_flash_area", 100)] ∧
    weightedValues 3 2 5 = [("flash_extent_density", 25 / 48), ("average_flash_area", 200), ("total_energy", 17 / 6),
    ("group_extent_density", 25 / 48), ("average_group_area", 182), ("minimum_flash_area", 200)] := by decide +kernel

end Verif.Props
