import Verif.Props.MoreFiles

/-!
# C165: densities add up to the extent of the lightning

C141 says this of energies.  The extent of a flash is the area of the footprints of the places at which it has events; each
place counts once for each flash.
-/

namespace Verif.Props

open Verif.Py Verif.Model Verif.Spec Verif.Proofs

/-! ## Specification -/

/-- The area of the footprints at some places. -/
def extentOf (foot : Pt → Poly) (l : List Pt) : Rat := (l.map fun p => |signedArea (foot p)|).sum

/-- The sum, over the flashes of files that count, of their extents times `w`. -/
noncomputable def flashExtents (foot : Pt → Poly) (nav : Rat → Rat → Rat × Rat) (me mg : Option Int) (files : List GFile)
    (w : Row GVal → Rat) : Rat :=
  (files.map fun d => ((fileFlashes me mg d).map fun f => w f * extentOf foot (placesOfFlash nav d f)).sum).sum

/-- The same for groups. -/
noncomputable def groupExtents (foot : Pt → Poly) (nav : Rat → Rat → Rat × Rat) (me mg : Option Int) (files : List GFile)
    (w : Row GVal → Rat) : Rat :=
  (files.map fun d => ((fileGroups me mg d).map fun g => w g * extentOf foot (placesOfGroup nav d g)).sum).sum

/-! ## Proofs -/

section
variable {foot : Pt → Poly} {nav : Rat → Rat → Rat × Rat} {me mg : Option Int} {files : List GFile} {xlo ylo dx dy : Rat}
  {M N : Nat}

theorem shares_total (hd : dx * dy ≠ 0) {l : List Pt}
    (h : ∀ p ∈ l, PartsAddUp convexClip xlo ylo dx dy M N (foot p)) :
    overBoxes M N (fun m n => (l.map (pixelShare convexClip foot dx dy (xlo + (m + 1/2) * dx) (ylo + (n + 1/2) * dy))).sum) *
      (dx * dy) = extentOf foot l := by
  rw [overBoxes_sum M N l fun p m n => pixelShare convexClip foot dx dy (xlo + (m + 1/2) * dx) (ylo + (n + 1/2) * dy) p]
  unfold extentOf
  rw [← List.sum_map_mul_right]
  refine congrArg List.sum (List.map_congr_left fun p hp => ?_)
  have := h p hp
  unfold PartsAddUp at this
  rw [← this]
  unfold pixelShare
  simp only [div_eq_inv_mul]
  rw [overBoxes_mul, mul_comm, ← mul_assoc, mul_inv_cancel₀ hd, one_mul]

theorem weighted_total {α : Type} (hd : dx * dy ≠ 0) (rows : GFile → List α) (w : α → Rat) (places : GFile → α → List Pt)
    (h : ∀ d ∈ files, ∀ a, ∀ p ∈ places d a, PartsAddUp convexClip xlo ylo dx dy M N (foot p)) :
    overBoxes M N (fun m n => (files.map fun d => ((rows d).map fun a => w a * ((places d a).map
      (pixelShare convexClip foot dx dy (xlo + (m + 1/2) * dx) (ylo + (n + 1/2) * dy))).sum).sum).sum) * (dx * dy) =
      (files.map fun d => ((rows d).map fun a => w a * extentOf foot (places d a)).sum).sum := by
  rw [overBoxes_sum M N files fun d m n => ((rows d).map fun a => w a * ((places d a).map
      (pixelShare convexClip foot dx dy (xlo + (m + 1/2) * dx) (ylo + (n + 1/2) * dy))).sum).sum, ← List.sum_map_mul_right]
  refine congrArg List.sum (List.map_congr_left fun d hdd => ?_)
  rw [overBoxes_sum M N (rows d) fun a m n => w a * ((places d a).map
      (pixelShare convexClip foot dx dy (xlo + (m + 1/2) * dx) (ylo + (n + 1/2) * dy))).sum, ← List.sum_map_mul_right]
  refine congrArg List.sum (List.map_congr_left fun a _ => ?_)
  rw [overBoxes_mul, mul_assoc, shares_total hd (h d hdd a)]

/-- What the boxes of a domain hold. -/
theorem extents_total (hdx : 0 < dx) (hdy : 0 < dy)
    (hadd : ∀ d ∈ files, ∀ e ∈ d.events, PartsAddUp convexClip xlo ylo dx dy M N (foot (navPlace nav e)))
    {fed fa te ged ga mfa : Nat → Nat → Rat}
    (hp : ∀ m n, m < M → n < N → FilesHold convexClip foot nav me mg files dx dy (xlo + (m + 1/2) * dx) (ylo + (n + 1/2) * dy)
      (fed m n) (fa m n) (te m n) (ged m n) (ga m n) (mfa m n)) :
    overBoxes M N fed * (dx * dy) = flashExtents foot nav me mg files (fun _ => 1) ∧
    overBoxes M N ged * (dx * dy) = groupExtents foot nav me mg files (fun _ => 1) ∧
    overBoxes M N fa * (dx * dy) = flashExtents foot nav me mg files (fun f => f.val.area) ∧
    overBoxes M N ga * (dx * dy) = groupExtents foot nav me mg files (fun g => g.val.area) := by
  have hd := (mul_pos hdx hdy).ne'
  have hf : ∀ d ∈ files, ∀ f, ∀ p ∈ placesOfFlash nav d f, PartsAddUp convexClip xlo ylo dx dy M N (foot p) := by
    intro d hdd f p hp
    obtain ⟨e, he, rfl⟩ := List.mem_map.mp (List.mem_dedup.mp hp)
    exact hadd d hdd e (List.mem_filter.mp he).1
  have hg : ∀ d ∈ files, ∀ g, ∀ p ∈ placesOfGroup nav d g, PartsAddUp convexClip xlo ylo dx dy M N (foot p) := by
    intro d hdd g p hp
    obtain ⟨e, he, rfl⟩ := List.mem_map.mp (List.mem_dedup.mp hp)
    exact hadd d hdd e (List.mem_filter.mp he).1
  refine ⟨?_, ?_, ?_, ?_⟩
  · unfold flashExtents
    rw [← weighted_total hd _ _ _ hf, overBoxes_congr fun m n hm hn => (hp m n hm hn).flashes]
    simp only [one_mul]
  · unfold groupExtents
    rw [← weighted_total hd _ _ _ hg, overBoxes_congr fun m n hm hn => (hp m n hm hn).groups]
    simp only [one_mul]
  · unfold flashExtents
    rw [← weighted_total hd _ _ _ hf, overBoxes_congr fun m n hm hn => (hp m n hm hn).flashArea]
  · unfold groupExtents
    rw [← weighted_total hd _ _ _ hg, overBoxes_congr fun m n hm hn => (hp m n hm hn).groupArea]

/-- What the boxes of a domain show. -/
theorem extents_shown (hdx : 0 < dx) (hdy : 0 < dy) {sc : Bool} {V : String → Rat → Rat → Rat → Prop}
    (hadd : ∀ d ∈ files, ∀ e ∈ d.events, PartsAddUp convexClip xlo ylo dx dy M N (foot (navPlace nav e)))
    (hp : ∀ X Y, (∃ name v, V name X Y v) → ∃ fed fa te ged ga mfa,
      FilesHold convexClip foot nav me mg files dx dy X Y fed fa te ged ga mfa ∧
      0 ≤ fed ∧ 0 ≤ ged ∧ (fed = 0 → fa = 0) ∧ (ged = 0 → ga = 0) ∧
      ∀ name v, name ∈ sixNames → V name X Y v → (name, v) ∈ shown sc fed fa te ged ga mfa)
    {name : String} {step : Rat} {extents : (Row GVal → Rat) → Rat} {average : String}
    (hname : (name, step, extents, average) ∈
      [("flash_extent_density", 1/16, flashExtents foot nav me mg files, "average_flash_area"),
       ("group_extent_density", 1/4, groupExtents foot nav me mg files, "average_group_area")])
    (v : Nat → Nat → Rat) (hv : ∀ m n, m < M → n < N → V name (xlo + (m + 1/2) * dx) (ylo + (n + 1/2) * dy) (v m n)) :
    extents (fun _ => 1) ≤ overBoxes M N v * (dx * dy) ∧
    overBoxes M N v * (dx * dy) ≤ extents (fun _ => 1) + step * (M * N) * (dx * dy) ∧
    (sc = false → overBoxes M N v * (dx * dy) = extents (fun _ => 1) ∧
      ∀ a : Nat → Nat → Rat, (∀ m n, m < M → n < N → V average (xlo + (m + 1/2) * dx) (ylo + (n + 1/2) * dy) (a m n)) →
        overBoxes M N (fun m n => a m n * v m n) * (dx * dy) = extents (fun r => r.val.area)) := by
  have hd := mul_pos hdx hdy
  have : ∀ m n, ∃ fed fa te ged ga mfa, m < M → n < N →
      FilesHold convexClip foot nav me mg files dx dy (xlo + (m + 1/2) * dx) (ylo + (n + 1/2) * dy) fed fa te ged ga mfa ∧
      ((fed = 0 → fa = 0) ∧ (ged = 0 → ga = 0)) ∧ ∀ name v, name ∈ sixNames →
        V name (xlo + (m + 1/2) * dx) (ylo + (n + 1/2) * dy) v → (name, v) ∈ shown sc fed fa te ged ga mfa := by
    intro m n
    by_cases hmn : m < M ∧ n < N
    · obtain ⟨fed, fa, te, ged, ga, mfa, k, -, -, n3, n4, kv⟩ := hp _ _ ⟨name, v m n, hv m n hmn.1 hmn.2⟩
      exact ⟨fed, fa, te, ged, ga, mfa, fun _ _ => ⟨k, ⟨n3, n4⟩, kv⟩⟩
    · exact ⟨0, 0, 0, 0, 0, 0, fun h1 h2 => absurd ⟨h1, h2⟩ hmn⟩
  choose fed fa te ged ga mfa hall using this
  obtain ⟨t1, t2, t3, t4⟩ := extents_total hdx hdy hadd fun m n hm hn => (hall m n hm hn).1
  have key : ∀ {total : Nat → Nat → Rat} {st : Rat}, 0 < st → (∀ m n, m < M → n < N → v m n = atLeastStep sc st (total m n)) →
      overBoxes M N total * (dx * dy) ≤ overBoxes M N v * (dx * dy) ∧
      overBoxes M N v * (dx * dy) ≤ overBoxes M N total * (dx * dy) + st * (M * N) * (dx * dy) ∧
      (sc = false → overBoxes M N v * (dx * dy) = overBoxes M N total * (dx * dy)) := by
    intro total st hst hv
    refine ⟨mul_le_mul_of_nonneg_right (overBoxes_le fun m n hm hn => ?_) hd.le, ?_, ?_⟩
    · rw [hv m n hm hn]
      exact (atLeastStep_bounds sc hst).1
    · rw [← add_mul, ← overBoxes_add_const]
      refine mul_le_mul_of_nonneg_right (overBoxes_le fun m n hm hn => ?_) hd.le
      rw [hv m n hm hn]
      exact (atLeastStep_bounds sc hst).2
    · rintro rfl
      rw [overBoxes_congr fun m n hm hn => by rw [hv m n hm hn, atLeastStep_false]]
  simp only [List.mem_cons, Prod.mk.injEq, List.not_mem_nil, or_false] at hname
  rcases hname with ⟨rfl, rfl, rfl, rfl⟩ | ⟨rfl, rfl, rfl, rfl⟩
  · have hv' : ∀ m n, m < M → n < N → v m n = atLeastStep sc (1/16) (fed m n) := fun m n hm hn =>
      (shown_of ((hall m n hm hn).2.2 _ _ (by simp [sixNames]) (hv m n hm hn))).1 rfl
    obtain ⟨k1, k2, k3⟩ := key (by norm_num) hv'
    rw [← t1, ← t3]
    refine ⟨k1, k2, fun hsc => ⟨k3 hsc, fun a ha => ?_⟩⟩
    subst hsc
    congr 1
    refine overBoxes_congr fun m n hm hn => ?_
    rw [hv' m n hm hn, (shown_of ((hall m n hm hn).2.2 _ _ (by simp [sixNames]) (ha m n hm hn))).2.1 rfl]
    simp only [atLeastStep_false]
    exact averageOf_mul (hall m n hm hn).2.1.1
  · have hv' : ∀ m n, m < M → n < N → v m n = atLeastStep sc (1/4) (ged m n) := fun m n hm hn =>
      (shown_of ((hall m n hm hn).2.2 _ _ (by simp [sixNames]) (hv m n hm hn))).2.2.2.1 rfl
    obtain ⟨k1, k2, k3⟩ := key (by norm_num) hv'
    rw [← t2, ← t4]
    refine ⟨k1, k2, fun hsc => ⟨k3 hsc, fun a ha => ?_⟩⟩
    subst hsc
    congr 1
    refine overBoxes_congr fun m n hm hn => ?_
    rw [hv' m n hm hn, (shown_of ((hall m n hm hn).2.2 _ _ (by simp [sixNames]) (ha m n hm hn))).2.2.2.2.1 rfl]
    simp only [atLeastStep_false]
    exact averageOf_mul (hall m n hm hn).2.1.2

end

section
variable {env : Surroundings} {order : List Int → List Int} {nav : Rat → Rat → Rat × Rat} {kw shared sh : Dict}
  {xlo ylo dx dy : Rat} {M N s : Nat} {me mg : Option Int} {files : List GFile} {runs : List (TileRun TileState ImageFile)}
  {sc : Bool}

theorem footprints_add (h : FileCall env order nav kw xlo ylo dx dy M N s me mg files)
    (hin : FootprintsIn env.foot nav xlo ylo dx dy M N files) :
    ∀ d ∈ files, ∀ e ∈ d.events, PartsAddUp convexClip xlo ylo dx dy M N (env.foot (navPlace nav e)) := fun d hd e he =>
  parts_convex ((h.fit d hd).convex e he) ((h.fit d hd).area e he) h.xPos h.yPos
    (by have := h.tiles; have := h.xTiles; omega) (by have := h.tiles; have := h.yTiles; omega) (hin d hd e he)

/-- **C165**.  If the footprints are in the domain, the flash (group) extent densities of all pixels, times the area of a pixel,
add up to the extents of the flashes (groups) that count: exactly without scaled integers, otherwise with an excess of at most
one step for each pixel.  Without scaled integers the areas behind the averages add up to the areas of flashes (groups) times
their extents. -/
theorem C165_extents (h : FileCall env order nav kw xlo ylo dx dy M N s me mg files)
    (hr : gridGlmFlashes (lutGridder env) files kw shared = .ok (runs, sh)) (hsc : Scaled runs sc)
    (hin : FootprintsIn env.foot nav xlo ylo dx dy M N files)
    {name : String} {step : Rat} {extents : (Row GVal → Rat) → Rat} {average : String}
    (hname : (name, step, extents, average) ∈
      [("flash_extent_density", 1/16, flashExtents env.foot nav me mg files, "average_flash_area"),
       ("group_extent_density", 1/4, groupExtents env.foot nav me mg files, "average_group_area")])
    (v : Nat → Nat → Rat)
    (hv : ∀ m n, m < M → n < N → Shows runs name (xlo + (m + 1/2) * dx) (ylo + (n + 1/2) * dy) (v m n)) :
    extents (fun _ => 1) ≤ overBoxes M N v * (dx * dy) ∧
    overBoxes M N v * (dx * dy) ≤ extents (fun _ => 1) + step * (M * N) * (dx * dy) ∧
    (sc = false → overBoxes M N v * (dx * dy) = extents (fun _ => 1) ∧
      ∀ a : Nat → Nat → Rat, (∀ m n, m < M → n < N →
          Shows runs average (xlo + (m + 1/2) * dx) (ylo + (n + 1/2) * dy) (a m n)) →
        overBoxes M N (fun m n => a m n * v m n) * (dx * dy) = extents (fun r => r.val.area)) :=
  extents_shown (V := fun name X Y v => Shows runs name X Y v) h.xPos h.yPos (footprints_add h hin)
    (fun _ _ hex => file_pixel h hr hsc hex) hname v hv

/-- **C165** for frames: the files of the frame. -/
theorem C165_frames {F : Framing} (h : FileCall env order nav kw xlo ylo dx dy M N s me mg files)
    (htime : KeepsTime env files) (hF : PicksByTime F)
    (hr : gridGlmFlashes (framesGridder env F) files kw shared = .ok (runs, sh)) (hsc : Scaled runs sc)
    (hin : FootprintsIn env.foot nav xlo ylo dx dy M N files) {k : Nat} {t : Rat × Rat}
    (ht : (pairwise F.tEdges)[k]? = some t)
    {name : String} {step : Rat} {extents : (Row GVal → Rat) → Rat} {average : String}
    (hname : (name, step, extents, average) ∈
      [("flash_extent_density", 1/16, flashExtents env.foot nav me mg (filesOf env t files), "average_flash_area"),
       ("group_extent_density", 1/4, groupExtents env.foot nav me mg (filesOf env t files), "average_group_area")])
    (v : Nat → Nat → Rat)
    (hv : ∀ m n, m < M → n < N → ShowsIn runs k name (xlo + (m + 1/2) * dx) (ylo + (n + 1/2) * dy) (v m n)) :
    extents (fun _ => 1) ≤ overBoxes M N v * (dx * dy) ∧
    overBoxes M N v * (dx * dy) ≤ extents (fun _ => 1) + step * (M * N) * (dx * dy) ∧
    (sc = false → overBoxes M N v * (dx * dy) = extents (fun _ => 1) ∧
      ∀ a : Nat → Nat → Rat, (∀ m n, m < M → n < N →
          ShowsIn runs k average (xlo + (m + 1/2) * dx) (ylo + (n + 1/2) * dy) (a m n)) →
        overBoxes M N (fun m n => a m n * v m n) * (dx * dy) = extents (fun r => r.val.area)) :=
  extents_shown (V := fun name X Y v => ShowsIn runs k name X Y v) h.xPos h.yPos
    (fun d hd => footprints_add h hin d (List.mem_filter.mp hd).1)
    (fun _ _ hex => frame_pixel_files h htime hF hr hsc ht hex) hname v hv

end

/-! ### Samples -/

/-- The sample without scaled integers. -/
example {runs : List (TileRun TileState ImageFile)} {sh : Dict} {v : Nat → Nat → Rat}
    (hr : gridGlmFlashes (lutGridder plainEnv) [plainFile] plainCall [("scale_and_offset", .bool false)] = .ok (runs, sh))
    (hsc : Scaled runs false) (hv : ∀ m n : Nat, m < 6 → n < 6 →
      Shows runs "flash_extent_density" (0 + (m + 1/2) * (1/1000)) (-1/1000 + (n + 1/2) * (1/1000)) (v m n)) :
    overBoxes 6 6 v * (1/1000 * (1/1000)) = flashExtents plainEnv.foot sampleNav (some 2) none [plainFile] (fun _ => 1) :=
  ((C165_extents { plain_call with asked := plainCall_asked } hr hsc (by unfold FootprintsIn navPlace; decide +kernel)
    (List.mem_cons_self ..) v hv).2.2 rfl).1

/-- The extent of one of its flashes: two footprints. -/
example : ∃ f ∈ plainFile.flashes, Enough (some 2) none plainFile f ∧
    extentOf plainEnv.foot (placesOfFlash sampleNav plainFile f) = 2 * (3/4000000) :=
  ⟨⟨5, 0, { lon := 2, lat := 2, area := 100 }⟩, by decide +kernel,
    ⟨fun m h => by cases h; decide +kernel, fun m h => by cases h⟩, by unfold placesOfFlash navPlace; decide +kernel⟩

/-- The second of two frames. -/
example {runs : List (TileRun TileState ImageFile)} {sh : Dict} {v : Nat → Nat → Rat}
    (hr : gridGlmFlashes (framesGridder framesEnv (sampleFrames [0, 30, 60])) [plainFile, lateFile] wideCall [] = .ok (runs, sh))
    (hsc : Scaled runs true) (hv : ∀ m n : Nat, m < 6 → n < 6 →
      ShowsIn runs 1 "group_extent_density" (0 + (m + 1/2) * (1/1000)) (-1/1000 + (n + 1/2) * (1/1000)) (v m n)) :
    groupExtents framesEnv.foot sampleNav (some 2) none (filesOf framesEnv (30, 60) [plainFile, lateFile]) (fun _ => 1) ≤
      overBoxes 6 6 v * (1/1000 * (1/1000)) :=
  (C165_frames (frames_call (by simp) (by simp)) (frames_time (by simp)) (sampleFrames_pick _) hr hsc late_inside rfl
    (List.mem_cons_of_mem _ (List.mem_cons_self ..)) v hv).1

end Verif.Props
