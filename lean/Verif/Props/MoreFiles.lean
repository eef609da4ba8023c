import Verif.Props.FileAgreement

/-!
# C163: more files and longer frames

Files that are added to a call, or to a frame, lower no density and no energy, and raise no minimum flash area.
-/

namespace Verif.Props

open Verif.Py Verif.Model Verif.Spec Verif.Proofs

/-- More files give larger sums. -/
theorem FilesHold.more {clip : Poly → Poly → List Poly} {foot : Pt → Poly} {nav : Rat → Rat → Rat × Rat}
    {me mg : Option Int} {files rest files' : List GFile} {dx dy X Y fed fa te ged ga mfa fed' fa' te' ged' ga' mfa' : Rat}
    (h : FilesHold clip foot nav me mg files dx dy X Y fed fa te ged ga mfa)
    (h' : FilesHold clip foot nav me mg files' dx dy X Y fed' fa' te' ged' ga' mfa') (hall : files'.Perm (files ++ rest))
    (hdx : 0 < dx) (hdy : 0 < dy) (hf : ∀ d ∈ files', ∀ f ∈ d.flashes, 0 < f.val.area)
    (hg : ∀ d ∈ files', ∀ g ∈ d.groups, 0 ≤ g.val.area) (he : EnergiesHold files') :
    fed ≤ fed' ∧ fa ≤ fa' ∧ (0 ≤ te ∧ te ≤ te') ∧ ged ≤ ged' ∧ ga ≤ ga' ∧ 0 ≤ mfa ∧ (mfa ≠ 0 → 0 < mfa' ∧ mfa' ≤ mfa) := by
  classical
  have here : ∀ d ∈ files, d ∈ files' := fun d hd => hall.mem_iff.mpr (List.mem_append_left _ hd)
  have there : ∀ d ∈ rest, d ∈ files' := fun d hd => hall.mem_iff.mpr (List.mem_append_right _ hd)
  have share : ∀ p, 0 ≤ pixelShare clip foot dx dy X Y p := fun p => div_nonneg (partArea_nonneg _ _ _) (mul_pos hdx hdy).le
  have shares : ∀ l : List Pt, 0 ≤ (l.map (pixelShare clip foot dx dy X Y)).sum := fun l => sum_nonneg_map _ _ fun p _ => share p
  have energies : ∀ d ∈ files', 0 ≤ ((fileEvents me mg d).map fun e => e.val.energy *
      (partArea clip (foot (navPlace nav e)) (pixelAt dx dy X Y) / |signedArea (foot (navPlace nav e))|)).sum := fun d hd =>
    sum_nonneg_map _ _ fun e hee => mul_nonneg (he d hd e (List.mem_filter.mp hee).1)
      (div_nonneg (partArea_nonneg _ _ _) (abs_nonneg _))
  have grow : ∀ F : GFile → Rat, (∀ d ∈ rest, 0 ≤ F d) → (files.map F).sum ≤ (files'.map F).sum := by
    intro F hF
    rw [(hall.map F).sum_eq, List.map_append, List.sum_append]
    exact le_add_of_nonneg_right (sum_nonneg_map _ _ hF)
  have sub : ∀ u, u ∈ (files.flatMap fun d => ((fileFlashes me mg d).filter fun (f : Row GVal) =>
        ∃ p ∈ placesOfFlash nav d f, clip (foot p) (pixelAt dx dy X Y) ≠ []).map fun f => f.val.area) →
      u ∈ (files'.flatMap fun d => ((fileFlashes me mg d).filter fun (f : Row GVal) =>
        ∃ p ∈ placesOfFlash nav d f, clip (foot p) (pixelAt dx dy X Y) ≠ []).map fun f => f.val.area) := by
    intro u hu
    obtain ⟨d, hd, hu⟩ := List.mem_flatMap.mp hu
    exact List.mem_flatMap.mpr ⟨d, here d hd, hu⟩
  have areas : ∀ u ∈ files'.flatMap fun d => ((fileFlashes me mg d).filter fun (f : Row GVal) =>
      ∃ p ∈ placesOfFlash nav d f, clip (foot p) (pixelAt dx dy X Y) ≠ []).map fun f => f.val.area, 0 < u := by
    intro u hu
    obtain ⟨d, hd, hu⟩ := List.mem_flatMap.mp hu
    obtain ⟨f, hff, rfl⟩ := List.mem_map.mp hu
    exact hf d hd f (List.mem_filter.mp (List.mem_filter.mp hff).1).1
  refine ⟨?_, ?_, ⟨?_, ?_⟩, ?_, ?_, ?_, ?_⟩
  · rw [h.flashes, h'.flashes]
    exact grow _ fun d _ => sum_nonneg_map _ _ fun f _ => shares _
  · rw [h.flashArea, h'.flashArea]
    exact grow _ fun d hd => sum_nonneg_map _ _ fun f hff =>
      mul_nonneg (hf d (there d hd) f (List.mem_filter.mp hff).1).le (shares _)
  · rw [h.energy]
    exact sum_nonneg_map _ _ fun d hd => energies d (here d hd)
  · rw [h.energy, h'.energy]
    exact grow _ fun d hd => energies d (there d hd)
  · rw [h.groups, h'.groups]
    exact grow _ fun d _ => sum_nonneg_map _ _ fun g _ => shares _
  · rw [h.groupArea, h'.groupArea]
    exact grow _ fun d hd => sum_nonneg_map _ _ fun g hgg =>
      mul_nonneg (hg d (there d hd) g (List.mem_filter.mp hgg).1) (shares _)
  · by_cases hn : (files.flatMap fun d => ((fileFlashes me mg d).filter fun (f : Row GVal) =>
      ∃ p ∈ placesOfFlash nav d f, clip (foot p) (pixelAt dx dy X Y) ≠ []).map fun f => f.val.area) = []
    · rw [h.least.1 hn]
    · exact (areas _ (sub _ (h.least.2 hn).1)).le
  · intro h0
    have k1 := sub _ (h.least.2 fun hn => h0 (h.least.1 hn)).1
    obtain ⟨m1, m2⟩ := h'.least.2 (List.ne_nil_of_mem k1)
    exact ⟨areas _ m1, m2 _ k1⟩

/-- **C163**.  A call for some files and a call for these and others.  In every pixel that both show, densities and energies of
the first are not above those of the second; where the first shows a minimum flash area the second shows one that is not above
it; and without scaled integers the areas behind the averages are not above those of the second. -/
theorem C163_more_files {env : Surroundings} {order : List Int → List Int} {nav : Rat → Rat → Rat × Rat}
    {kwA kwB sA sB sA' sB' : Dict} {xA yA xB yB dx dy : Rat} {MA NA kA MB NB kB : Nat} {me mg : Option Int}
    {files rest files' : List GFile} {runsA runsB : List (TileRun TileState ImageFile)} {sc : Bool}
    (hA : FileCall env order nav kwA xA yA dx dy MA NA kA me mg files)
    (hB : FileCall env order nav kwB xB yB dx dy MB NB kB me mg files') (hall : files'.Perm (files ++ rest))
    (hg : ∀ d ∈ files', ∀ g ∈ d.groups, 0 ≤ g.val.area) (hpos : EnergiesHold files')
    (rA : gridGlmFlashes (lutGridder env) files kwA sA = .ok (runsA, sA'))
    (rB : gridGlmFlashes (lutGridder env) files' kwB sB = .ok (runsB, sB'))
    (scA : Scaled runsA sc) (scB : Scaled runsB sc) (X Y : Rat) :
    (∀ name ∈ ["flash_extent_density", "total_energy", "group_extent_density"], ∀ a b,
      Shows runsA name X Y a → Shows runsB name X Y b → 0 ≤ a ∧ a ≤ b) ∧
    (∀ a b, Shows runsA "minimum_flash_area" X Y a → Shows runsB "minimum_flash_area" X Y b →
      a ≠ 0 → 0 < b ∧ b ≤ a) ∧
    (sc = false → ∀ name density, (name, density) ∈ [("average_flash_area", "flash_extent_density"),
        ("average_group_area", "group_extent_density")] →
      ∀ a b u w, Shows runsA name X Y a → Shows runsB name X Y b →
        Shows runsA density X Y u → Shows runsB density X Y w → a * u ≤ b * w) := by
  have key : ∀ (exA : ∃ name v, Shows runsA name X Y v) (exB : ∃ name v, Shows runsB name X Y v),
      ∃ fed fa te ged ga mfa fed' fa' te' ged' ga' mfa',
        (0 ≤ fed ∧ 0 ≤ ged ∧ (fed = 0 → fa = 0) ∧ (ged = 0 → ga = 0)) ∧ ((fed' = 0 → fa' = 0) ∧ (ged' = 0 → ga' = 0)) ∧
        (fed ≤ fed' ∧ fa ≤ fa' ∧ (0 ≤ te ∧ te ≤ te') ∧ ged ≤ ged' ∧ ga ≤ ga' ∧ 0 ≤ mfa ∧
          (mfa ≠ 0 → 0 < mfa' ∧ mfa' ≤ mfa)) ∧
        (∀ name v, name ∈ sixNames → Shows runsA name X Y v → (name, v) ∈ shown sc fed fa te ged ga mfa) ∧
        ∀ name v, name ∈ sixNames → Shows runsB name X Y v → (name, v) ∈ shown sc fed' fa' te' ged' ga' mfa' := by
    intro exA exB
    obtain ⟨fed, fa, te, ged, ga, mfa, pA, n1, n2, n3, n4, vA⟩ := file_pixel hA rA scA exA
    obtain ⟨fed', fa', te', ged', ga', mfa', pB, -, -, n3', n4', vB⟩ := file_pixel hB rB scB exB
    exact ⟨fed, fa, te, ged, ga, mfa, fed', fa', te', ged', ga', mfa', ⟨n1, n2, n3, n4⟩, ⟨n3', n4'⟩,
      pA.more pB hall hA.xPos hA.yPos (fun d hd => (hB.fit d hd).areas) hg hpos, vA, vB⟩
  exact shown_grows (A := fun name v => Shows runsA name X Y v) (B := fun name v => Shows runsB name X Y v) key

/-- The files of a frame and the datasets of a frame are at the same places of their lists. -/
theorem marked_frames {env : Surroundings} {rev : Val} {files opened : List GFile}
    (ho : List.Forall₂ (fun d d' => env.openFile rev d = .ok d') files opened)
    (htime : ∀ d ∈ files, ∀ d', env.openFile rev d = .ok d' → env.productTime d' = env.productTime d) (t : Rat × Rat) :
    ∃ mark, marked mark opened = filesOf env t opened ∧ marked mark files = filesOf env t files := by
  refine ⟨files.map fun d => decide (InFrame env.basedate t (env.productTime d)), ?_, ?_⟩
  · have hm : (files.map fun d => decide (InFrame env.basedate t (env.productTime d))) =
        opened.map fun d => decide (InFrame env.basedate t (env.productTime d)) := by
      refine (map_eq_of_forall₂ (f := fun d => decide (InFrame env.basedate t (env.productTime d)))
        (g := fun d => decide (InFrame env.basedate t (env.productTime d))) (forall₂_mem ho) ?_).symm
      intro d d' hd
      rw [htime d hd.2.1 d' hd.1]
    have := marked_map opened (fun d => decide (InFrame env.basedate t (env.productTime d))) id
    rw [List.map_id, List.map_id] at this
    rw [hm]
    exact this
  · have := marked_map files (fun d => decide (InFrame env.basedate t (env.productTime d))) id
    rwa [List.map_id, List.map_id] at this

/-- The sums behind a pixel in a frame, from the files of the frame. -/
theorem frame_pixel_files {env : Surroundings} {F : Framing} {order : List Int → List Int} {nav : Rat → Rat → Rat × Rat}
    {kw shared sh : Dict} {xlo ylo dx dy : Rat} {M N s : Nat} {me mg : Option Int} {files : List GFile}
    {runs : List (TileRun TileState ImageFile)} {sc : Bool} (h : FileCall env order nav kw xlo ylo dx dy M N s me mg files)
    (htime : KeepsTime env files) (hF : PicksByTime F)
    (hr : gridGlmFlashes (framesGridder env F) files kw shared = .ok (runs, sh)) (hsc : Scaled runs sc) {k : Nat} {t : Rat × Rat}
    (ht : (pairwise F.tEdges)[k]? = some t) {X Y : Rat} (hex : ∃ name v, ShowsIn runs k name X Y v) :
    ∃ fed fa te ged ga mfa,
      FilesHold convexClip env.foot nav me mg (filesOf env t files) dx dy X Y fed fa te ged ga mfa ∧
      0 ≤ fed ∧ 0 ≤ ged ∧ (fed = 0 → fa = 0) ∧ (ged = 0 → ga = 0) ∧
      ∀ name v, name ∈ sixNames → ShowsIn runs k name X Y v → (name, v) ∈ shown sc fed fa te ged ga mfa := by
  obtain ⟨parts, opened, hp, ho, hc, -⟩ := call_opening h
  obtain ⟨fed, fa, te, ged, ga, mfa, hpx, val⟩ := frame_pixel hc.good hF hr hsc ht hex
  obtain ⟨n1, n2, n3, n4⟩ := hpx.nonneg hc.xPos hc.yPos
  rw [hc.clip] at hpx
  refine ⟨fed, fa, te, ged, ga, mfa, ?_, n1, n2, n3, n4, val⟩
  obtain ⟨rev, hrev⟩ := (Dict.has_iff _ _).mp (hc.asked.given "ellipse_rev" (by simp))
  obtain ⟨mark, e1, e2⟩ := marked_frames (hc.opens rev hrev) (fun d hd d' hd' => htime rev d hd d' hd') t
  rw [← e1] at hpx
  rw [← e2]
  exact part_holds (marked_forall₂ hp mark) (opened_holds (marked_forall₂ ho mark) hpx)

/-- **C163** for frames.  Two calls; a frame of the first call is during a frame of the second, which may be
for more files. -/
theorem C163_longer_frame {env : Surroundings} {F G : Framing} {order : List Int → List Int} {nav : Rat → Rat → Rat × Rat}
    {kwA kwB sA sB sA' sB' : Dict} {xA yA xB yB dx dy : Rat} {MA NA kA MB NB kB : Nat} {me mg : Option Int}
    {files rest files' : List GFile} {runsA runsB : List (TileRun TileState ImageFile)} {sc : Bool}
    (hA : FileCall env order nav kwA xA yA dx dy MA NA kA me mg files)
    (hB : FileCall env order nav kwB xB yB dx dy MB NB kB me mg files') (hall : files'.Perm (files ++ rest))
    (htime : KeepsTime env files') (hF : PicksByTime F) (hG : PicksByTime G)
    (hg : ∀ d ∈ files', ∀ g ∈ d.groups, 0 ≤ g.val.area) (hpos : EnergiesHold files')
    (rA : gridGlmFlashes (framesGridder env F) files kwA sA = .ok (runsA, sA'))
    (rB : gridGlmFlashes (framesGridder env G) files' kwB sB = .ok (runsB, sB'))
    (scA : Scaled runsA sc) (scB : Scaled runsB sc) {k n : Nat} {t u : Rat × Rat} (ht : (pairwise F.tEdges)[k]? = some t)
    (hu : (pairwise G.tEdges)[n]? = some u) (h1 : u.1 ≤ t.1) (h2 : t.2 ≤ u.2) (X Y : Rat) :
    (∀ name ∈ ["flash_extent_density", "total_energy", "group_extent_density"], ∀ a b,
      ShowsIn runsA k name X Y a → ShowsIn runsB n name X Y b → 0 ≤ a ∧ a ≤ b) ∧
    (∀ a b, ShowsIn runsA k "minimum_flash_area" X Y a → ShowsIn runsB n "minimum_flash_area" X Y b →
      a ≠ 0 → 0 < b ∧ b ≤ a) ∧
    (sc = false → ∀ name density, (name, density) ∈ [("average_flash_area", "flash_extent_density"),
        ("average_group_area", "group_extent_density")] →
      ∀ a b u w, ShowsIn runsA k name X Y a → ShowsIn runsB n name X Y b →
        ShowsIn runsA k density X Y u → ShowsIn runsB n density X Y w → a * u ≤ b * w) := by
  have timeA : KeepsTime env files := fun rev d hd => htime rev d (hall.mem_iff.mpr (List.mem_append_left _ hd))
  obtain ⟨others, ho⟩ : ∃ others, (filesOf env u files').Perm (filesOf env t files ++ others) := by
    refine ⟨(files.filter fun d => InFrame env.basedate u (env.productTime d) ∧ ¬ InFrame env.basedate t (env.productTime d)) ++
      filesOf env u rest, ?_⟩
    have e : (filesOf env u files').Perm (filesOf env u files ++ filesOf env u rest) := by
      unfold filesOf
      rw [← List.filter_append]
      exact hall.filter _
    refine e.trans ?_
    rw [← List.append_assoc]
    refine List.Perm.append_right _ ?_
    refine filter_or_perm files _ _ _ (fun d _ => ?_) (fun d _ => ?_)
    · have : InFrame env.basedate t (env.productTime d) → InFrame env.basedate u (env.productTime d) :=
        fun k => ⟨h1.trans k.1, k.2.trans_le h2⟩
      by_cases a : InFrame env.basedate t (env.productTime d)
      · simp [a, this a]
      · simp [a]
    · rintro ⟨a, b⟩
      exact (of_decide_eq_true b).2 (of_decide_eq_true a)
  have back : ∀ d ∈ filesOf env u files', d ∈ files' := fun d hd => (List.mem_filter.mp hd).1
  have key : ∀ (_ : ∃ name v, ShowsIn runsA k name X Y v) (_ : ∃ name v, ShowsIn runsB n name X Y v),
      ∃ fed fa te ged ga mfa fed' fa' te' ged' ga' mfa',
        (0 ≤ fed ∧ 0 ≤ ged ∧ (fed = 0 → fa = 0) ∧ (ged = 0 → ga = 0)) ∧ ((fed' = 0 → fa' = 0) ∧ (ged' = 0 → ga' = 0)) ∧
        (fed ≤ fed' ∧ fa ≤ fa' ∧ (0 ≤ te ∧ te ≤ te') ∧ ged ≤ ged' ∧ ga ≤ ga' ∧ 0 ≤ mfa ∧
          (mfa ≠ 0 → 0 < mfa' ∧ mfa' ≤ mfa)) ∧
        (∀ name v, name ∈ sixNames → ShowsIn runsA k name X Y v → (name, v) ∈ shown sc fed fa te ged ga mfa) ∧
        ∀ name v, name ∈ sixNames → ShowsIn runsB n name X Y v → (name, v) ∈ shown sc fed' fa' te' ged' ga' mfa' := by
    intro exA exB
    obtain ⟨fed, fa, te, ged, ga, mfa, pA, n1, n2, n3, n4, vA⟩ := frame_pixel_files hA timeA hF rA scA ht exA
    obtain ⟨fed', fa', te', ged', ga', mfa', pB, -, -, n3', n4', vB⟩ := frame_pixel_files hB htime hG rB scB hu exB
    exact ⟨fed, fa, te, ged, ga, mfa, fed', fa', te', ged', ga', mfa', ⟨n1, n2, n3, n4⟩, ⟨n3', n4'⟩,
      pA.more pB ho hA.xPos hA.yPos (fun d hd => (hB.fit d (back d hd)).areas) (fun d hd => hg d (back d hd))
        (fun d hd => hpos d (back d hd)), vA, vB⟩
  exact shown_grows (A := fun name v => ShowsIn runsA k name X Y v) (B := fun name v => ShowsIn runsB n name X Y v) key

/-! ### Samples -/

example {runsA runsB : List (TileRun TileState ImageFile)} {sA sB : Dict}
    (rA : gridGlmFlashes (lutGridder framesEnv) [plainFile] wideCall [] = .ok (runsA, sA))
    (rB : gridGlmFlashes (lutGridder framesEnv) [lateFile, plainFile] wideCall [] = .ok (runsB, sB))
    (scA : Scaled runsA true) (scB : Scaled runsB true) (X Y a b : Rat)
    (hA : Shows runsA "total_energy" X Y a) (hB : Shows runsB "total_energy" X Y b) : a ≤ b :=
  ((C163_more_files (rest := [lateFile]) (frames_call (by simp) (by simp)) (frames_call (by simp) (by simp))
    (List.Perm.swap _ _ _) (by decide +kernel) (by unfold EnergiesHold; decide +kernel) rA rB scA scB X Y).1 "total_energy"
    (by simp) a b hA hB).2

/-- The second of two frames, and one frame for the whole period. -/
example {runsA runsB : List (TileRun TileState ImageFile)} {sA sB : Dict}
    (rA : gridGlmFlashes (framesGridder framesEnv (sampleFrames [0, 30, 60])) [plainFile, lateFile] wideCall [] = .ok (runsA, sA))
    (rB : gridGlmFlashes (framesGridder framesEnv (sampleFrames [0, 60])) [lateFile, plainFile] wideCall [] = .ok (runsB, sB))
    (scA : Scaled runsA true) (scB : Scaled runsB true) (X Y a b : Rat)
    (hA : ShowsIn runsA 1 "total_energy" X Y a) (hB : ShowsIn runsB 0 "total_energy" X Y b) : a ≤ b :=
  ((C163_longer_frame (rest := []) (frames_call (by simp) (by simp)) (frames_call (by simp) (by simp))
    (List.Perm.swap _ _ _) (frames_time (by simp)) (sampleFrames_pick _) (sampleFrames_pick _) (by decide +kernel)
    (by unfold EnergiesHold; decide +kernel) rA rB scA scB (k := 1) (n := 0) (t := (30, 60)) (u := (0, 60)) rfl rfl
    (by norm_num) (by norm_num) X Y).1 "total_energy" (by simp) a b hA hB).2

end Verif.Props
