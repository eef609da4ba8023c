import Verif.Props.FileBounds
import Verif.Props.Refinement
import Verif.Props.Agreement

/-!
# C132, C139, C155 and C157 for files as they are recorded
-/

namespace Verif.Props

open Verif.Py Verif.Model Verif.Spec Verif.Proofs

/-- There is lightning in a pixel: an event of a flash of a file that counts has a part of its footprint there. -/
def RecordedLightning (foot : Pt → Poly) (nav : Rat → Rat → Rat × Rat) (me mg : Option Int) (files : List GFile)
    (dx dy X Y : Rat) : Prop :=
  ∃ d ∈ files, ∃ e ∈ fileEvents me mg d, convexClip (foot (navPlace nav e)) (pixelAt dx dy X Y) ≠ []

section
variable {env : Surroundings} {order : List Int → List Int} {nav : Rat → Rat → Rat × Rat} {kw shared sh : Dict}
  {xlo ylo dx dy X Y : Rat} {M N s : Nat} {me mg : Option Int} {files parts opened : List GFile}
  {runs : List (TileRun TileState ImageFile)} {sc : Bool}

theorem opened_lightning {foot : Pt → Poly} (hp : List.Forall₂ ValidPart files parts)
    (ho : List.Forall₂ (OpenedFrom nav) parts opened) :
    LightningIn foot me mg opened dx dy X Y ↔ RecordedLightning foot nav me mg files dx dy X Y := by
  have places : ∀ {d d1 d'}, ValidPart d d1 → OpenedFrom nav d1 d' → ∀ p : Pt,
      p ∈ (countedEvents me mg d').map placeOf ↔ p ∈ (fileEvents me mg d).map (navPlace nav) := by
    intro d d1 d' v o p
    rw [o.sameEvents (F := navPlace nav) (G := placeOf) fun e e' s he => (o.samePlace he s).symm]
    exact (v.sameEvents.map _).mem_iff
  constructor
  · rintro ⟨d', hd', e', he', k⟩
    obtain ⟨d1, hd1, o⟩ := (forall₂_exists ho).2 d' hd'
    obtain ⟨d, hd, v⟩ := (forall₂_exists hp).2 d1 hd1
    obtain ⟨e, he, q⟩ := List.mem_map.mp ((places v o _).mp (List.mem_map_of_mem he'))
    exact ⟨d, hd, e, he, by rw [q]; exact k⟩
  · rintro ⟨d, hd, e, he, k⟩
    obtain ⟨d1, hd1, v⟩ := (forall₂_exists hp).1 d hd
    obtain ⟨d', hd', o⟩ := (forall₂_exists ho).1 d1 hd1
    obtain ⟨e', he', q⟩ := List.mem_map.mp ((places v o _).mpr (List.mem_map_of_mem he))
    exact ⟨d', hd', e', he', by rw [q]; exact k⟩

theorem opened_positive (h : PositiveData files) (hp : List.Forall₂ ValidPart files parts)
    (ho : List.Forall₂ (OpenedFrom nav) parts opened) : PositiveData opened := by
  refine ⟨fun d' hd' g' hg' => ?_, fun d' hd' e' he' => ?_⟩
  · obtain ⟨d1, hd1, o⟩ := (forall₂_exists ho).2 d' hd'
    obtain ⟨d, hd, v⟩ := (forall₂_exists hp).2 d1 hd1
    obtain ⟨g, hg, sg⟩ := (forall₂_exists o.groups).2 g' hg'
    rw [← sg.area]
    exact h.groups d hd g (v.groups.mem_iff.mp hg)
  · obtain ⟨d, hd, e, he, e1, -⟩ := opened_event hp ho d' hd' e' he'
    rw [e1]
    exact h.events d hd e he

/-- **C157** for files: the six fields are positive exactly in the pixels with lightning, there are no fewer groups than
flashes, and without scaled integers the average flash area is not below the least one. -/
theorem C157_from_files_partial (h : FileCall env order nav kw xlo ylo dx dy M N s me mg files) (hpos : PositiveData files)
    (hr : gridGlmFlashes (lutGridder env) files kw shared = .ok (runs, sh)) (hsc : Scaled runs sc) :
    (∀ name ∈ ["flash_extent_density", "average_flash_area", "total_energy", "group_extent_density", "average_group_area",
      "minimum_flash_area"], ∀ v, Shows runs name X Y v →
        0 ≤ v ∧ (0 < v ↔ RecordedLightning env.foot nav me mg files dx dy X Y)) ∧
    (∀ u v, Shows runs "flash_extent_density" X Y u → Shows runs "group_extent_density" X Y v → u ≤ v) ∧
    (sc = false → ∀ u v, Shows runs "minimum_flash_area" X Y u → Shows runs "average_flash_area" X Y v → u ≤ v) := by
  obtain ⟨parts, opened, hp, ho, hc, -⟩ := call_opening h
  refine ⟨fun name hn v hv => ?_, fun u v hu hv => C157_denser hc hr hsc hu hv, ?_⟩
  · rw [← opened_lightning hp ho]
    exact C157_together hc (opened_positive hpos hp ho) hr hsc hn hv
  · rintro rfl u v hu hv
    exact C157_least_partial hc (opened_positive hpos hp ho) hr hsc hu hv

/-- Bounds for the areas of the flashes and groups of files are bounds for those of the datasets. -/
theorem opened_areas (hp : List.Forall₂ ValidPart files parts) (ho : List.Forall₂ (OpenedFrom nav) parts opened) {A : Rat} :
    ((∀ d ∈ files, ∀ f ∈ fileFlashes me mg d, f.val.area ≤ A) → ∀ d ∈ opened, ∀ f ∈ countedFlashes me mg d, f.val.area ≤ A) ∧
    ((∀ d ∈ files, ∀ g ∈ fileGroups me mg d, g.val.area ≤ A) → ∀ d ∈ opened, ∀ g ∈ countedGroups me mg d, g.val.area ≤ A) := by
  constructor
  all_goals
    intro h d' hd' f' hf'
    obtain ⟨d1, hd1, o⟩ := (forall₂_exists ho).2 d' hd'
    obtain ⟨d, hd, v⟩ := (forall₂_exists hp).2 d1 hd1
  · have e := o.sameFlashes (me := me) (mg := mg) (F := fun r => r.val.area) (G := fun r => r.val.area) fun f f' s => s.area
    obtain ⟨f, hf, q⟩ := List.mem_map.mp (e ▸ List.mem_map_of_mem hf')
    rw [← q]
    exact h d hd f (List.mem_filter.mp (v.sameFlashes.mem_iff.mp hf)).1
  · have e := o.sameGroups (me := me) (mg := mg) (F := fun r => r.val.area) (G := fun r => r.val.area) fun f f' s => s.area
    obtain ⟨f, hf, q⟩ := List.mem_map.mp (e ▸ List.mem_map_of_mem hf')
    rw [← q]
    exact h d hd f (v.sameGroups.mem_iff.mp hf)

/-- **C132** for files and images: where there is lightning, the average flash area is not above the area of the largest flash
that counts, and without scaled integers it is not below the minimum flash area, which is positive; the average group area
is not above the area of the largest group that counts.  With scaled integers, averages below one step are shown as one step. -/
theorem C132_from_files (h : FileCall env order nav kw xlo ylo dx dy M N s me mg files) (hpos : PositiveData files)
    (hr : gridGlmFlashes (lutGridder env) files kw shared = .ok (runs, sh)) (hsc : Scaled runs sc)
    (hl : RecordedLightning env.foot nav me mg files dx dy X Y) {least average groups largest largestGroup : Rat}
    (hA : ∀ d ∈ files, ∀ f ∈ fileFlashes me mg d, f.val.area ≤ largest)
    (hB : ∀ d ∈ files, ∀ g ∈ fileGroups me mg d, g.val.area ≤ largestGroup)
    (hu : Shows runs "minimum_flash_area" X Y least) (hv : Shows runs "average_flash_area" X Y average)
    (hw : Shows runs "average_group_area" X Y groups) :
    0 < least ∧ (sc = false → least ≤ average) ∧ average ≤ (if sc then max largest 10 else largest) ∧
      0 < groups ∧ groups ≤ (if sc then max largestGroup 1 else largestGroup) := by
  obtain ⟨h1, -, h3⟩ := C157_from_files_partial (X := X) (Y := Y) h hpos hr hsc
  obtain ⟨parts, opened, hp, ho, hc, -⟩ := call_opening h
  have hpos' := opened_positive hpos hp ho
  have g0 := (h1 _ (by simp) _ hw).2.mpr hl
  exact ⟨(h1 _ (by simp) _ hu).2.mpr hl, fun e => h3 e _ _ hu hv,
    (C157_largest hc hpos' hr hsc).1 hv ((h1 _ (by simp) _ hv).2.mpr hl)
      (fun d hd f hf _ => (opened_areas hp ho).1 hA d hd f hf), g0,
    (C157_largest hc hpos' hr hsc).2 hw g0 (fun d hd g hg _ => (opened_areas hp ho).2 hB d hd g hg)⟩

/-- **C139** for files: two calls that open the same files in the same way show the same values in the pixels they share. -/
theorem C139_from_files {kw' shared' sh' : Dict} {xlo' ylo' : Rat} {M' N' s' : Nat} {files' : List GFile}
    {runs' : List (TileRun TileState ImageFile)}
    (h : FileCall env order nav kw xlo ylo dx dy M N s me mg files)
    (h' : FileCall env order nav kw' xlo' ylo' dx dy M' N' s' me mg files') (hall : files'.Perm files)
    (hr : gridGlmFlashes (lutGridder env) files kw shared = .ok (runs, sh))
    (hr' : gridGlmFlashes (lutGridder env) files' kw' shared' = .ok (runs', sh'))
    (hsc : Scaled runs sc) (hsc' : Scaled runs' sc) (name : String) (hname : name ∈ sixNames) (v v' : Rat)
    (hv : Shows runs name X Y v) (hv' : Shows runs' name X Y v') : v' = v := by
  obtain ⟨_, opened, -, -, hc, hf⟩ := call_opening h
  obtain ⟨_, opened', -, -, hc', hf'⟩ := call_opening h'
  exact C139_same_pixels hc.good hc'.good rfl rfl (opened_perm hall hf' hf) hr hr' hsc hsc' name hname X Y v v' hv hv'

/-- **C155** for files: a call with boxes of the size `K * dx` by `L * dy` and one with boxes of the size `dx` by `dy`, both for
the same files.  -/
theorem C155_from_files {kw' shared' sh' : Dict} {xlo' ylo' : Rat} {K L M' N' s' : Nat} {files' : List GFile}
    {runs' : List (TileRun TileState ImageFile)} (hK : 0 < K) (hL : 0 < L)
    (h : FileCall env order nav kw xlo ylo (K * dx) (L * dy) M N s me mg files)
    (h' : FileCall env order nav kw' xlo' ylo' dx dy M' N' s' me mg files') (hall : files'.Perm files) (hpos : EnergiesHold files)
    (hr : gridGlmFlashes (lutGridder env) files kw shared = .ok (runs, sh))
    (hr' : gridGlmFlashes (lutGridder env) files' kw' shared' = .ok (runs', sh'))
    (hsc : Scaled runs sc) (hsc' : Scaled runs' sc) (X Y : Rat) :
    (∀ (c : Rat) (v : Nat → Nat → Rat), Shows runs "total_energy" X Y c →
      (∀ i j, i < K → j < L → Shows runs' "total_energy" (subCentre K dx X i) (subCentre L dy Y j) (v i j)) →
      c ≤ overBoxes K L v ∧ overBoxes K L v ≤ c + K * L * (152597 / 100000000000) ∧ (sc = false → c = overBoxes K L v)) ∧
    (∀ name step, (name, step) ∈ [("flash_extent_density", (1/16 : Rat)), ("group_extent_density", 1/4)] →
      ∀ (c : Rat) (v : Nat → Nat → Rat), Shows runs name X Y c →
      (∀ i j, i < K → j < L → Shows runs' name (subCentre K dx X i) (subCentre L dy Y j) (v i j)) →
      |c - overBoxes K L v / (K * L)| ≤ step ∧ (sc = false → c = overBoxes K L v / (K * L))) ∧
    (∀ (c : Rat) (v : Nat → Nat → Rat), Shows runs "minimum_flash_area" X Y c →
      (∀ i j, i < K → j < L → Shows runs' "minimum_flash_area" (subCentre K dx X i) (subCentre L dy Y j) (v i j)) →
      LeastOrZero ((partValues K L v).filter fun u => u ≠ 0) c) ∧
    (sc = false → ∀ name density, (name, density) ∈ [("average_flash_area", "flash_extent_density"),
        ("average_group_area", "group_extent_density")] →
      ∀ (c w : Rat) (v u : Nat → Nat → Rat), Shows runs name X Y c → Shows runs density X Y w →
      (∀ i j, i < K → j < L → Shows runs' name (subCentre K dx X i) (subCentre L dy Y j) (v i j)) →
      (∀ i j, i < K → j < L → Shows runs' density (subCentre K dx X i) (subCentre L dy Y j) (u i j)) →
      c * w = (overBoxes K L fun i j => v i j * u i j) / (K * L)) := by
  obtain ⟨parts, opened, hp, ho, hc, hf⟩ := call_opening h
  obtain ⟨_, opened', -, -, hc', hf'⟩ := call_opening h'
  refine C155_finer_grid hK hL hc hc' rfl (opened_perm hall hf' hf) (fun d' hd' e' he' => ?_) hr hr' hsc hsc' X Y
  obtain ⟨d, hd, e, he, e1, -⟩ := opened_event hp ho d' hd' e' he'
  rw [e1]
  exact hpos d hd e he

end

/-! ### Samples -/

theorem plain_lightning : RecordedLightning plainEnv.foot sampleNav (some 2) none [plainFile] (1/1000) (1/1000) (3/2000) (3/2000) := by
  classical
  refine ⟨plainFile, by simp, ⟨100, 13, { lon := 2, lat := 2, energy := 2 }⟩, ?_, ?_⟩
  · unfold fileEvents
    refine List.mem_filter.mpr ⟨by simp [plainFile], decide_eq_true ⟨⟨5, 0, { lon := 2, lat := 2, area := 100 }⟩, by simp [plainFile],
      ⟨?_, fun m hm => by cases hm⟩, by decide +kernel⟩⟩
    intro m hm
    obtain rfl := Option.some.inj hm
    decide +kernel
  · unfold navPlace
    decide +kernel

/-- `C157_from_files_partial` for the sample. -/
example {runs : List (TileRun TileState ImageFile)} {sh : Dict} {u v : Rat}
    (hr : gridGlmFlashes (lutGridder plainEnv) [plainFile] wideCall [] = .ok (runs, sh)) (hsc : Scaled runs true)
    (hu : Shows runs "flash_extent_density" (3/2000) (3/2000) u) (hv : Shows runs "group_extent_density" (3/2000) (3/2000) v) :
    0 < u ∧ u ≤ v := by
  obtain ⟨h1, h2, -⟩ := C157_from_files_partial (X := 3/2000) (Y := 3/2000) plain_call
    ⟨by decide +kernel, by decide +kernel⟩ hr hsc
  exact ⟨(h1 _ (by simp) u hu).2.mpr plain_lightning, h2 u v hu hv⟩

/-- `C132_from_files` for the sample. -/
example {runs : List (TileRun TileState ImageFile)} {sh : Dict} {u v w : Rat}
    (hr : gridGlmFlashes (lutGridder plainEnv) [plainFile] wideCall [] = .ok (runs, sh)) (hsc : Scaled runs true)
    (hu : Shows runs "minimum_flash_area" (3/2000) (3/2000) u) (hv : Shows runs "average_flash_area" (3/2000) (3/2000) v)
    (hw : Shows runs "average_group_area" (3/2000) (3/2000) w) : 0 < u ∧ v ≤ 100 := by
  have bound : ∀ d ∈ [plainFile], (∀ f ∈ d.flashes, f.val.area ≤ 100) ∧ ∀ g ∈ d.groups, g.val.area ≤ 100 := by decide +kernel
  obtain ⟨h1, -, h3, -⟩ := C132_from_files plain_call ⟨by decide +kernel, by decide +kernel⟩ hr hsc plain_lightning
    (largest := 100) (largestGroup := 100) (fun d hd f hf => (bound d hd).1 f (List.mem_filter.mp hf).1)
    (fun d hd g hg => (bound d hd).2 g (List.mem_filter.mp hg).1) hu hv hw
  exact ⟨h1, h3.trans (by norm_num)⟩

/-- `C139_from_files` for the sample: a call with four tiles and one with one tile for a wider domain. -/
example {runsA runsB : List (TileRun TileState ImageFile)} {sA sB : Dict}
    (rA : gridGlmFlashes (lutGridder plainEnv) [plainFile] wholeCall [] = .ok (runsA, sA))
    (rB : gridGlmFlashes (lutGridder plainEnv) [plainFile] wideCall [] = .ok (runsB, sB))
    (scA : Scaled runsA true) (scB : Scaled runsB true) (X Y a b : Rat)
    (hA : Shows runsA "total_energy" X Y a) (hB : Shows runsB "total_energy" X Y b) : b = a :=
  C139_from_files plain_small plain_call (List.Perm.refl _) rA rB scA scB "total_energy" (by decide) a b hA hB

theorem plain_fine : FileCall plainEnv id sampleNav fineCall 0 (-1/1000) (1/2000) (1/2000) 12 12 1 (some 2) none [plainFile] :=
  { plain_call with
    asked := fineCall_asked
    xPos := by norm_num
    yPos := by norm_num
    tiles := by omega
    xTiles := by omega
    yTiles := by omega
    xPad := by norm_num
    yPad := by norm_num
    fit := by
      have hpads : padBoxes (28 / 10000) (1 / 2000) = 5 := by decide +kernel
      intro d hd
      rw [List.mem_singleton] at hd
      subst hd
      rw [hpads]
      exact
        { sound := ⟨by unfold HasData; decide +kernel, by decide +kernel, by decide +kernel,
            by unfold UniqueIds; decide +kernel, by unfold UniqueIds; decide +kernel⟩
          areas := by decide +kernel
          pixels := by unfold navPlace; decide +kernel
          convex := fun _ _ => diamond_convex _
          area := by unfold navPlace; decide +kernel
          mean := fun _ _ => diamond_mean _
          narrow := by unfold navPlace; decide +kernel
          padded := by unfold navPlace; decide +kernel
          view := by unfold navPlace; decide +kernel
          compact := by unfold navPlace; decide +kernel } }

/-- `C155_from_files` for the sample: a pixel and its four parts. -/
example {runs runs' : List (TileRun TileState ImageFile)} {sh sh' : Dict} {c : Rat} {v : Nat → Nat → Rat}
    (hr : gridGlmFlashes (lutGridder plainEnv) [plainFile] wideCall [] = .ok (runs, sh))
    (hr' : gridGlmFlashes (lutGridder plainEnv) [plainFile] fineCall [] = .ok (runs', sh'))
    (hsc : Scaled runs true) (hsc' : Scaled runs' true) (hc : Shows runs "total_energy" (3/2000) (3/2000) c)
    (hv : ∀ i j, i < 2 → j < 2 →
      Shows runs' "total_energy" (subCentre 2 (1/2000) (3/2000) i) (subCentre 2 (1/2000) (3/2000) j) (v i j)) :
    c ≤ overBoxes 2 2 v := by
  have h : FileCall plainEnv id sampleNav wideCall 0 (-1/1000) ((2 : Nat) * (1/2000)) ((2 : Nat) * (1/2000)) 6 6 1 (some 2) none
      [plainFile] := by
    convert plain_call using 1 <;> norm_num
  exact ((C155_from_files (by omega) (by omega) h plain_fine (List.Perm.refl _) (by unfold EnergiesHold; decide +kernel) hr hr'
    hsc hsc' (3/2000) (3/2000)).1 c v hc hv).1

end Verif.Props
