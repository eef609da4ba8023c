import Verif.Props.FrameSums
import Verif.Props.FileCentroids

/-!
# C140, C141 and C162 for files as they are recorded

Sums over files, over the domain and over frames are proved for datasets that are open.  Here the files are opened as the
repository does it, and what the images show is said in terms of the rows of the files.
-/

namespace Verif.Props

open Verif.Py Verif.Model Verif.Spec Verif.Proofs

/-- The energy recorded for the events of the flashes of files that count. -/
noncomputable def recordedEnergy (me mg : Option Int) (files : List GFile) : Rat :=
  (files.map fun d => ((fileEvents me mg d).map fun e => e.val.energy).sum).sum

/-- Energies are not negative. -/
def EnergiesHold (files : List GFile) : Prop := ∀ d ∈ files, ∀ e ∈ d.events, 0 ≤ e.val.energy

/-- The footprints of events are in a domain. -/
def FootprintsIn (foot : Pt → Poly) (nav : Rat → Rat → Rat × Rat) (xlo ylo dx dy : Rat) (M N : Nat) (files : List GFile) : Prop :=
  ∀ d ∈ files, ∀ e ∈ d.events, ∀ v ∈ foot (navPlace nav e),
    xlo ≤ v.1 ∧ v.1 ≤ xlo + M * dx ∧ ylo ≤ v.2 ∧ v.2 ≤ ylo + N * dy

/-! ## Opening -/

theorem forall₂_functional {α β : Type} {f : α → Option β} {a : List α} {b c : List β}
    (hb : List.Forall₂ (fun x y => f x = some y) a b) (hc : List.Forall₂ (fun x y => f x = some y) a c) : b = c := by
  induction hb generalizing c with
  | nil => cases hc; rfl
  | cons h _ ih =>
    cases hc with
    | cons h' hc => rw [h] at h'; rw [Option.some.inj h', ih hc]

theorem opened_perm {α β : Type} {f : α → Option β} {a a' : List α} {b b' : List β} (h : a.Perm a')
    (hb : List.Forall₂ (fun x y => f x = some y) a b) (hb' : List.Forall₂ (fun x y => f x = some y) a' b') : b.Perm b' := by
  induction h generalizing b b' with
  | nil => cases hb; cases hb'; exact List.Perm.refl _
  | cons x _ ih =>
    cases hb with
    | cons h1 hb =>
      cases hb' with
      | cons h2 hb' =>
        rw [h1] at h2
        obtain rfl := Option.some.inj h2
        exact (ih hb hb').cons _
  | swap x y l =>
    cases hb with
    | cons h1 hb =>
      cases hb with
      | cons h2 hb =>
        cases hb' with
        | cons k1 hb' =>
          cases hb' with
          | cons k2 hb' =>
            rw [h1] at k2
            rw [h2] at k1
            obtain rfl := Option.some.inj k1
            obtain rfl := Option.some.inj k2
            rw [forall₂_functional hb hb']
            exact List.Perm.swap _ _ _
  | trans p1 _ ih1 ih2 =>
    rename_i l1 l2 l3 p2
    have : ∃ m, List.Forall₂ (fun x y => f x = some y) l2 m := by
      have key : ∀ l : List α, (∀ x ∈ l, ∃ y, f x = some y) → ∃ m, List.Forall₂ (fun x y => f x = some y) l m := by
        intro l
        induction l with
        | nil => intro _; exact ⟨[], .nil⟩
        | cons x l ih =>
          intro hl
          obtain ⟨y, hy⟩ := hl x List.mem_cons_self
          obtain ⟨m, hm⟩ := ih fun z hz => hl z (List.mem_cons_of_mem _ hz)
          exact ⟨y :: m, .cons hy hm⟩
      refine key l2 fun x hx => ?_
      obtain ⟨y, -, hy⟩ := (forall₂_exists hb).1 x (p1.mem_iff.mpr hx)
      exact ⟨y, hy⟩
    obtain ⟨m, hm⟩ := this
    exact (ih1 hb hm).trans (ih2 hm hb')

section
variable {env : Surroundings} {order : List Int → List Int} {nav : Rat → Rat → Rat × Rat} {kw shared sh : Dict}
  {xlo ylo dx dy : Rat} {M N s : Nat} {me mg : Option Int} {files : List GFile} {runs : List (TileRun TileState ImageFile)}
  {sc : Bool}

theorem call_opening (h : FileCall env order nav kw xlo ylo dx dy M N s me mg files) :
    ∃ parts opened, List.Forall₂ ValidPart files parts ∧ List.Forall₂ (OpenedFrom nav) parts opened ∧
      ConvexCall env kw xlo ylo dx dy M N s me mg files opened ∧
      List.Forall₂ (fun d d' => (openDataset order nav true true d).toOption = some d') files opened := by
  obtain ⟨parts, opened, hp, ho, hc⟩ := h.toPlainCall.convex (nav := nav) id h.some (fun d hd => by
    obtain ⟨d1, d', h1, -, h2, h3, h4⟩ := (h.fit d hd).sound.opened h.ids nav
    exact ⟨d1, d', fun rev => by rw [h.opens]; exact h1, h2, h3, h4⟩) h.fit
  rw [List.map_id] at hp
  refine ⟨parts, opened, hp, ho, hc, ?_⟩
  obtain ⟨rev, hrev⟩ := (Dict.has_iff _ _).mp (hc.asked.given "ellipse_rev" (by simp))
  refine (hc.opens rev hrev).imp fun d d' hd => ?_
  rw [h.opens] at hd
  exact congrArg Except.toOption hd

/-- The rows of open datasets are rows of files. -/
theorem opened_event {parts opened : List GFile} (hp : List.Forall₂ ValidPart files parts)
    (ho : List.Forall₂ (OpenedFrom nav) parts opened) : ∀ d' ∈ opened, ∀ e' ∈ d'.events,
      ∃ d ∈ files, ∃ e ∈ d.events, e'.val.energy = e.val.energy ∧ placeOf e' = navPlace nav e := by
  intro d' hd' e' he'
  obtain ⟨d1, hd1, o⟩ := (forall₂_exists ho).2 d' hd'
  obtain ⟨d, hd, v⟩ := (forall₂_exists hp).2 d1 hd1
  obtain ⟨e, he, se⟩ := (forall₂_exists o.events).2 e' he'
  exact ⟨d, hd, e, (List.mem_filter.mp (v.events.mem_iff.mp he)).1, se.energy.symm, o.samePlace he' se⟩

theorem opened_energy {parts opened : List GFile} (hp : List.Forall₂ ValidPart files parts)
    (ho : List.Forall₂ (OpenedFrom nav) parts opened) : countedEnergy me mg opened = recordedEnergy me mg files := by
  unfold countedEnergy recordedEnergy
  congr 1
  induction hp generalizing opened with
  | nil => cases ho; rfl
  | cons hv _ ih =>
    cases ho with
    | cons ho hos =>
      rw [List.map_cons, List.map_cons, ih hos, ho.sameEvents (F := fun e => e.val.energy) fun e e' se _ => se.energy,
        (hv.sameEvents.map _).sum_eq]

/-- **C141** for files.  If footprints are in the domain, the energies in the images add up to the energy recorded for the
events of flashes that are large enough. -/
theorem C141_from_files (h : FileCall env order nav kw xlo ylo dx dy M N s me mg files)
    (hr : gridGlmFlashes (lutGridder env) files kw shared = .ok (runs, sh)) (hsc : Scaled runs sc)
    (hpos : EnergiesHold files) (hin : FootprintsIn env.foot nav xlo ylo dx dy M N files)
    (v : Nat → Nat → Rat) (hv : ∀ m n, m < M → n < N →
      Shows runs "total_energy" (xlo + (m + 1/2) * dx) (ylo + (n + 1/2) * dy) (v m n)) :
    (∀ m n, m < M → n < N → 0 ≤ v m n) ∧ recordedEnergy me mg files ≤ overBoxes M N v ∧
    overBoxes M N v ≤ recordedEnergy me mg files + 152597 / 100000000000 * (M * N) ∧
    (sc = false → overBoxes M N v = recordedEnergy me mg files) := by
  obtain ⟨parts, opened, hp, ho, hc, -⟩ := call_opening h
  rw [← opened_energy hp ho]
  refine C141_convex hc hr hsc (fun d' hd' e' he' => ?_) (fun d' hd' e' he' => ?_) v hv
  · obtain ⟨d, hd, e, he, e1, -⟩ := opened_event hp ho d' hd' e' he'
    rw [e1]
    exact hpos d hd e he
  · obtain ⟨d, hd, e, he, -, e2⟩ := opened_event hp ho d' hd' e' (List.mem_filter.mp he').1
    rw [e2]
    exact hin d hd e he

theorem opened_frame {parts opened : List GFile} (hp : List.Forall₂ ValidPart files parts)
    (ho : List.Forall₂ (OpenedFrom nav) parts opened) (hc : ConvexCall env kw xlo ylo dx dy M N s me mg files opened)
    (htime : KeepsTime env files) (t : Rat × Rat) :
    countedEnergy me mg (filesOf env t opened) = recordedEnergy me mg (filesOf env t files) := by
  obtain ⟨rev, hrev⟩ := (Dict.has_iff _ _).mp (hc.asked.given "ellipse_rev" (by simp))
  set mark := files.map fun d => decide (InFrame env.basedate t (env.productTime d)) with hmark
  have hm : mark = opened.map fun d => decide (InFrame env.basedate t (env.productTime d)) := by
    refine (map_eq_of_forall₂ (f := fun d => decide (InFrame env.basedate t (env.productTime d)))
      (g := fun d => decide (InFrame env.basedate t (env.productTime d))) (forall₂_mem (hc.opens rev hrev)) ?_).symm
    intro d d' hd
    rw [htime rev d hd.2.1 d' hd.1]
  have e1 : marked mark opened = filesOf env t opened := by
    have := marked_map opened (fun d => decide (InFrame env.basedate t (env.productTime d))) id
    rw [List.map_id, List.map_id] at this
    rw [hm]
    exact this
  have e2 : marked mark files = filesOf env t files := by
    have := marked_map files (fun d => decide (InFrame env.basedate t (env.productTime d))) id
    rwa [List.map_id, List.map_id] at this
  rw [← e1, ← e2]
  exact opened_energy (marked_forall₂ hp mark) (marked_forall₂ ho mark)

/-- **C162** for files, totals: the energies in the images of all frames add up to the energy recorded in the files of the
period. -/
theorem C162_energy_from_files {F : Framing} (h : FileCall env order nav kw xlo ylo dx dy M N s me mg files)
    (htime : KeepsTime env files) (hF : PicksByTime F)
    (hr : gridGlmFlashes (framesGridder env F) files kw shared = .ok (runs, sh)) (hsc : Scaled runs sc)
    (hin : FootprintsIn env.foot nav xlo ylo dx dy M N files)
    {first last : Rat} {rest : List Rat} (hE : F.tEdges = first :: rest) (hL : F.tEdges.getLast? = some last)
    (ha : F.tEdges.Pairwise (· ≤ ·)) (v : Nat → Nat → Nat → Rat)
    (hv : ∀ k m n, k < rest.length → m < M → n < N →
      ShowsIn runs k "total_energy" (xlo + (m + 1/2) * dx) (ylo + (n + 1/2) * dy) (v k m n)) :
    recordedEnergy me mg (filesOf env (first, last) files) ≤ ((List.range rest.length).map fun k => overBoxes M N (v k)).sum ∧
    ((List.range rest.length).map fun k => overBoxes M N (v k)).sum ≤
      recordedEnergy me mg (filesOf env (first, last) files) + 152597 / 100000000000 * (M * N) * rest.length ∧
    (sc = false → ((List.range rest.length).map fun k => overBoxes M N (v k)).sum =
      recordedEnergy me mg (filesOf env (first, last) files)) := by
  obtain ⟨parts, opened, hp, ho, hc, -⟩ := call_opening h
  rw [← opened_frame hp ho hc htime]
  refine C162_energy hc.good hF hr hsc (fun d' hd' e' he' => ?_) hE hL ha v hv
  have he := (List.mem_filter.mp he').1
  rw [hc.clip]
  refine parts_convex (hc.convex d' hd' e' he) ((hc.compact d' hd' (List.ne_nil_of_mem he)).polygons e' he).2 hc.xPos hc.yPos
    (by have := hc.tiles; have := hc.xTiles; omega) (by have := hc.tiles; have := hc.yTiles; omega) ?_
  obtain ⟨d, hd, e, he, -, e2⟩ := opened_event hp ho d' hd' e' he
  rw [e2]
  exact hin d hd e he

end

/-- **C140** for files.  Each of three calls opens its files in the same way; the third is for the files of the other two. -/
theorem C140_from_files {env : Surroundings} {order : List Int → List Int} {nav : Rat → Rat → Rat × Rat}
    {kwA kwB kwC sA sB sC sA' sB' sC' : Dict} {xA yA xB yB xC yC dx dy : Rat} {MA NA kA MB NB kB MC NC kC : Nat}
    {me mg : Option Int} {filesA filesB filesC : List GFile} {runsA runsB runsC : List (TileRun TileState ImageFile)} {sc : Bool}
    (hA : FileCall env order nav kwA xA yA dx dy MA NA kA me mg filesA)
    (hB : FileCall env order nav kwB xB yB dx dy MB NB kB me mg filesB)
    (hC : FileCall env order nav kwC xC yC dx dy MC NC kC me mg filesC) (hall : filesC.Perm (filesA ++ filesB))
    (hpos : EnergiesHold filesC)
    (rA : gridGlmFlashes (lutGridder env) filesA kwA sA = .ok (runsA, sA'))
    (rB : gridGlmFlashes (lutGridder env) filesB kwB sB = .ok (runsB, sB'))
    (rC : gridGlmFlashes (lutGridder env) filesC kwC sC = .ok (runsC, sC'))
    (scA : Scaled runsA sc) (scB : Scaled runsB sc) (scC : Scaled runsC sc) (X Y : Rat) :
    (∀ name step, (name, step) ∈ [("flash_extent_density", (1/16 : Rat)), ("total_energy", 152597 / 100000000000),
        ("group_extent_density", 1/4)] →
      ∀ a b c, Shows runsA name X Y a → Shows runsB name X Y b → Shows runsC name X Y c →
        c ≤ a + b ∧ a + b ≤ c + step ∧ (sc = false → c = a + b)) ∧
    (∀ a b c, Shows runsA "minimum_flash_area" X Y a → Shows runsB "minimum_flash_area" X Y b →
      Shows runsC "minimum_flash_area" X Y c → c = leastOf a b) ∧
    (sc = false → ∀ name density, (name, density) ∈ [("average_flash_area", "flash_extent_density"),
        ("average_group_area", "group_extent_density")] →
      ∀ a b c u v w, Shows runsA name X Y a → Shows runsB name X Y b → Shows runsC name X Y c →
        Shows runsA density X Y u → Shows runsB density X Y v → Shows runsC density X Y w → c * w = a * u + b * v) := by
  obtain ⟨_, openedA, -, -, cA, fA⟩ := call_opening hA
  obtain ⟨_, openedB, -, -, cB, fB⟩ := call_opening hB
  obtain ⟨partsC, openedC, pC, oC, cC, fC⟩ := call_opening hC
  refine C140_files_add cA.good cB.good cC.good rfl rfl rfl rfl (opened_perm hall fC (List.rel_append fA fB)) (fun d' hd' e' he' => ?_)
    rA rB rC scA scB scC X Y
  obtain ⟨d, hd, e, he, e1, -⟩ := opened_event pC oC d' hd' e' he'
  rw [e1]
  exact hpos d hd e he

/-- **C162** for files.  Two calls open their files in the same way; one cuts the period into frames, the other has a frame for
the whole of it. -/
theorem C162_from_files {env : Surroundings} {F G : Framing} {order : List Int → List Int} {nav : Rat → Rat → Rat × Rat}
    {kwA kwC sA sC sA' sC' : Dict} {xA yA xC yC dx dy : Rat} {MA NA kA MC NC kC : Nat}
    {me mg : Option Int} {filesA filesC : List GFile} {runsA runsC : List (TileRun TileState ImageFile)} {sc : Bool}
    (hA : FileCall env order nav kwA xA yA dx dy MA NA kA me mg filesA)
    (hC : FileCall env order nav kwC xC yC dx dy MC NC kC me mg filesC) (hall : filesC.Perm filesA)
    (hF : PicksByTime F) (hG : PicksByTime G) (hpos : EnergiesHold filesA)
    (rA : gridGlmFlashes (framesGridder env F) filesA kwA sA = .ok (runsA, sA'))
    (rC : gridGlmFlashes (framesGridder env G) filesC kwC sC = .ok (runsC, sC'))
    (scA : Scaled runsA sc) (scC : Scaled runsC sc) {first last : Rat} {rest : List Rat} (hE : F.tEdges = first :: rest)
    (hL : F.tEdges.getLast? = some last) (ha : F.tEdges.Pairwise (· ≤ ·)) {n : Nat}
    (hn : (pairwise G.tEdges)[n]? = some (first, last)) (X Y : Rat) :
    (∀ name step, (name, step) ∈ [("flash_extent_density", (1/16 : Rat)), ("total_energy", 152597 / 100000000000),
        ("group_extent_density", 1/4)] → ∀ a c, ShowsEach runsA rest.length name X Y a → ShowsIn runsC n name X Y c →
        c ≤ ((List.range rest.length).map a).sum ∧
        ((List.range rest.length).map a).sum ≤ c + (rest.length - 1 : Nat) * step ∧
        (sc = false → c = ((List.range rest.length).map a).sum)) ∧
    (∀ a c, ShowsEach runsA rest.length "minimum_flash_area" X Y a → ShowsIn runsC n "minimum_flash_area" X Y c →
      LeastOrZero (((List.range rest.length).map a).filter fun u => u ≠ 0) c) ∧
    (sc = false → ∀ name density, (name, density) ∈ [("average_flash_area", "flash_extent_density"),
        ("average_group_area", "group_extent_density")] →
      ∀ a c u w, ShowsEach runsA rest.length name X Y a → ShowsIn runsC n name X Y c →
        ShowsEach runsA rest.length density X Y u → ShowsIn runsC n density X Y w →
        c * w = ((List.range rest.length).map fun k => a k * u k).sum) := by
  obtain ⟨partsA, openedA, pA, oA, cA, fA⟩ := call_opening hA
  obtain ⟨_, openedC, -, -, cC, fC⟩ := call_opening hC
  refine C162_sums cA.good cC.good hF hG rfl rfl rfl rfl (opened_perm hall fC fA) (fun d' hd' e' he' => ?_)
    rA rC scA scC hE hL ha hn X Y
  obtain ⟨d, hd, e, he, e1, -⟩ := opened_event pA oA d' hd' e' he'
  rw [e1]
  exact hpos d hd e he

/-! ### Sample -/

/-- The frames of the sample: `plainFile` is in the first, `lateFile` in the second. -/
example {runsA runsC : List (TileRun TileState ImageFile)} {sA sC : Dict}
    (rA : gridGlmFlashes (framesGridder framesEnv (sampleFrames [0, 30, 60])) [plainFile, lateFile] wideCall [] = .ok (runsA, sA))
    (rC : gridGlmFlashes (framesGridder framesEnv (sampleFrames [0, 60])) [lateFile, plainFile] wideCall [] = .ok (runsC, sC))
    (scA : Scaled runsA true) (scC : Scaled runsC true) (X Y c : Rat) (a : Nat → Rat)
    (hA : ShowsEach runsA 2 "total_energy" X Y a) (hC : ShowsIn runsC 0 "total_energy" X Y c) :
    c ≤ a 0 + a 1 ∧ a 0 + a 1 ≤ c + 152597 / 100000000000 := by
  have := (C162_from_files (frames_call (by simp) (by simp)) (frames_call (by simp) (by simp)) (List.Perm.swap _ _ _)
    (sampleFrames_pick _) (sampleFrames_pick _) (by unfold EnergiesHold; decide +kernel) rA rC scA scC (first := 0) (last := 60) (rest := [30, 60]) rfl rfl
    (by decide +kernel) (n := 0) rfl X Y).1 "total_energy" (152597 / 100000000000) (by simp) a c hA hC
  simpa [List.range_succ, add_assoc] using And.intro this.1 this.2.1

theorem late_inside : FootprintsIn framesEnv.foot sampleNav 0 (-1/1000) (1/1000) (1/1000) 6 6 [plainFile, lateFile] := by
  unfold FootprintsIn navPlace
  decide +kernel

example {runs : List (TileRun TileState ImageFile)} {sh : Dict} {v : Nat → Nat → Nat → Rat}
    (hr : gridGlmFlashes (framesGridder framesEnv (sampleFrames [0, 30, 60])) [plainFile, lateFile] wideCall [] = .ok (runs, sh))
    (hsc : Scaled runs true) (hv : ∀ k m n : Nat, k < 2 → m < 6 → n < 6 →
      ShowsIn runs k "total_energy" (0 + (m + 1/2) * (1/1000)) (-1/1000 + (n + 1/2) * (1/1000)) (v k m n)) :
    recordedEnergy (some 2) none [plainFile, lateFile] ≤ overBoxes 6 6 (v 0) + overBoxes 6 6 (v 1) := by
  have hall : filesOf framesEnv (0, 60) [plainFile, lateFile] = [plainFile, lateFile] := by
    unfold filesOf
    rw [List.filter_eq_self]
    decide +kernel
  have := (C162_energy_from_files (frames_call (by simp) (by simp)) (frames_time (by simp)) (sampleFrames_pick _) hr hsc
    late_inside (first := 0) (last := 60) (rest := [30, 60]) rfl rfl (by decide +kernel) v hv).1
  rw [hall] at this
  simpa [List.range_succ, add_assoc] using this

/-- `C141_from_files` and `C140_from_files` for the sample. -/
example {runs : List (TileRun TileState ImageFile)} {sh : Dict} {v : Nat → Nat → Rat}
    (hr : gridGlmFlashes (lutGridder framesEnv) [plainFile, lateFile] wideCall [] = .ok (runs, sh))
    (hsc : Scaled runs true) (hv : ∀ m n : Nat, m < 6 → n < 6 →
      Shows runs "total_energy" (0 + (m + 1/2) * (1/1000)) (-1/1000 + (n + 1/2) * (1/1000)) (v m n)) :
    recordedEnergy (some 2) none [plainFile, lateFile] ≤ overBoxes 6 6 v :=
  (C141_from_files (frames_call (by simp) (by simp)) hr hsc (by unfold EnergiesHold; decide +kernel) late_inside v hv).2.1

example {runsA runsB runsC : List (TileRun TileState ImageFile)} {sA sB sC : Dict}
    (rA : gridGlmFlashes (lutGridder framesEnv) [plainFile] wideCall [] = .ok (runsA, sA))
    (rB : gridGlmFlashes (lutGridder framesEnv) [lateFile] wideCall [] = .ok (runsB, sB))
    (rC : gridGlmFlashes (lutGridder framesEnv) [lateFile, plainFile] wideCall [] = .ok (runsC, sC))
    (scA : Scaled runsA true) (scB : Scaled runsB true) (scC : Scaled runsC true) (X Y a b c : Rat)
    (hA : Shows runsA "total_energy" X Y a) (hB : Shows runsB "total_energy" X Y b) (hC : Shows runsC "total_energy" X Y c) :
    c ≤ a + b ∧ a + b ≤ c + 152597 / 100000000000 := by
  have := (C140_from_files (frames_call (by simp) (by simp)) (frames_call (by simp) (by simp))
    (frames_call (by simp) (by simp)) (List.Perm.swap _ _ _) (by unfold EnergiesHold; decide +kernel) rA rB rC scA scB scC X Y).1
    "total_energy" (152597 / 100000000000) (by simp) a b c hA hB hC
  exact ⟨this.1, this.2.1⟩

end Verif.Props
