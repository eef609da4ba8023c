import Verif.Props.Program
import Verif.Props.Cli
import Verif.Props.Units

/-!
# C146: from the command line of `make_GLM_grids.py` to the pixels of its images

C112 is about the words of the command line, C62 about the grid that the arguments ask for, C143 about the images that
`grid_GLM_flashes` makes of files.  Here they are put together.
-/

namespace Verif.Props

open Verif.Py Verif.Model Verif.Spec Verif.Proofs

/-! ## Specification -/

/-- The options ask for a grid on the fixed grid with `M` by `N` boxes of `dx` by `dy` radians around `(cx, cy)`. -/
inductive AsksForGrid (lib : Lmatools) (a : Args) : Rat → Rat → Rat → Rat → Nat → Nat → Prop
  /-- a sector of the satellite, with the boxes of the sector; its centre is known or, for the mesoscale, given -/
  | sector (view : View) (M N : Nat) (cx cy : Rat) (position : a.goesPosition ≠ "none") (sector : a.goesSector ≠ "none")
      (known : lib.grid a.goesPosition a.goesSector (nearestResolution a.dx) = .ok view)
      (columns : view.pixelsEW = M) (rows : view.pixelsNS = N)
      (centre : view.center = some (cx, cy) ∨ view.center = none ∧ a.goesSector = "meso" ∧
        ∃ lon lat, a.ctrLon = some lon ∧ a.ctrLat = some lat ∧ lib.toFixedGrid view.nadirLon lon lat = (cx, cy)) :
      AsksForGrid lib a view.resolution view.resolution cx cy M N
  /-- no sector: as many boxes of the given size as the given width and height have room for; sizes are in kilometres -/
  | custom (view : View) (M N : Nat) (lon lat : Rat) (position : a.goesPosition ≠ "none") (sector : a.goesSector = "none")
      (known : lib.grid a.goesPosition "full" "1.0km" = .ok view) (ctrLon : a.ctrLon = some lon) (ctrLat : a.ctrLat = some lat)
      (dx : 0 < a.dx) (dy : 0 < a.dy) (columns : M * a.dx ≤ a.width ∧ a.width < (M + 1) * a.dx)
      (rows : N * a.dy ≤ a.height ∧ a.height < (N + 1) * a.dy) :
      AsksForGrid lib a (a.dx * view.resolution) (a.dy * view.resolution) (lib.toFixedGrid view.nadirLon lon lat).1
        (lib.toFixedGrid view.nadirLon lon lat).2 M N

/-- A least number of events or groups.  Up to one there is no condition. -/
def askedLeast (n : Int) : Option Int := if n ≤ 1 then none else some n

/-- The files and the grid are as in C143: there is a file, each is sound, its attributes are conventional, and footprints are
convex and not larger than what tiles and margins allow for. -/
structure FilesFit (env : Surroundings) (order : List Int → List Int) (nav : Rat → Rat → Rat × Rat) (attrs : GFile → FileAttrs)
    (dx dy : Rat) (M N s : Nat) (files : List GFile) : Prop where
  xPos : 0 < dx
  yPos : 0 < dy
  tiles : 0 < s
  xTiles : 2 * s ≤ M
  yTiles : s ≤ N
  xPad : 2 * dx ≤ 28 / 10000
  yPad : 2 * dy ≤ 28 / 10000
  edges : MakesEdges env.edges
  clip : env.clip = convexClip
  sets : ∀ l, (env.order l).Perm l
  ids : ∀ l, (order l).Perm l
  opens : env.openFile = fun _ d => openFull order nav (attrs d) d
  some : files ≠ []
  conventional : ∀ d ∈ files, Conventional (attrs d)
  sound : ∀ d ∈ files, SoundFile d
  times : ∀ d ∈ files, badTimes (attrs d) → Consistent d
  fit : ∀ d ∈ files, FitFile env.foot env.loc nav dx dy (padBoxes (28 / 10000) dx * dx) (padBoxes (28 / 10000) dy * dy)
    (inUnits (attrs d) d)

/-! ## Proof -/

theorem asksForGrid_target {lib : Lmatools} {a : Args} {dx dy cx cy : Rat} {M N : Nat} (h : AsksForGrid lib a dx dy cx cy M N)
    (hf : a.fixedGrid = true) (hx : 0 < dx) :
    ∃ t, targetGrid lib a = .ok t ∧ t.nadirLon.isSome ∧ t.dx = dx ∧ t.dy = dy ∧
      t.xBnd = (cx - M * dx / 2, cx - M * dx / 2 + M * dx) ∧ t.yBnd = (cy - N * dy / 2, cy - N * dy / 2 + N * dy) := by
  cases h with
  | sector view _ _ _ _ position sector known columns rows centre =>
    obtain ⟨t, h1, h2, h3, h4, h5, h6, -⟩ := C62_sector lib a view M N cx cy hf position sector known hx.le columns rows centre
    refine ⟨t, h1, by rw [h2]; rfl, h3, h4, ?_, ?_⟩
    · rw [h5, h3]; congr 1; ring
    · rw [h6, h4]; congr 1; ring
  | custom view _ _ lon lat position sector known ctrLon ctrLat ddx ddy columns rows =>
    have hres : 0 ≤ view.resolution := by
      by_contra hn
      have := mul_neg_of_pos_of_neg ddx (not_le.mp hn)
      exact absurd hx (not_lt.mpr this.le)
    obtain ⟨t, h1, h2, h3, h4, ux, uy, h5, h6, h7, -⟩ := C62_custom lib a view lon lat M N hf position sector ctrLon ctrLat known
      hres ddx ddy columns rows
    refine ⟨t, h1, by rw [h2]; rfl, h3, h4, ?_, ?_⟩
    · rw [h6, h3, h5]; congr 1; ring
    · rw [h7, h4, h5]; congr 1; ring

theorem leastIs_threshold {v : Except Err Val} {n : Int} (h : v = .ok (if n ≤ 1 then .none else .nat n.toNat) ∨
    v = if n ≤ 1 then .error .keyError else .ok (.nat n.toNat)) : LeastIs v (askedLeast n) := by
  unfold LeastIs askedLeast
  by_cases hn : n ≤ 1
  · simp only [hn, if_true] at h ⊢
    exact Or.inr ⟨h, trivial⟩
  · simp only [hn, if_false] at h ⊢
    exact Or.inl ⟨n.toNat, by rcases h with h | h <;> exact h, by rw [Int.toNat_of_nonneg (by omega)]⟩

theorem gridKwargs_asked {a : Args} {t : Target} {dx dy cx cy : Rat} {M N : Nat} (date : DateTime)
    (hf : a.fixedGrid = true) (hs : a.splitEvents = true) (hn : t.nadirLon.isSome) (hdx : t.dx = dx) (hdy : t.dy = dy)
    (hx : t.xBnd = (cx - M * dx / 2, cx - M * dx / 2 + M * dx)) (hy : t.yBnd = (cy - N * dy / 2, cy - N * dy / 2 + N * dy)) :
    FixedGridAsked (gridKwargs a date t) (cx - M * dx / 2) (cy - N * dy / 2) dx dy M N a.subdivide (askedLeast a.minEvents)
      (askedLeast a.minGroups) := by
  obtain ⟨v1, v2, v3, v4, -, -, -, -, v9, v10, v11⟩ := gridKwargs_values a date t
  obtain ⟨k1, k2, k3⟩ := gridKwargs_has a date t
  have hfix : FixedGridCall (gridKwargs a date t) := by
    refine ⟨?_, by rw [gridKwargs_fixed]; exact hn⟩
    rw [v11, hf]
    decide
  obtain ⟨k3, k4, k5⟩ := k3 hfix
  refine ⟨⟨_, v11⟩, hfix, by rw [v3, hdx], by rw [v4, hdy], by rw [v1, hx], by rw [v2, hy], Or.inl v9, ?_,
    leastIs_threshold (Or.inl v10), leastIs_threshold (Or.inr (gridKwargs_groups a date t))⟩
  intro k hk
  simp only [List.mem_cons, List.not_mem_nil, or_false] at hk
  rcases hk with rfl | rfl | rfl | rfl | rfl
  · rw [k1, hs]
  · exact k2
  · exact k3
  · exact k4
  · exact k5

/-- **C146**, for arguments: what the program writes. -/
theorem C146_arguments {lib : Lmatools} {env : DateTime → DateTime → Surroundings} {read : Text → GFile}
    {order : List Int → List Int} {nav : Rat → Rat → Rat × Rat} {attrs : GFile → FileAttrs} {a : Args}
    {span : DateTime × DateTime} {dx dy cx cy : Rat} {M N : Nat}
    (hfixed : a.fixedGrid = true) (hsplit : a.splitEvents = true) (hspan : timeSpan a.filenames a.start a.stop = .ok span)
    (hgrid : AsksForGrid lib a dx dy cx cy M N)
    (hfit : FilesFit (env span.1 span.2) order nav attrs dx dy M N a.subdivide (a.filenames.map read)) :
    ∃ runs shared, mainProgram lib (fun t t' => lutGridder (env t t')) read a = .ok (runs, shared) ∧
      (runs.map fun r => r.ij) =
        ((List.range a.subdivide).flatMap fun i => (List.range a.subdivide).map fun j => (i, j)) ∧
      (∀ k r, runs[k]? = some r → ∃ f, r.written = [(f.name, f)] ∧
        ImageOfFiles (env span.1 span.2).foot nav (askedLeast a.minEvents) (askedLeast a.minGroups)
          (a.filenames.map fun p => inUnits (attrs (read p)) (read p)) dx dy
          (if k = 0 then a.scaleAndOffset else true) (env span.1 span.2).frame
          (boxCentres (cx - M * dx / 2) dx (tileStart M a.subdivide r.ij.1) (tileStart M a.subdivide (r.ij.1 + 1)))
          (boxCentres (cy - N * dy / 2) dy (tileStart N a.subdivide r.ij.2) (tileStart N a.subdivide (r.ij.2 + 1))) f) ∧
      ∀ m n, m < M → n < N → ∃ r ∈ runs, ∃ f, r.written = [(f.name, f)] ∧
        cx + (m - (M - 1) / 2) * dx ∈ f.x ∧ cy + (n - (N - 1) / 2) * dy ∈ f.y := by
  obtain ⟨t, t1, t2, t3, t4, t5, t6⟩ := asksForGrid_target hgrid hfixed hfit.xPos
  have hcall : UnitsCall (env span.1 span.2) order nav attrs
      (gridKwargs a ⟨span.1.year, span.1.month, span.1.day, 0, 0, 0, 0⟩ t) (cx - M * dx / 2) (cy - N * dy / 2) dx dy M N
      a.subdivide (askedLeast a.minEvents) (askedLeast a.minGroups) (a.filenames.map read) :=
    { asked := gridKwargs_asked _ hfixed hsplit t2 t3 t4 t5 t6
      xPos := hfit.xPos, yPos := hfit.yPos, tiles := hfit.tiles, xTiles := hfit.xTiles, yTiles := hfit.yTiles
      xPad := hfit.xPad, yPad := hfit.yPad, edges := hfit.edges, clip := hfit.clip, sets := hfit.sets, ids := hfit.ids
      opens := hfit.opens, some := hfit.some, conventional := hfit.conventional, sound := hfit.sound, times := hfit.times
      fit := hfit.fit }
  obtain ⟨runs, shared, h1, h2, h3, h4⟩ := C143_units [("scale_and_offset", .bool a.scaleAndOffset)] hcall
  have hmain : mainProgram lib (fun t t' => lutGridder (env t t')) read a = .ok (runs, shared) := by
    unfold mainProgram gridSetup
    rw [hspan, t1]
    simp only [bind, Except.bind, pure, Except.pure]
    exact h1
  refine ⟨runs, shared, hmain, h2, ?_, ?_⟩
  · intro k r hr
    obtain ⟨f, hw, hi⟩ := h3 r (List.mem_of_getElem? hr)
    refine ⟨f, hw, ?_⟩
    have hs := C49_program lib (fun t t' => lutGridder (env t t')) read a runs shared hmain k r hr
    have : (r.scale != .bool false) = if k = 0 then a.scaleAndOffset else true := by
      rw [hs]
      cases (if k = 0 then a.scaleAndOffset else true) <;> rfl
    rw [this, List.map_map] at hi
    exact hi
  · intro m n hm hn
    obtain ⟨r, hr, f, hw, hfx, hfy⟩ := h4 m n hm hn
    refine ⟨r, hr, f, hw, ?_, ?_⟩
    · convert hfx using 1; ring
    · convert hfy using 1; ring

/-- **C146**.  A command line with options, then files, then options, that asks for the fixed grid and for events to be split:
the program writes one image for each tile of the grid that the options ask for, and each pixel shows what the files hold. -/
theorem C146_command_line (lib : Lmatools) (env : DateTime → DateTime → Surroundings) (read : Text → GFile) (Nm : Numbers Rat)
    (before after : List Item) (paths : List Text) (hi : ∀ i ∈ before ++ after, i.Understood Nm)
    (hp : ∀ f ∈ paths, PlainValue f) (hlma : Item.flag "--lma" ∉ before ++ after)
    (hfixed : Item.flag "--fixed_grid" ∈ before ++ after) (hsplit : Item.flag "--split_events" ∈ before ++ after) :
    ∃ a, Means Nm (before ++ after) paths a ∧ ∀ (order : List Int → List Int) (nav : Rat → Rat → Rat × Rat)
      (attrs : GFile → FileAttrs) (span : DateTime × DateTime) (dx dy cx cy : Rat) (M N : Nat),
      timeSpan paths a.start a.stop = .ok span → AsksForGrid lib a dx dy cx cy M N →
      FilesFit (env span.1 span.2) order nav attrs dx dy M N a.subdivide (paths.map read) →
      ∃ runs shared, gridProgram lib (fun t t' => lutGridder (env t t')) read Nm
          (tokensOf before ++ (paths ++ tokensOf after)) = .glm (.ok (runs, shared)) ∧
        (runs.map fun r => r.ij) =
          ((List.range a.subdivide).flatMap fun i => (List.range a.subdivide).map fun j => (i, j)) ∧
        (∀ k r, runs[k]? = some r → ∃ f, r.written = [(f.name, f)] ∧
          ImageOfFiles (env span.1 span.2).foot nav (askedLeast a.minEvents) (askedLeast a.minGroups)
            (paths.map fun p => inUnits (attrs (read p)) (read p)) dx dy
            (if k = 0 then a.scaleAndOffset else true) (env span.1 span.2).frame
            (boxCentres (cx - M * dx / 2) dx (tileStart M a.subdivide r.ij.1) (tileStart M a.subdivide (r.ij.1 + 1)))
            (boxCentres (cy - N * dy / 2) dy (tileStart N a.subdivide r.ij.2) (tileStart N a.subdivide (r.ij.2 + 1))) f) ∧
        ∀ m n, m < M → n < N → ∃ r ∈ runs, ∃ f, r.written = [(f.name, f)] ∧
          cx + (m - (M - 1) / 2) * dx ∈ f.x ∧ cy + (n - (N - 1) / 2) * dy ∈ f.y := by
  have hflag : ∀ name, Item.flag name ∈ before ++ after → flagged name (before ++ after) = true := by
    intro name h
    unfold flagged
    rw [List.any_eq_true]
    exact ⟨_, h, by simp [Item.name]⟩
  obtain ⟨a, hm, hg⟩ := (C112_program lib (fun t t' => lutGridder (env t t')) read Nm before after paths hi hp).2 hlma
  refine ⟨a, hm, ?_⟩
  intro order nav attrs span dx dy cx cy M N hspan hgrid hfit
  have hfn := hm.filenames
  rw [← hfn] at hspan hfit
  obtain ⟨runs, shared, h1, h2, h3, h4⟩ := C146_arguments (lib := lib) (env := env) (read := read)
    (hm.fixedGrid.trans (hflag _ hfixed)) (hm.splitEvents.trans (hflag _ hsplit)) hspan hgrid hfit
  rw [hfn] at h3
  exact ⟨runs, shared, by rw [hg, h1], h2, h3, h4⟩

/-! ## Sample -/

/-- Texts of a few numbers. -/
def scriptNumbers : Numbers Rat where
  float t := match [("2", 2), ("3", 3), ("60", 60), ("65.5", 131 / 2)].lookup (String.ofList t) with
    | some q => .ok q
    | none => .error .valueError
  int t := match [("2", 2)].lookup (String.ofList t) with
    | some n => .ok n
    | none => .error .valueError

def scriptItems : List Item :=
  [.flag "--fixed_grid", .flag "--split_events", .value "--goes_position" "east".toList, .value "--ctr_lat" "2".toList,
   .value "--ctr_lon" "3".toList]

def scriptMore : List Item :=
  [.joined "--width" "65.5".toList, .value "--height" "60".toList, .value "--nevents" "2".toList, .flag "--float_output"]

theorem script_understood : ∀ i ∈ scriptItems ++ scriptMore, i.Understood scriptNumbers := by
  intro i hi
  simp only [scriptItems, scriptMore, List.cons_append, List.nil_append, List.mem_cons, List.not_mem_nil, or_false] at hi
  rcases hi with rfl | rfl | rfl | rfl | rfl | rfl | rfl | rfl | rfl
  · exact (by decide : "--fixed_grid" ∈ flagNames)
  · exact (by decide : "--split_events" ∈ flagNames)
  · exact ⟨Or.inl (by decide), Or.inl (by decide)⟩
  · exact ⟨Or.inr (Or.inl ⟨by decide, 2, by decide +kernel⟩), Or.inl (by decide)⟩
  · exact ⟨Or.inr (Or.inl ⟨by decide, 3, by decide +kernel⟩), Or.inl (by decide)⟩
  · exact Or.inr (Or.inl ⟨by decide, 131 / 2, by decide +kernel⟩)
  · exact ⟨Or.inr (Or.inl ⟨by decide, 60, by decide +kernel⟩), Or.inl (by decide)⟩
  · exact ⟨Or.inr (Or.inr ⟨by decide, 2, by decide +kernel⟩), Or.inl (by decide)⟩
  · exact (by decide : "--float_output" ∈ flagNames)

/-- One kilometre is a ten-thousandth of a radian. -/
def scriptLib : Lmatools :=
  { toyLib with grid := fun _ _ _ => .ok ⟨-75, 1 / 10000, 1000, 600, some (-1/20, 1/20)⟩ }

/-- The files and the grid of the sample are as required. -/
theorem script_fits : FilesFit storedEnv id sampleNav (fun _ => plainAttrs) (1/1000) (1/1000) 6 6 1
    (samplePaths.map fun _ => storedFile) := by
  have h := stored_call
  have hm : ∀ d ∈ samplePaths.map fun _ => storedFile, d ∈ [storedFile] := by decide +kernel
  exact { xPos := h.xPos, yPos := h.yPos, tiles := h.tiles, xTiles := h.xTiles, yTiles := h.yTiles, xPad := h.xPad
          yPad := h.yPad, edges := h.edges, clip := h.clip, sets := h.sets, ids := h.ids, opens := h.opens
          some := by decide +kernel
          conventional := fun d hd => h.conventional d (hm d hd)
          sound := fun d hd => h.sound d (hm d hd)
          times := fun d hd => h.times d (hm d hd)
          fit := fun d hd => h.fit d (hm d hd) }

/-- What the command line of the sample asks for. -/
theorem script_asks {a : Args} (hm : Means scriptNumbers (scriptItems ++ scriptMore) samplePaths a) :
    timeSpan samplePaths a.start a.stop = .ok (⟨2018, 12, 31, 23, 59, 20, 0⟩, ⟨2019, 1, 1, 0, 0, 0, 0⟩) ∧
    AsksForGrid scriptLib a (1/1000) (1/1000) (3/1000) (2/1000) 6 6 ∧ a.subdivide = 1 := by
  have hposition : a.goesPosition = "east" := by
    apply String.toList_injective
    rw [hm.goesPosition]; decide
  have hsector : a.goesSector = "none" := by
    apply String.toList_injective
    rw [hm.goesSector]; decide
  have num : ∀ {name : String} {d q x : Rat} {t : Text}, numberOr scriptNumbers d (lastOf [name] (scriptItems ++ scriptMore)) x →
      lastOf [name] (scriptItems ++ scriptMore) = some t → scriptNumbers.float t = .ok q → x = q := by
    intro name d q x t h1 h2 h3
    rw [h2] at h1
    exact Except.ok.inj ((show scriptNumbers.float _ = _ from h1).symm.trans h3)
  have hdx : a.dx = 10 := by
    have h1 := hm.dx
    rw [show lastOf ["--dx"] (scriptItems ++ scriptMore) = none by decide] at h1
    exact h1
  have hdy : a.dy = 10 := by
    have h1 := hm.dy
    rw [show lastOf ["--dy"] (scriptItems ++ scriptMore) = none by decide] at h1
    exact h1
  have hwidth : a.width = 131 / 2 := num hm.width (show _ = some "65.5".toList by decide) (by decide +kernel)
  have hheight : a.height = 60 := num hm.height (show _ = some "60".toList by decide) (by decide +kernel)
  have hlat : a.ctrLat = some 2 := by
    have h1 := hm.ctrLat
    rw [show lastOf ["--ctr_lat"] (scriptItems ++ scriptMore) = some "2".toList by decide] at h1
    obtain ⟨q, h2, h3⟩ := h1
    rw [h3, Except.ok.inj (h2.symm.trans (show scriptNumbers.float "2".toList = .ok 2 by decide +kernel))]
  have hlon : a.ctrLon = some 3 := by
    have h1 := hm.ctrLon
    rw [show lastOf ["--ctr_lon"] (scriptItems ++ scriptMore) = some "3".toList by decide] at h1
    obtain ⟨q, h2, h3⟩ := h1
    rw [h3, Except.ok.inj (h2.symm.trans (show scriptNumbers.float "3".toList = .ok 3 by decide +kernel))]
  have hsub : a.subdivide = 1 := by
    obtain ⟨k, h1, h2⟩ := hm.subdivide
    rw [show lastOf ["--subdivide_grid"] (scriptItems ++ scriptMore) = none by decide] at h1
    have h1 : k = 1 := h1
    subst h1
    exact_mod_cast h2 (by omega)
  have hgrid := AsksForGrid.custom (lib := scriptLib) (a := a) ⟨-75, 1 / 10000, 1000, 600, some (-1/20, 1/20)⟩ 6 6 3 2
    (by rw [hposition]; decide) hsector rfl hlon hlat (by rw [hdx]; norm_num) (by rw [hdy]; norm_num)
    (by rw [hdx, hwidth]; norm_num) (by rw [hdy, hheight]; norm_num)
  have e : AsksForGrid scriptLib a (1/1000) (1/1000) (3/1000) (2/1000) 6 6 := by
    convert hgrid using 1
    · rw [hdx]; norm_num
    · rw [hdy]; norm_num
    · norm_num [scriptLib, toyLib]
    · norm_num [scriptLib, toyLib]
  have hspan : timeSpan samplePaths a.start a.stop = .ok (⟨2018, 12, 31, 23, 59, 20, 0⟩, ⟨2019, 1, 1, 0, 0, 0, 0⟩) := by
    rw [hm.start, hm.stop, show lastOf ["--start"] (scriptItems ++ scriptMore) = none by decide,
      show lastOf ["--end"] (scriptItems ++ scriptMore) = none by decide]
    decide +kernel
  exact ⟨hspan, e, hsub⟩

/-- `make_GLM_grids.py --fixed_grid --split_events --goes_position east --ctr_lat 2 --ctr_lon 3 FILES --width=65.5 --height 60
--nevents 2 --float_output` writes one image of the two files. -/
example : ∃ runs shared, gridProgram scriptLib (fun _ _ => lutGridder storedEnv) (fun _ => storedFile) scriptNumbers
      (tokensOf scriptItems ++ (samplePaths ++ tokensOf scriptMore)) = .glm (.ok (runs, shared)) ∧
    ∃ r ∈ runs, ∃ f, r.written = [(f.name, f)] ∧ 7 / 2000 ∈ f.x ∧ 9 / 2000 ∈ f.y := by
  obtain ⟨a, hm, h⟩ := C146_command_line scriptLib (fun _ _ => storedEnv) (fun _ => storedFile) scriptNumbers scriptItems scriptMore
    samplePaths script_understood sample_files (by simp [scriptItems, scriptMore]) (by simp [scriptItems])
    (by simp [scriptItems])
  obtain ⟨hspan, e, hsub⟩ := script_asks hm
  obtain ⟨runs, shared, h1, -, -, h4⟩ := h id sampleNav (fun _ => plainAttrs) _ _ _ _ _ 6 6 hspan e (by
    rw [hsub]; exact script_fits)
  refine ⟨runs, shared, h1, ?_⟩
  obtain ⟨r, hr, f, hw, hx, hy⟩ := h4 3 5 (by omega) (by omega)
  refine ⟨r, hr, f, hw, ?_, ?_⟩
  · convert hx using 1; norm_num
  · convert hy using 1; norm_num

end Verif.Props
