import Verif.Props.CoarseFiles
import Verif.Props.Failure

/-!
# Tiles that are too small to be written: C169

The writer infers the scene from the first two columns and from the rows of an image.  Here it is shown that a call for the
fixed grid succeeds, for any files that can be gridded, exactly if every tile has at least two columns and one row.
-/

namespace Verif.Props

open Verif.Py Verif.Model Verif.Spec Verif.Proofs

/-! ## What a run has written -/

/-- Gridding keeps the edges of the grid. -/
theorem lut_edges_kept {env : Surroundings} {rev : Val} {proc : Dict} {files : List GFile} :
    ∀ {s t : TileState × Bool}, processFiles (lutGridder env) rev proc s files = .ok t →
      t.1.xedge = s.1.xedge ∧ t.1.yedge = s.1.yedge := by
  induction files with
  | nil => intro s t h; cases h; exact ⟨rfl, rfl⟩
  | cons f rest ih =>
    rintro ⟨s, b⟩ t h
    rw [processFiles] at h
    simp only [bind, Except.bind] at h
    cases hd : (lutGridder env).openFile rev f with
    | error e => rw [hd] at h; cases h
    | ok d =>
      rw [hd] at h
      simp only at h
      by_cases hl : d.events.length > 0
      · rw [if_pos hl] at h
        cases hp : (lutGridder env).process s proc d with
        | error e => rw [hp] at h; cases h
        | ok s' =>
          rw [hp] at h
          obtain ⟨h1, h2⟩ := ih h
          have hk : s'.xedge = s.xedge ∧ s'.yedge = s.yedge := by
            have hp : lutProcess env s proc d = .ok s' := hp
            unfold lutProcess at hp
            obtain ⟨_, -, hp⟩ := bind_ok hp
            obtain ⟨_, -, hp⟩ := bind_ok hp
            cases hp
            exact ⟨rfl, rfl⟩
          exact ⟨h1.trans hk.1, h2.trans hk.2⟩
      · rw [if_neg hl] at h
        exact ih h

/-- Images that have been written have at least two columns and one row. -/
theorem lut_written_size {env : Surroundings} {s : TileState} {out : Dict} {pad : PySlice × PySlice} {scale : Val}
    {w : List (String × ImageFile)} (h : (lutGridder env).write s out (.slices pad.1 pad.2) scale = .ok w) :
    2 ≤ (pad.1.apply (cellCentres s.xedge)).length ∧ 1 ≤ (pad.2.apply (cellCentres s.yedge)).length := by
  have h : (do let files ← lutImages env s out (.slices pad.1 pad.2) scale
               pure (files.map fun (f : ImageFile) => (f.name, f))) = .ok w := h
  obtain ⟨files, h, -⟩ := bind_ok h
  unfold lutImages at h
  obtain ⟨_, -, h⟩ := bind_ok h
  obtain ⟨grids, -, h⟩ := bind_ok h
  obtain ⟨⟨fs, g'⟩, hw, h⟩ := bind_ok h
  obtain ⟨-, -, -, hl, hf⟩ := writeImagery_ok hw
  obtain ⟨f, hf0⟩ : ∃ f, fs[0]? = some f := ⟨_, List.getElem?_eq_getElem (by rw [hl]; exact Nat.zero_lt_one)⟩
  obtain ⟨-, -, -, e1, e2, e3, -⟩ := hf 0 f hf0
  have e1 : f.x = pad.1.apply (cellCentres s.xedge) := e1
  have e2 : f.y = (pad.2.apply (cellCentres s.yedge)).reverse := e2
  rw [← e1, ← List.length_reverse (as := pad.2.apply (cellCentres s.yedge)), ← e2]
  by_contra hn
  obtain ⟨e, he⟩ := (C44_exact _ _ _).2 hn
  rw [he] at e3
  cases e3

/-! ## The tiles of a call -/

theorem tileStart_first (M s : Nat) (hs : 0 < s) : tileStart M s 0 = 0 ∧ tileStart M s 1 = M / s := by
  unfold tileStart
  refine ⟨by rw [if_pos hs, Nat.zero_mul], ?_⟩
  split
  · rw [Nat.one_mul]
  · obtain rfl : s = 1 := by omega
    rw [Nat.div_one]

/-- The first tile of a call for the fixed grid, if its run succeeds, has at least two columns and one row. -/
theorem first_tile {env : Surroundings} {kw : Dict} {xlo ylo dx dy : Rat} {M N s : Nat} {me mg : Option Int}
    {files : List GFile}
    (hkw : FixedGridAsked kw xlo ylo dx dy M N s me mg) (hdx : 0 < dx) (hdy : 0 < dy) (hs : 0 < s)
    (hedges : MakesEdges env.edges) {gs : List Subgrid} (hgs : subgridsFor (splitKwargs kw) = .ok gs) :
    ∃ g rest, gs = g :: rest ∧ ∀ sh r sh', procEachGrid (lutGridder env) files sh g = .ok (r, sh') → 2 * s ≤ M ∧ s ≤ N := by
  have hp0 : (0 : Rat) ≤ defaultPad := by norm_num [defaultPad]
  have hk : ∀ k, k ∉ procKeys → k ∉ outKeys → k ≠ "do_3d" → k ≠ "subdivide" →
      k ≠ "event_grid_area_fraction_key" → (splitKwargs kw).kwargs.get k = kw.get k :=
    fun k a b c d e => split_kwargs kw k a b c d e
  have kx := (hk "x_bnd" (by decide) (by decide) (by decide) (by decide) (by decide)).trans hkw.x
  have ky := (hk "y_bnd" (by decide) (by decide) (by decide) (by decide) (by decide)).trans hkw.y
  have kdx := (hk "dx" (by decide) (by decide) (by decide) (by decide) (by decide)).trans hkw.xBox
  have kdy := (hk "dy" (by decide) (by decide) (by decide) (by decide) (by decide)).trans hkw.yBox
  have hsub : subdividedOptions (splitKwargs kw).kwargs (splitKwargs kw).proc (splitKwargs kw).out s = .ok gs := by
    obtain ⟨pn, hpn⟩ := hkw.proj
    have hpn' := (hk "proj_name" (by decide) (by decide) (by decide) (by decide) (by decide)).trans hpn
    have hfx : (splitKwargs kw).proc.has "fixed_grid" = true :=
      (Dict.has_congr (split_proc kw _ (by decide))).trans hkw.fixed.2
    have hss : (splitKwargs kw).subdivide = .nat s := by
      rw [split_subdivide]
      rcases hkw.subdivide with h | ⟨h, rfl⟩
      · exact optionOr_ok h
      · exact optionOr_error h
    unfold subgridsFor at hgs
    rw [hpn'] at hgs
    simp only [bind, Except.bind] at hgs
    rw [if_neg (by rintro rfl; exact hkw.fixed.1 hpn), hfx, if_pos rfl, hss] at hgs
    exact hgs
  obtain ⟨tiles, htiles, hopts⟩ : ∃ tiles, subdividedFixedGrid (xlo, xlo + M * dx) (ylo, ylo + N * dy) dx dy s defaultPad
      defaultPad = .ok tiles ∧ tiles.mapM (tileOptions (splitKwargs kw).kwargs (splitKwargs kw).proc (splitKwargs kw).out) =
        .ok gs := by
    unfold subdividedOptions at hsub
    simp only [kx, ky, kdx, kdy, bind, Except.bind, Val.asNum, Val.asBnd] at hsub
    cases ht : subdividedFixedGrid (xlo, xlo + M * dx) (ylo, ylo + N * dy) dx dy s defaultPad defaultPad with
    | error e => rw [ht] at hsub; cases hsub
    | ok tiles =>
      rw [ht] at hsub
      simp only at hsub
      split at hsub
      · cases hsub
      · exact ⟨tiles, rfl, hsub⟩
  have hopts := mapM_ok_forall₂ hopts
  -- the first tile
  obtain ⟨s', hs'⟩ : ∃ s', s = s' + 1 := ⟨s - 1, by omega⟩
  obtain ⟨t, tiles, rfl, htij⟩ : ∃ t rest, tiles = t :: rest ∧ t.ij = (0, 0) := by
    have hij := tiles_ij htiles
    rw [hs'] at hij
    cases tiles with
    | nil => simp [List.range_succ_eq_map] at hij
    | cons t rest =>
      simp only [List.range_succ_eq_map, List.map_cons, List.flatMap_cons, List.cons_append] at hij
      exact ⟨t, rest, rfl, (List.cons.inj hij).1⟩
  have ht : t ∈ t :: tiles := List.mem_cons_self
  cases hopts with
  | cons hto hrest =>
  rename_i g rest
  refine ⟨g, rest, rfl, fun sh1 r sh2 hrun => ?_⟩
  obtain ⟨w, wpre, wkw⟩ : ∃ w, g.preprocess = some (t.pads, w) ∧
      g.kwargs = ((splitKwargs kw).kwargs.put "x_bnd" (.bnd t.xBnd.1 t.xBnd.2)).put "y_bnd" (.bnd t.yBnd.1 t.yBnd.2) := by
    have hto := hto
    unfold tileOptions at hto
    obtain ⟨_, -, hto⟩ := bind_ok hto
    obtain ⟨w, -, hto⟩ := bind_ok hto
    cases hto
    exact ⟨w, rfl, rfl⟩
  have hinit : (lutGridder env).init g.kwargs = ⟨env.edges t.xBnd dx, env.edges t.yBnd dy, []⟩ := by
    show TileState.mk (gridderEdges env.edges g.kwargs "x_bnd" "dx") (gridderEdges env.edges g.kwargs "y_bnd" "dy") [] = _
    have a1 : argOf g.kwargs "x_bnd" = .bnd t.xBnd.1 t.xBnd.2 :=
      argOf_ok (by rw [wkw, Dict.get_put_ne _ _ (by decide), Dict.get_put_same])
    have a2 : argOf g.kwargs "y_bnd" = .bnd t.yBnd.1 t.yBnd.2 := argOf_ok (by rw [wkw, Dict.get_put_same])
    have a3 : argOf g.kwargs "dx" = .num dx :=
      argOf_ok (by rw [wkw, Dict.get_put_ne _ _ (by decide), Dict.get_put_ne _ _ (by decide), kdx])
    have a4 : argOf g.kwargs "dy" = .num dy :=
      argOf_ok (by rw [wkw, Dict.get_put_ne _ _ (by decide), Dict.get_put_ne _ _ (by decide), kdy])
    unfold gridderEdges
    rw [a1, a2, a3, a4]
    rfl
  obtain ⟨-, -, -, -, r5, -, r7, -⟩ := procEachGrid_ok hrun
  obtain ⟨rev, -, hproc⟩ := procEachGrid_state hrun
  obtain ⟨ex, ey⟩ := lut_edges_kept hproc
  rw [hinit] at ex ey
  rw [wpre] at r5
  rw [r5] at r7
  have size := lut_written_size (pad := getPadSlices t.pads) r7
  rw [ex, ey] at size
  obtain ⟨i1, i2, tx, ty, tp⟩ := tile_shape hs hdx hdy hp0 hp0 htiles ht
  rw [htij, (tileStart_first M s hs).1, (tileStart_first M s hs).2] at tx
  rw [htij, (tileStart_first N s hs).1, (tileStart_first N s hs).2] at ty
  have sx : ((getPadSlices t.pads).1.apply (cellCentres (env.edges t.xBnd dx))).length = M / s := by
    rw [tp, tx]
    refine (congrArg List.length (?_ : _ = boxCentres xlo dx 0 (M / s))).trans (by rw [boxCentres_length, Nat.sub_zero])
    exact trim_axis env.edges hedges xlo dx 0 (M / s) _ (Nat.zero_le _) hdx
  have sy : ((getPadSlices t.pads).2.apply (cellCentres (env.edges t.yBnd dy))).length = N / s := by
    rw [tp, ty]
    refine (congrArg List.length (?_ : _ = boxCentres ylo dy 0 (N / s))).trans (by rw [boxCentres_length, Nat.sub_zero])
    exact trim_axis env.edges hedges ylo dy 0 (N / s) _ (Nat.zero_le _) hdy
  rw [sx, sy] at size
  exact ⟨(Nat.le_div_iff_mul_le hs).mp size.1, by simpa using (Nat.le_div_iff_mul_le hs).mp size.2⟩

/-- **C169**: a call for the fixed grid that succeeds has tiles of at least two columns and one row. -/
theorem C169_only_if {env : Surroundings} {kw shared sh : Dict} {xlo ylo dx dy : Rat} {M N s : Nat} {me mg : Option Int}
    {files : List GFile} {runs : List (TileRun TileState ImageFile)}
    (hkw : FixedGridAsked kw xlo ylo dx dy M N s me mg) (hdx : 0 < dx) (hdy : 0 < dy) (hs : 0 < s)
    (hedges : MakesEdges env.edges) (hr : gridGlmFlashes (lutGridder env) files kw shared = .ok (runs, sh)) :
    2 * s ≤ M ∧ s ≤ N := by
  obtain ⟨gs, hgs, hall⟩ := gridGlm_ok hr
  obtain ⟨g, rest, rfl, h⟩ := first_tile (env := env) (files := files) hkw hdx hdy hs hedges hgs
  obtain ⟨r, sh1, rs, hrun, -⟩ := procAll_cons_ok hall
  exact h _ _ _ hrun

/-- **C169**: a call for tiles that are too small ends with an exception, and has written nothing. -/
theorem C169_nothing_written {env : Surroundings} {kw : Dict} (shared : Dict) {xlo ylo dx dy : Rat} {M N s : Nat}
    {me mg : Option Int} (files : List GFile) (hkw : FixedGridAsked kw xlo ylo dx dy M N s me mg) (hdx : 0 < dx)
    (hdy : 0 < dy) (hs : 0 < s) (hedges : MakesEdges env.edges) (hsmall : ¬ (2 * s ≤ M ∧ s ≤ N)) :
    ∃ e, callTrace (lutGridder env) files kw shared = ([], some e) := by
  unfold callTrace
  cases hgs : subgridsFor (splitKwargs kw) with
  | error e => exact ⟨e, rfl⟩
  | ok gs =>
    obtain ⟨g, rest, rfl, h⟩ := first_tile (env := env) (files := files) hkw hdx hdy hs hedges hgs
    simp only
    unfold procTrace
    cases hp : procEachGrid (lutGridder env) files shared g with
    | error e => exact ⟨e, rfl⟩
    | ok r => exact absurd (h shared r.1 r.2 hp) hsmall

/-- A call for files with flashes, footprints and boxes of any size, without a condition on the tiles. -/
structure AnyTiles (env : Surroundings) (order : List Int → List Int) (nav : Rat → Rat → Rat × Rat) (kw : Dict)
    (xlo ylo dx dy : Rat) (M N s : Nat) (me mg : Option Int) (files : List GFile) : Prop where
  asked : FixedGridAsked kw xlo ylo dx dy M N s me mg
  xPos : 0 < dx
  yPos : 0 < dy
  tiles : 0 < s
  edges : MakesEdges env.edges
  clip : env.clip = convexClip
  sets : ∀ l, (env.order l).Perm l
  ids : ∀ l, (order l).Perm l
  opens : env.openFile = fun _ d => openDataset order nav true true d
  some : files ≠ []
  fit : ∀ d ∈ files, AnyFit env.foot env.loc nav d

/-- **C169**: a call for files that can be gridded succeeds exactly if the tiles have at least two columns and one row. -/
theorem C169_iff {env : Surroundings} {order : List Int → List Int} {nav : Rat → Rat → Rat × Rat} {kw shared : Dict}
    {xlo ylo dx dy : Rat} {M N s : Nat} {me mg : Option Int} {files : List GFile}
    (h : AnyTiles env order nav kw xlo ylo dx dy M N s me mg files) :
    (∃ runs sh, gridGlmFlashes (lutGridder env) files kw shared = .ok (runs, sh)) ↔ 2 ≤ M / s ∧ 1 ≤ N / s := by
  rw [Nat.le_div_iff_mul_le h.tiles, Nat.le_div_iff_mul_le h.tiles, Nat.one_mul]
  constructor
  · rintro ⟨runs, sh, hr⟩
    exact C169_only_if h.asked h.xPos h.yPos h.tiles h.edges hr
  · rintro ⟨h1, h2⟩
    obtain ⟨runs, sh, hr, -⟩ := C168_files_succeed shared (env := env) (order := order) (nav := nav) (kw := kw) (xlo := xlo)
      (ylo := ylo) (dx := dx) (dy := dy) (M := M) (N := N) (s := s) (me := me) (mg := mg) (files := files)
      ⟨h.asked, h.xPos, h.yPos, h.tiles, h1, h2, h.edges, h.clip, h.sets, h.ids, h.opens, h.some, h.fit⟩
    exact ⟨runs, sh, hr⟩

/-- **C169**, in full: a call for files that can be gridded succeeds for every domain of at least as many boxes as tiles in
each direction. -/
def C169_full : Prop :=
  ∀ (env : Surroundings) (order : List Int → List Int) (nav : Rat → Rat → Rat × Rat) (kw shared : Dict)
    (xlo ylo dx dy : Rat) (M N s : Nat) (me mg : Option Int) (files : List GFile),
    AnyTiles env order nav kw xlo ylo dx dy M N s me mg files → s ≤ M → s ≤ N →
    ∃ runs sh, gridGlmFlashes (lutGridder env) files kw shared = .ok (runs, sh)

/-! ### Sample -/

/-- A call for two by two boxes in four tiles. -/
def oneBoxTiles : Dict :=
  [("proj_name", .str "geos"), ("fixed_grid", .bool true), ("dx", .num (1/200)), ("dy", .num (1/200)),
   ("x_bnd", .bnd 0 (2/200)), ("y_bnd", .bnd 0 (2/200)), ("subdivide", .nat 2), ("clip_events", .bool true),
   ("ellipse_rev", .nat 1), ("nadir_lon", .num (-75)), ("output_filename_prefix", .str "GLM"),
   ("output_writer", .function "write_cf_netcdf"), ("min_points_per_flash", .nat 1)]

theorem oneBoxTiles_any :
    AnyTiles plainEnv id sampleNav oneBoxTiles 0 0 (1/200) (1/200) 2 2 2 (some 1) none [seamPlain] :=
  { asked :=
      { proj := ⟨_, rfl⟩
        fixed := ⟨by decide +kernel, by decide +kernel⟩
        xBox := rfl
        yBox := rfl
        x := by decide +kernel
        y := by decide +kernel
        subdivide := Or.inl rfl
        given := by decide +kernel
        minEvents := Or.inl ⟨1, rfl, rfl⟩
        minGroups := Or.inr ⟨Or.inr rfl, rfl⟩ }
    xPos := seamPlain_call.xPos
    yPos := seamPlain_call.yPos
    tiles := by omega
    edges := seamPlain_call.edges
    clip := seamPlain_call.clip
    sets := seamPlain_call.sets
    ids := seamPlain_call.ids
    opens := seamPlain_call.opens
    some := seamPlain_call.some
    fit := seamPlain_call.fit }

/-- Tiles of one column cannot be written. -/
theorem C169_full_false : ¬ C169_full := by
  intro h
  obtain ⟨runs, sh, hr⟩ := h _ _ _ _ [] _ _ _ _ _ _ _ _ _ _ oneBoxTiles_any (by omega) (by omega)
  have := (C169_iff oneBoxTiles_any).mp ⟨runs, sh, hr⟩
  omega

/-- `C169_nothing_written` applies to the sample. -/
example : ∃ e, callTrace (lutGridder plainEnv) [seamPlain] oneBoxTiles [] = ([], some e) :=
  C169_nothing_written [] [seamPlain] oneBoxTiles_any.asked oneBoxTiles_any.xPos oneBoxTiles_any.yPos oneBoxTiles_any.tiles
    oneBoxTiles_any.edges (by omega)

/-- The call of C168 is one that succeeds. -/
example : ∃ runs sh, gridGlmFlashes (lutGridder plainEnv) [seamPlain] largeBoxCall [] = .ok (runs, sh) :=
  (C169_iff (⟨seamPlain_call.asked, seamPlain_call.xPos, seamPlain_call.yPos, seamPlain_call.tiles, seamPlain_call.edges,
    seamPlain_call.clip, seamPlain_call.sets, seamPlain_call.ids, seamPlain_call.opens, seamPlain_call.some,
    seamPlain_call.fit⟩ : AnyTiles plainEnv id sampleNav largeBoxCall 0 0 (1/200) (1/200) 4 2 2 (some 1) none [seamPlain])).mpr
    ⟨by decide, by decide⟩

end Verif.Props
