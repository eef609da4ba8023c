import Verif.Props.Setup
import Verif.Props.Tiles
import Verif.Props.Dataset

/-!
# C83, C84: what the command line program grids
-/

namespace Verif.Props

open Verif.Py Verif.Model Verif.Spec Verif.Proofs

variable {σ ι : Type}

/-! ## C84: thresholds -/

/-- C84: leaving out the check for thresholds up to one, as the program does, makes no difference: the
same data set is selected. -/
theorem C84_thresholds (order : List Int → List Int) {d : GFile} (hd : Derived d) (c : Criteria)
    (minEvents minGroups : Int) :
    subsetFlashes order d { c with minEvents := threshold minEvents, minGroups := threshold minGroups }
        true =
      subsetFlashes order d { c with minEvents := some minEvents, minGroups := some minGroups } true := by
  unfold subsetFlashes
  simp only [if_true, bind, Except.bind, pure, Except.pure]
  congr 2
  apply List.Perm.eq_of_pairwise (le := (· ≤ ·))
  · intro a b _ _ h1 h2; exact le_antisymm h1 h2
  · exact (npUnique_sorted_le _).filter _
  · exact (npUnique_sorted_le _).filter _
  · apply (List.perm_ext_iff_of_nodup ((npUnique_nodup _).filter _) ((npUnique_nodup _).filter _)).mpr
    intro i
    simp only [List.mem_filter, mem_npUnique, List.mem_map, decide_eq_true_eq, flashMask_iff]
    constructor
    · rintro ⟨⟨f, ⟨hf, hm⟩, rfl⟩, hx⟩
      refine ⟨⟨f, ⟨hf, hm.lon, hm.lat, hm.x, hm.y, ?_, ?_⟩, rfl⟩, hx⟩
      · intro m h
        cases h
        by_cases h1 : minEvents ≤ 1
        · obtain ⟨e, he, hfe, -⟩ := (mem_checkEventXY d c f.id).mp hx
          have h2 := hd.flashOf e he
          rw [hfe] at h2
          have h3 : 0 < (d.events.filter fun e => EventOfFlash d f.id e).length :=
            List.length_pos_of_mem (List.mem_filter.mpr ⟨he, by simpa using h2⟩)
          rw [← hd.nEventsFlash f hf] at h3
          have : (1 : Int) ≤ f.val.nEvents := by exact_mod_cast h3
          omega
        · exact hm.minEvents _ (if_neg h1)
      · intro m h
        cases h
        by_cases h1 : minGroups ≤ 1
        · obtain ⟨e, he, hfe, -⟩ := (mem_checkEventXY d c f.id).mp hx
          have h2 := hd.flashOf e he
          rw [hfe] at h2
          obtain ⟨g, hg, -, hp⟩ := h2
          have h3 : 0 < (d.groups.filter fun g => g.pid = f.id).length :=
            List.length_pos_of_mem (List.mem_filter.mpr ⟨hg, by simpa using hp⟩)
          rw [← hd.nGroups f hf] at h3
          have : (1 : Int) ≤ f.val.nGroups := by exact_mod_cast h3
          omega
        · exact hm.minGroups _ (if_neg h1)
    · rintro ⟨⟨f, ⟨hf, hm⟩, rfl⟩, hx⟩
      refine ⟨⟨f, ⟨hf, hm.lon, hm.lat, hm.x, hm.y, ?_, ?_⟩, rfl⟩, hx⟩
      · intro m h
        change threshold minEvents = some m at h
        unfold threshold at h
        split at h
        · cases h
        · cases h; exact hm.minEvents _ rfl
      · intro m h
        change threshold minGroups = some m at h
        unfold threshold at h
        split at h
        · cases h
        · cases h; exact hm.minGroups _ rfl

/-- The hypothesis is met by an opened data set, from which a threshold of two groups selects one
flash of several. -/
example : Derived openSample := openSample_derived.2.1
example : openSample.flashes.length ≠ 1 ∧
    (subsetFlashes id openSample { minGroups := threshold 2 } true).map (fun d => d.flashes.map Row.id) =
      .ok [5] := by decide +kernel

/-! ## C83 -/

/-- One tile was gridded and written as requested: the grid was made for the bounds of the tile with the
spacing of the target grid and frames of the requested length; all files were read with the requested
ellipsoid; flashes were selected with the requested thresholds (those up to one need no check, see C84)
and the bounds of the tile; and the files were written to the requested path, without the margin of the
tile. -/
structure Served (G : Gridder σ ι) (files : List GFile) (a : Args) (t : Target) (tile : Tile)
    (r : TileRun σ ι) : Prop where
  ij : r.ij = tile.ij
  lut : r.lut = true
  run : ∃ grid flash out : Dict,
    (grid.get "x_bnd" = .ok (.bnd tile.xBnd.1 tile.xBnd.2) ∧
     grid.get "y_bnd" = .ok (.bnd tile.yBnd.1 tile.yBnd.2) ∧
     grid.get "dx" = .ok (.num t.dx) ∧ grid.get "dy" = .ok (.num t.dy) ∧
     grid.get "frame_interval" = .ok (.num a.dt) ∧
     grid.get "ctr_lon" = .ok (.num t.ctrLon) ∧ grid.get "ctr_lat" = .ok (.num t.ctrLat)) ∧
    (flash.get "x_bnd" = .ok (.bnd tile.xBnd.1 tile.xBnd.2) ∧
     flash.get "y_bnd" = .ok (.bnd tile.yBnd.1 tile.yBnd.2) ∧
     flash.get "lon_bnd" = .ok .none ∧ flash.get "lat_bnd" = .ok .none ∧
     flash.get "min_points_per_flash" =
       .ok (if a.minEvents ≤ 1 then .none else .nat a.minEvents.toNat) ∧
     flash.get "min_groups_per_flash" =
       (if a.minGroups ≤ 1 then .error .keyError else .ok (.nat a.minGroups.toNat))) ∧
    processFiles G (.num a.ellipseRev) flash (G.init grid, false) files = .ok (r.state, true) ∧
    out.get "outpath" = .ok (.str a.outdir) ∧
    G.write r.state out (.slices (getPadSlices tile.pads).1 (getPadSlices tile.pads).2) r.scale = .ok r.written

theorem procEachGrid_state {G : Gridder σ ι} {files : List GFile} {shared shared' : Dict} {g : Subgrid}
    {r : TileRun σ ι} (h : procEachGrid G files shared g = .ok (r, shared')) :
    ∃ rev, g.proc.get "ellipse_rev" = .ok rev ∧
      processFiles G rev ((g.proc.del "ellipse_rev").put "clip_events" .mesh) (G.init g.kwargs, false)
        files = .ok (r.state, true) := by
  unfold procEachGrid at h
  cases he : g.proc.get "ellipse_rev" with
  | error e => rw [he] at h; cases h
  | ok rev =>
    refine ⟨rev, rfl, ?_⟩
    cases hl : (g.proc.del "ellipse_rev").has "clip_events" with
    | false => rw [he] at h; simp only [bind, Except.bind, hl] at h; cases h
    | true =>
      rw [he] at h
      simp only [bind, Except.bind, hl, if_true] at h
      cases hp : processFiles G rev ((g.proc.del "ellipse_rev").put "clip_events" .mesh)
          (G.init g.kwargs, false) files with
      | error e => rw [hp] at h; simp only [lutPipelineSetup] at h; cases h
      | ok sf =>
        obtain ⟨s, first⟩ := sf
        rw [hp] at h
        obtain ⟨o, ho⟩ : ∃ o, lutPipelineSetup = .ok o := ⟨_, rfl⟩
        rw [ho] at h
        simp only at h
        cases first with
        | false =>
          cases hpre : g.preprocess with
          | none => rw [hpre] at h; simp [writeGrids] at h
          | some p => rw [hpre] at h; simp [writeGrids] at h
        | true =>
          cases hpre : g.preprocess with
          | none =>
            rw [hpre] at h
            obtain ⟨o', e1, e2⟩ := writeGrids_ok G s g.out
              (if g.out.has "output_kwargs" = true then shared else [])
            rw [e1] at h
            cases hwr : G.write s g.out _ _ with
            | error e => rw [hwr] at h; cases h
            | ok written =>
            rw [hwr] at h
            simp only [bind, Except.bind, pure, Except.pure, Except.ok.injEq, Prod.mk.injEq] at h
            obtain ⟨rfl, rfl⟩ := h
            rfl
          | some p =>
            rw [hpre] at h
            obtain ⟨o', e1, e2⟩ := writeGrids_ok G s g.out
              ((if g.out.has "output_kwargs" = true then shared else []).put "pad"
                (.slices (getPadSlices p.1).1 (getPadSlices p.1).2))
            simp only at h
            rw [e1] at h
            cases hwr : G.write s g.out _ _ with
            | error e => rw [hwr] at h; cases h
            | ok written =>
            rw [hwr] at h
            simp only [bind, Except.bind, pure, Except.pure, Except.ok.injEq, Prod.mk.injEq] at h
            obtain ⟨rfl, rfl⟩ := h
            rfl

theorem tileOptions_all {kwargs proc out : Dict} {t : Tile} {g : Subgrid}
    (h : tileOptions kwargs proc out t = .ok g) :
    g.ij = t.ij ∧ (∃ w, g.preprocess = some (t.pads, w)) ∧
    g.kwargs = (kwargs.put "x_bnd" (.bnd t.xBnd.1 t.xBnd.2)).put "y_bnd" (.bnd t.yBnd.1 t.yBnd.2) ∧
    g.proc = (((proc.put "x_bnd" (.bnd t.xBnd.1 t.xBnd.2)).put "y_bnd"
      (.bnd t.yBnd.1 t.yBnd.2)).put "lon_bnd" .none).put "lat_bnd" .none ∧
    ∀ k, k ≠ "output_filename_prefix" → k ≠ "output_writer" → g.out.get k = out.get k := by
  have h0 := (tileOptions_ok h).1
  unfold tileOptions at h
  obtain ⟨p, -, h⟩ := bind_ok h
  obtain ⟨w, -, h⟩ := bind_ok h
  cases h
  exact ⟨rfl, ⟨w, rfl⟩, rfl, rfl, h0⟩

theorem Dict.get_append (d d' : Dict) (k : String) :
    Dict.get (d ++ d') k = if Dict.has d k then Dict.get d k else Dict.get d' k := by
  induction d with
  | nil => rfl
  | cons e d ih =>
    rw [List.cons_append, Dict.get_cons, Dict.get_cons, ih]
    by_cases h : e.1 = k
    · simp [h, Dict.has]
    · have : Dict.has (e :: d) k = Dict.has d k := by
        unfold Dict.has
        rw [List.any_cons]
        simp [h]
      rw [this, if_neg h, if_neg h]

theorem Dict.has_false_of_keys {d : Dict} {k : String} (h : k ∉ d.map Prod.fst) : Dict.has d k = false := by
  unfold Dict.has
  rw [List.any_eq_false]
  intro e he
  simp only [beq_iff_eq]
  rintro rfl
  exact h (List.mem_map.mpr ⟨e, he, rfl⟩)

theorem gridKwargs_groups (a : Args) (date : DateTime) (t : Target) :
    (gridKwargs a date t).get "min_groups_per_flash" =
      (if a.minGroups ≤ 1 then .error .keyError else .ok (.nat a.minGroups.toNat)) := by
  unfold gridKwargs thresholdVal threshold
  by_cases h : a.minGroups ≤ 1
  · simp only [h, if_true]
    cases t.nadirLon <;> cases a.splitEvents <;> cases a.fixedGrid <;> simp [Dict.get_cons, Dict.get_nil]
  · simp only [h, if_false]
    cases t.nadirLon <;> cases a.splitEvents <;> cases a.fixedGrid <;> simp [Dict.get_cons]

theorem gridKwargs_values (a : Args) (date : DateTime) (t : Target) :
    let kw := gridKwargs a date t
    kw.get "x_bnd" = .ok (.bnd t.xBnd.1 t.xBnd.2) ∧ kw.get "y_bnd" = .ok (.bnd t.yBnd.1 t.yBnd.2) ∧
    kw.get "dx" = .ok (.num t.dx) ∧ kw.get "dy" = .ok (.num t.dy) ∧
    kw.get "frame_interval" = .ok (.num a.dt) ∧ kw.get "ctr_lon" = .ok (.num t.ctrLon) ∧
    kw.get "ctr_lat" = .ok (.num t.ctrLat) ∧ kw.get "outpath" = .ok (.str a.outdir) ∧
    kw.get "subdivide" = .ok (.nat a.subdivide) ∧
    kw.get "min_points_per_flash" = .ok (if a.minEvents ≤ 1 then .none else .nat a.minEvents.toNat) ∧
    kw.get "proj_name" = .ok (.str (if a.fixedGrid then "geos" else "latlong")) := by
  have hm : thresholdVal a.minEvents = if a.minEvents ≤ 1 then .none else .nat a.minEvents.toNat := by
    unfold thresholdVal threshold
    by_cases h : a.minEvents ≤ 1 <;> simp [h]
  unfold gridKwargs
  rw [hm]
  refine ⟨?_, ?_, ?_, ?_, ?_, ?_, ?_, ?_, ?_, ?_, ?_⟩ <;> simp [Dict.get_cons]

theorem gridKwargs_ellipse (a : Args) (date : DateTime) (t : Target) :
    (gridKwargs a date t).get "ellipse_rev" = .ok (.num a.ellipseRev) := by
  unfold gridKwargs
  cases t.nadirLon <;> cases a.splitEvents <;> cases a.fixedGrid <;> cases threshold a.minGroups <;>
    simp [Dict.get_cons]

theorem gridKwargs_fixed (a : Args) (date : DateTime) (t : Target) :
    (gridKwargs a date t).has "fixed_grid" = t.nadirLon.isSome := by
  unfold gridKwargs
  cases t.nadirLon <;> cases a.splitEvents <;> cases a.fixedGrid <;> cases threshold a.minGroups <;>
    simp [Dict.has]

theorem forall₂_trans {α β γ : Type} {R : α → β → Prop} {S : β → γ → Prop} {l : List α} {m : List β}
    {n : List γ} (h1 : List.Forall₂ R l m) (h2 : List.Forall₂ S m n) :
    List.Forall₂ (fun a c => ∃ b, R a b ∧ S b c) l n := by
  induction h1 generalizing n with
  | nil => cases h2; exact .nil
  | cons h _ ih =>
    cases h2 with
    | cons h' t' => exact .cons ⟨_, h, h'⟩ (ih t')

/-- C49 for the program: the first tile is written as requested, all others with scaled integers; one tile is written
as requested. -/
theorem C49_program (lib : Lmatools) (G : DateTime → DateTime → Gridder σ ι) (read : Text → GFile) (a : Args)
    (runs : List (TileRun σ ι)) (shared : Dict) (hrun : mainProgram lib G read a = .ok (runs, shared)) (k : Nat)
    (r : TileRun σ ι) (hr : runs[k]? = some r) :
    r.scale = .bool (if k = 0 then a.scaleAndOffset else true) := by
  unfold mainProgram gridSetup at hrun
  obtain ⟨setup, hsetup, hrun⟩ := bind_ok hrun
  obtain ⟨span, hspan, hsetup⟩ := bind_ok hsetup
  obtain ⟨t, ht, hsetup⟩ := bind_ok hsetup
  cases hsetup
  have := ((C49_exact _ _ _ _ _ _ hrun).1 (by
    unfold gridKwargs
    simp only [Dict.has_append]
    simp [Dict.has])).1 k r hr
  simp only at this
  have he : optionOr [("scale_and_offset", Val.bool a.scaleAndOffset)] "scale_and_offset" (Val.bool true) =
      .bool a.scaleAndOffset := optionOr_ok (by simp [Dict.get_cons])
  rw [this, he]
  split <;> rfl

/-- C83: a run of the program on the fixed grid makes `subdivide` by `subdivide` tiles that together are
the target grid, each as requested. -/
theorem C83_fixed (lib : Lmatools) (G : DateTime → DateTime → Gridder σ ι) (read : Text → GFile) (a : Args) (t : Target)
    (runs : List (TileRun σ ι)) (shared : Dict) (hf : a.fixedGrid = true)
    (ht : targetGrid lib a = .ok t) (hrun : mainProgram lib G read a = .ok (runs, shared))
    (edges : Rat × Rat → Rat → List Rat) (he : MakesEdges edges) (M N : Nat)
    (hdx : 0 < t.dx) (hdy : 0 < t.dy) (hs : 0 < a.subdivide)
    (hx : t.xBnd.2 = t.xBnd.1 + M * t.dx) (hy : t.yBnd.2 = t.yBnd.1 + N * t.dy) :
    ∃ span, timeSpan a.filenames a.start a.stop = .ok span ∧ ∃ tiles : List Tile,
      tiles.map Tile.ij =
        (List.range a.subdivide).flatMap (fun i => (List.range a.subdivide).map fun j => (i, j)) ∧
      List.Forall₂ (Served (G span.1 span.2) (a.filenames.map read) a t) tiles runs ∧
      ∃ tile : Nat → Nat → Tile,
        (∀ i < a.subdivide, ∀ j < a.subdivide, tile i j ∈ tiles ∧ (tile i j).ij = (i, j)) ∧
        (∀ j < a.subdivide,
          ((List.range a.subdivide).flatMap fun i => (tileCoords edges t.dx t.dy (tile i j)).1) =
            (List.range M).map fun k : Nat => t.xBnd.1 + (k + 1 / 2) * t.dx) ∧
        ∀ i < a.subdivide,
          ((List.range a.subdivide).flatMap fun j => (tileCoords edges t.dx t.dy (tile i j)).2) =
            (List.range N).map fun k : Nat => t.yBnd.1 + (k + 1 / 2) * t.dy := by
  unfold mainProgram gridSetup at hrun
  obtain ⟨setup, hsetup, hrun⟩ := bind_ok hrun
  obtain ⟨span, hspan, hsetup⟩ := bind_ok hsetup
  rw [ht] at hsetup
  simp only [bind, Except.bind, pure, Except.pure, Except.ok.injEq] at hsetup
  subst hsetup
  simp only at hrun
  generalize (⟨span.1.year, span.1.month, span.1.day, 0, 0, 0, 0⟩ : DateTime) = date at hrun
  obtain ⟨gs, hgs, hp⟩ := gridGlm_ok hrun
  have hrev := gridKwargs_ellipse a date t
  have hgr := gridKwargs_groups a date t
  obtain ⟨v1, v2, v3, v4, v5, v6, v7, v8, v9, v10, v11⟩ := gridKwargs_values a date t
  generalize hkw : gridKwargs a date t = kw at *
  obtain ⟨tiles, h1, h2, tile, h3, h4, h5⟩ := C69_mosaic edges he t.xBnd.1 t.yBnd.1 t.dx t.dy defaultPad
    defaultPad M N a.subdivide hs hdx hdy (by norm_num [defaultPad]) (by norm_num [defaultPad])
  rw [← hx, ← hy] at h1
  have k : ∀ k, k ∉ procKeys → k ∉ outKeys → k ≠ "do_3d" → k ≠ "subdivide" →
      k ≠ "event_grid_area_fraction_key" → (splitKwargs kw).kwargs.get k = kw.get k :=
    fun k a b c d e => split_kwargs kw k a b c d e
  have hg : tiles.mapM (tileOptions (splitKwargs kw).kwargs (splitKwargs kw).proc (splitKwargs kw).out) =
      .ok gs := by
    unfold subgridsFor at hgs
    rw [k "proj_name" (by decide) (by decide) (by decide) (by decide) (by decide), v11, hf] at hgs
    simp only [bind, Except.bind, if_true] at hgs
    rw [if_neg (by decide)] at hgs
    have hfx : (splitKwargs kw).proc.has "fixed_grid" = true := by
      rw [Dict.has_congr (split_proc kw "fixed_grid" (by decide)), ← hkw, gridKwargs_fixed]
      unfold targetGrid at ht
      rw [if_pos hf] at ht
      obtain ⟨s, -, ht⟩ := bind_ok ht
      obtain ⟨x, -, ht⟩ := bind_ok ht
      obtain ⟨y, -, ht⟩ := bind_ok ht
      cases ht
      rfl
    rw [hfx, if_pos rfl, split_subdivide, optionOr_ok v9] at hgs
    simp only [Val.asNat] at hgs
    unfold subdividedOptions at hgs
    rw [k "dx" (by decide) (by decide) (by decide) (by decide) (by decide), v3,
      k "dy" (by decide) (by decide) (by decide) (by decide) (by decide), v4,
      k "x_bnd" (by decide) (by decide) (by decide) (by decide) (by decide), v1,
      k "y_bnd" (by decide) (by decide) (by decide) (by decide) (by decide), v2] at hgs
    simp only [bind, Except.bind, Val.asNum, Val.asBnd, Prod.mk.eta, h1] at hgs
    split at hgs
    · cases hgs
    · exact hgs
  refine ⟨span, hspan, tiles, h2, ?_, tile, h3, ?_, ?_⟩
  · refine (forall₂_trans (mapM_ok_forall₂ hg) (procAll_forall₂ hp)).imp ?_
    rintro ti r ⟨g, hgt, sh, sh', hr⟩
    obtain ⟨o1, ⟨w, o2⟩, o3, o4, o5⟩ := tileOptions_all hgt
    obtain ⟨e1, e2, -, -, e3, -, e4, -⟩ := procEachGrid_ok hr
    obtain ⟨rev, s1, s2⟩ := procEachGrid_state hr
    have hrev' : rev = .num a.ellipseRev := by
      have : g.proc.get "ellipse_rev" = .ok (.num a.ellipseRev) := by
        rw [o4]
        simp only [Dict.get_put_ne _ _ (show "ellipse_rev" ≠ "lat_bnd" by decide),
          Dict.get_put_ne _ _ (show "ellipse_rev" ≠ "lon_bnd" by decide),
          Dict.get_put_ne _ _ (show "ellipse_rev" ≠ "y_bnd" by decide),
          Dict.get_put_ne _ _ (show "ellipse_rev" ≠ "x_bnd" by decide)]
        rw [split_proc kw _ (by decide), hrev]
      rw [s1] at this
      exact Except.ok.inj this
    subst hrev'
    have kk : ∀ key, key ∉ procKeys → key ∉ outKeys → key ≠ "do_3d" → key ≠ "subdivide" →
        key ≠ "event_grid_area_fraction_key" → key ≠ "x_bnd" → key ≠ "y_bnd" →
        g.kwargs.get key = kw.get key := by
      intro key q1 q2 q3 q4 q5 q6 q7
      rw [o3, Dict.get_put_ne _ _ q7, Dict.get_put_ne _ _ q6, k key q1 q2 q3 q4 q5]
    refine ⟨e1.trans o1, e2, g.kwargs, _, g.out, ⟨?_, ?_, ?_, ?_, ?_, ?_, ?_⟩, ⟨?_, ?_, ?_, ?_, ?_, ?_⟩, s2,
      ?_, ?_⟩
    · rw [o3, Dict.get_put_ne _ _ (by decide), Dict.get_put_same]
    · rw [o3, Dict.get_put_same]
    · rw [kk _ (by decide) (by decide) (by decide) (by decide) (by decide) (by decide) (by decide), v3]
    · rw [kk _ (by decide) (by decide) (by decide) (by decide) (by decide) (by decide) (by decide), v4]
    · rw [kk _ (by decide) (by decide) (by decide) (by decide) (by decide) (by decide) (by decide), v5]
    · rw [kk _ (by decide) (by decide) (by decide) (by decide) (by decide) (by decide) (by decide), v6]
    · rw [kk _ (by decide) (by decide) (by decide) (by decide) (by decide) (by decide) (by decide), v7]
    · rw [o4]; simp [Dict.get_put, Dict.get_del]
    · rw [o4]; simp [Dict.get_put, Dict.get_del]
    · rw [o4]; simp [Dict.get_put, Dict.get_del]
    · rw [o4]; simp [Dict.get_put, Dict.get_del]
    · rw [o4]
      simp only [Dict.get_put, Dict.get_del]
      simp only [String.reduceEq, if_false]
      rw [split_proc kw _ (by decide), v10]
    · rw [o4]
      simp only [Dict.get_put, Dict.get_del]
      simp only [String.reduceEq, if_false]
      rw [split_proc kw _ (by decide), hgr]
    · rw [o5 _ (by decide) (by decide), split_out kw _ (by decide), v8]
    · rw [← e4, e3, o2]
  · intro j hj
    rw [h4 j hj, he _ _ _ hdx, centres_boxEdges]
  · intro i hi
    rw [h5 i hi, he _ _ _ hdy, centres_boxEdges]

/-- C83 for a custom grid: with `nx` cells of the requested width fitting into the requested width and
`ny` into the requested height, the tiles together have `nx` by `ny` cells, evenly spaced and symmetric
about the requested centre. -/
theorem C83_custom (lib : Lmatools) (G : DateTime → DateTime → Gridder σ ι) (read : Text → GFile) (a : Args)
    (runs : List (TileRun σ ι)) (shared : Dict) (view : View) (lon lat : Rat) (nx ny : Nat)
    (hf : a.fixedGrid = true) (hp : a.goesPosition ≠ "none") (hs : a.goesSector = "none")
    (hlon : a.ctrLon = some lon) (hlat : a.ctrLat = some lat)
    (hview : lib.grid a.goesPosition "full" "1.0km" = .ok view) (hres : 0 < view.resolution)
    (hdx : 0 < a.dx) (hdy : 0 < a.dy) (hsub : 0 < a.subdivide)
    (hw : nx * a.dx ≤ a.width ∧ a.width < (nx + 1) * a.dx)
    (hh : ny * a.dy ≤ a.height ∧ a.height < (ny + 1) * a.dy)
    (hrun : mainProgram lib G read a = .ok (runs, shared))
    (edges : Rat × Rat → Rat → List Rat) (he : MakesEdges edges) :
    ∃ t : Target, t.dx = a.dx * view.resolution ∧ t.dy = a.dy * view.resolution ∧
    ∃ span, timeSpan a.filenames a.start a.stop = .ok span ∧ ∃ tiles : List Tile,
      tiles.map Tile.ij =
        (List.range a.subdivide).flatMap (fun i => (List.range a.subdivide).map fun j => (i, j)) ∧
      List.Forall₂ (Served (G span.1 span.2) (a.filenames.map read) a t) tiles runs ∧
      ∃ tile : Nat → Nat → Tile,
        (∀ i < a.subdivide, ∀ j < a.subdivide, tile i j ∈ tiles ∧ (tile i j).ij = (i, j)) ∧
        (∀ j < a.subdivide,
          ((List.range a.subdivide).flatMap fun i => (tileCoords edges t.dx t.dy (tile i j)).1) =
            (List.range nx).map fun k : Nat =>
              (lib.toFixedGrid view.nadirLon lon lat).1 + (k - (nx - 1 : Rat) / 2) * t.dx) ∧
        ∀ i < a.subdivide,
          ((List.range a.subdivide).flatMap fun j => (tileCoords edges t.dx t.dy (tile i j)).2) =
            (List.range ny).map fun k : Nat =>
              (lib.toFixedGrid view.nadirLon lon lat).2 + (k - (ny - 1 : Rat) / 2) * t.dy := by
  obtain ⟨t, t1, -, t2, t3, cx, cy, t4, t5, t6, -⟩ := C62_custom lib a view lon lat nx ny hf hp hs hlon hlat
    hview hres.le hdx hdy hw hh
  have px : 0 < t.dx := by rw [t2]; exact mul_pos hdx hres
  have py : 0 < t.dy := by rw [t3]; exact mul_pos hdy hres
  obtain ⟨span, a0, tiles, a1, a2, tile, a3, a4, a5⟩ := C83_fixed lib G read a t runs shared hf t1 hrun edges he nx ny
    px py hsub (by rw [t5]; ring) (by rw [t6]; ring)
  refine ⟨t, t2, t3, span, a0, tiles, a1, a2, tile, a3, ?_, ?_⟩
  · intro j hj
    rw [a4 j hj, t4, t5]
    apply List.map_congr_left
    intro k _
    ring
  · intro i hi
    rw [a5 i hi, t4, t6]
    apply List.map_congr_left
    intro k _
    ring

theorem targetGrid_subdivide (lib : Lmatools) (a : Args) (n : Nat) :
    targetGrid lib { a with subdivide := n } = targetGrid lib a := rfl

/-- The hypotheses are met: a run with two files, in nine tiles of a grid with 133 by 100 cells. -/
example : ∃ a runs shared, a.subdivide = 3 ∧
    mainProgram toyLib (fun _ _ => toyGridder) (fun _ => sampleFile) a = .ok (runs, shared) ∧ runs.length = 9 := by
  obtain ⟨span, t, h1, h2, h3⟩ := toy_requested
  have hw : Works toyGridder (toyArgs.filenames.map fun _ => sampleFile) := works_twice toy_works
  have hv : toyLib.grid toyArgs.goesPosition "full" "1.0km" =
    .ok ⟨-75, 28/1000000, 1000, 600, some (-1/20, 1/20)⟩ := by decide +kernel
  have n1 : ((133 : Nat) : Rat) * toyArgs.dx ≤ toyArgs.width ∧
      toyArgs.width < (((133 : Nat) : Rat) + 1) * toyArgs.dx := by norm_num [toyArgs]
  have n2 : ((100 : Nat) : Rat) * toyArgs.dy ≤ toyArgs.height ∧
      toyArgs.height < (((100 : Nat) : Rat) + 1) * toyArgs.dy := by norm_num [toyArgs]
  have q1 : 0 < toyArgs.dx := by norm_num [toyArgs]
  have q2 : 0 < toyArgs.dy := by norm_num [toyArgs]
  have q3 : toyArgs.fixedGrid = true := rfl
  have q4 : toyArgs.goesPosition ≠ "none" := by decide
  have q5 : toyArgs.goesSector = "none" := rfl
  have q6 : toyArgs.ctrLon = some (-101) := rfl
  have q7 : toyArgs.ctrLat = some 33 := rfl
  have q8 : toyArgs.splitEvents = true := rfl
  generalize toyArgs = a at *
  obtain ⟨⟨runs, shared⟩, h⟩ := C82_partial toyLib (fun _ _ => toyGridder) (fun _ => sampleFile) { a with subdivide := 3 }
    span t hw h1 ((targetGrid_subdivide toyLib a 3).trans h2) ⟨h3.dx, h3.dy, Nat.succ_pos 2⟩ q8
  refine ⟨{ a with subdivide := 3 }, runs, shared, rfl, h, ?_⟩
  obtain ⟨t', -, -, span', -, tiles, a1, a2, -⟩ := C83_custom toyLib (fun _ _ => toyGridder) (fun _ => sampleFile)
    { a with subdivide := 3 } runs shared _ (-101) 33 133 100 q3 q4 q5 q6 q7 hv (by norm_num) q1 q2
    (Nat.succ_pos 2) n1 n2 h _ arange_makesEdges
  rw [← a2.length_eq, ← List.length_map (f := Tile.ij), a1]
  rfl

end Verif.Props
