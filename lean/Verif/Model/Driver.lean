import Verif.Model.Tiles
import Verif.Model.Dataset

/-!
# glmtools/grid/make_grids.py: `grid_GLM_flashes` and `proc_each_grid`

Keyword arguments are dictionaries.  The one dictionary that is shared between calls, the value of
`output_kwargs`, is a reference (`Val.shared`) to a state that is threaded through the calls.
-/

namespace Verif.Model

open Verif.Py

/-- Values of keyword arguments, as far as they matter. -/
inductive Val
  | none
  | bool (b : Bool)
  | nat (n : Nat)
  | num (q : Rat)
  | str (s : String)
  | bnd (lo hi : Rat)
  /-- a `QuadMeshSubset` of the gridder's mesh -/
  | mesh
  /-- a function, such as an output writer -/
  | function (name : String)
  | slices (x y : PySlice)
  /-- the dictionary given by the caller as `output_kwargs` -/
  | shared
  /-- any other object, by name -/
  | obj (name : String)
  deriving DecidableEq, Repr

/-- A dictionary with string keys.  Only the first entry of a key counts. -/
abbrev Dict := List (String × Val)

/-- `k in d` -/
def Dict.has (d : Dict) (k : String) : Bool := d.any fun e => e.1 == k

/-- `d[k]` -/
def Dict.get (d : Dict) (k : String) : Except Err Val :=
  match d.find? fun e => e.1 == k with
  | some e => .ok e.2
  | Option.none => .error .keyError

/-- `del d[k]`, if present -/
def Dict.del (d : Dict) (k : String) : Dict := d.filter fun e => !(e.1 == k)

/-- `d[k] = v` -/
def Dict.put (d : Dict) (k : String) (v : Val) : Dict := (k, v) :: d.del k

/-- `d.pop(k, default)`: the value and the remaining dictionary. -/
def Dict.popD (d : Dict) (k : String) (default : Val) : Val × Dict :=
  match d.get k with
  | .ok v => (v, d.del k)
  | .error _ => (default, d)

/-- `for k in keys: if k in src: dst[k] = src.pop(k)`, make_grids.py:798-803, 809-812; the pair
(dst, src). -/
def moveKeys (keys : List String) (dst src : Dict) : Dict × Dict :=
  keys.foldl (fun ds k =>
    match ds.2.get k with
    | .ok v => (ds.1.put k v, ds.2.del k)
    | .error _ => ds) (dst, src)

/-- make_grids.py:798-800 -/
def procKeys : List String :=
  ["min_points_per_flash", "min_groups_per_flash", "clip_events", "fixed_grid", "nadir_lon",
   "corner_pickle", "ellipse_rev"]

/-- make_grids.py:809-810 -/
def outKeys : List String :=
  ["outpath", "output_writer", "output_writer_3d", "output_kwargs", "output_filename_prefix"]

/-- The keyword arguments of `grid_GLM_flashes` after they have been distributed,
make_grids.py:792-812. -/
structure CallOpts where
  subdivide : Val
  kwargs : Dict
  proc : Dict
  out : Dict
  deriving DecidableEq, Repr

/-- make_grids.py:792-812. -/
def splitKwargs (kwargs : Dict) : CallOpts :=
  let sub := (kwargs.put "do_3d" (.bool false)).popD "subdivide" (.nat 1)
  let moved := moveKeys procKeys [] sub.2
  let kwargs := if moved.1.has "clip_events"
    then moved.2.put "event_grid_area_fraction_key" (.str "mesh_frac") else moved.2
  let out := moveKeys outKeys [] kwargs
  { subdivide := sub.1, kwargs := out.2, proc := moved.1, out := out.1 }

/-- One element of `subgrids`.  `preprocess` is the `GridOutputPreprocess` of the tile: its pads and
the writer it was made with. -/
structure Subgrid where
  ij : Nat × Nat
  kwargs : Dict
  proc : Dict
  out : Dict
  preprocess : Option (Pads × Val)
  deriving DecidableEq, Repr

/-- A number. -/
def Val.asNum : Val → Except Err Rat
  | .num q => .ok q
  | .nat n => .ok n
  | _ => .error .typeError

/-- Bounds. -/
def Val.asBnd : Val → Except Err (Rat × Rat)
  | .bnd lo hi => .ok (lo, hi)
  | _ => .error .typeError

/-- A number of tiles. -/
def Val.asNat : Val → Except Err Nat
  | .nat n => .ok n
  | _ => .error .typeError

/-- The default padding, make_grids.py:640: 100*28.0e-6. -/
def defaultPad : Rat := 100 * 28 / 1000000

/-- The options of one tile, make_grids.py:669-708. -/
def tileOptions (kwargs proc out : Dict) (t : Tile) : Except Err Subgrid := do
  let kwargsIJ := (kwargs.put "x_bnd" (.bnd t.xBnd.1 t.xBnd.2)).put "y_bnd" (.bnd t.yBnd.1 t.yBnd.2)
  let procIJ := (((proc.put "x_bnd" (.bnd t.xBnd.1 t.xBnd.2)).put "y_bnd"
    (.bnd t.yBnd.1 t.yBnd.2)).put "lon_bnd" .none).put "lat_bnd" .none
  -- the prefix gets the index of the tile appended; it is not read by the LUT gridder
  let _prefix ← out.get "output_filename_prefix"
  let outIJ := out.put "output_filename_prefix" (.obj "prefix with tile index")
  let writer ← outIJ.get "output_writer"
  let outIJ := outIJ.put "output_writer" (.function "capture_write_call")
  pure { ij := t.ij, kwargs := kwargsIJ, proc := procIJ, out := outIJ,
         preprocess := some (t.pads, writer) }

/-- `subdivided_fixed_grid`, make_grids.py:639-708: the options of the tiles.  The generator is run
to its end before the first tile is processed; in python the two are interleaved, but the
generator does not look at anything that processing a tile changes. -/
def subdividedOptions (kwargs proc out : Dict) (s : Nat) : Except Err (List Subgrid) := do
  let dx ← (← kwargs.get "dx").asNum
  let dy ← (← kwargs.get "dy").asNum
  let xBnd ← (← kwargs.get "x_bnd").asBnd
  let yBnd ← (← kwargs.get "y_bnd").asBnd
  let tiles ← subdividedFixedGrid xBnd yBnd dx dy s defaultPad defaultPad
  let _nadirLon ← proc.get "nadir_lon"
  tiles.mapM (tileOptions kwargs proc out)

/-- The list `subgrids`, make_grids.py:814-829. -/
def subgridsFor (c : CallOpts) : Except Err (List Subgrid) := do
  let projName ← c.kwargs.get "proj_name"
  if projName = .str "latlong" then
    let x ← c.kwargs.get "x_bnd"
    let y ← c.kwargs.get "y_bnd"
    pure [{ ij := (0, 0), kwargs := c.kwargs, proc := (c.proc.put "lon_bnd" x).put "lat_bnd" y,
            out := c.out, preprocess := Option.none }]
  else if c.proc.has "fixed_grid" then
    subdividedOptions c.kwargs c.proc c.out (← c.subdivide.asNat)
  else
    pure [{ ij := (0, 0), kwargs := c.kwargs,
            proc := (c.proc.put "lon_bnd" .none).put "lat_bnd" .none, out := c.out,
            preprocess := Option.none }]

/-- What `proc_each_grid` uses of a gridder and of the data sets.  `σ` is the state of the grids, `ι`
what is written into a file. -/
structure Gridder (σ ι : Type) where
  /-- `GLMlutGridder(start_time, end_time, **kwargs)` -/
  init : Dict → σ
  /-- `GLMDataset(filename, ellipse_rev=ellipse_rev)` -/
  openFile : Val → GFile → Except Err GFile
  /-- `gridder.process_flashes(glm, **process_flash_kwargs)` -/
  process : σ → Dict → GFile → Except Err σ
  /-- `write_goes_imagery(gridder, outpath, pad, scale_and_offset)`: the files with their contents.
  The options are those of `write_grids`.  An exception comes from the coordinates, before the first file is
written: they are the same for all frames. -/
  write : σ → Dict → Val → Val → Except Err (List (String × ι))

/-- What became of one tile. -/
structure TileRun (σ ι : Type) where
  ij : Nat × Nat
  /-- `GLMlutGridder` rather than `GLMGridder` -/
  lut : Bool
  state : σ
  /-- the options `pad` and `scale_and_offset` with which the files were written -/
  pad : Val
  scale : Val
  written : List (String × ι)
  returned : List String

/-- The loop over the files, make_grids.py:889-912: files without events are skipped.  The flag says
whether `first_file_attrs` has been set. -/
def processFiles {σ ι : Type} (G : Gridder σ ι) (ellipseRev : Val) (proc : Dict) :
    σ × Bool → List GFile → Except Err (σ × Bool)
  | s, [] => .ok s
  | (s, first), f :: rest => do
    let glm ← G.openFile ellipseRev f
    if glm.events.length > 0 then
      let s ← G.process s proc glm
      processFiles G ellipseRev proc (s, true) rest
    else processFiles G ellipseRev proc (s, first) rest

/-- `GLMlutGridder.write_grids`, make_grids.py:599-609: `options` is the dictionary given as
`output_kwargs`; the two options are removed from it.  Without `first_file_attrs`
`write_goes_imagery` raises AttributeError (imagery.py:511); time edges without any interval are not
considered. -/
def writeGrids {σ ι : Type} (G : Gridder σ ι) (s : σ) (first : Bool) (out options : Dict) :
    Except Err ((Val × Val × List (String × ι)) × Dict) := do
  let (pad, options) := options.popD "pad" .none
  let (scale, options) := options.popD "scale_and_offset" (.bool true)
  if first then do
    let files ← G.write s out pad scale
    pure ((pad, scale, files), options)
  else .error .attributeError

/-- `proc_each_grid`, make_grids.py:846-938.  `shared` is the caller's `output_kwargs` dictionary;
the result has its new contents.  `write_all` of the preprocessor finds no captured calls, because
the LUT gridder does not call the output writer. -/
def procEachGrid {σ ι : Type} (G : Gridder σ ι) (files : List GFile) (shared : Dict) (g : Subgrid) :
    Except Err (TileRun σ ι × Dict) := do
  let ellipseRev ← g.proc.get "ellipse_rev"
  let proc := g.proc.del "ellipse_rev"
  let lut := proc.has "clip_events"
  let _outgrids ← if lut then lutPipelineSetup else plainPipelineSetup
  let proc := if lut then proc.put "clip_events" .mesh else proc
  let (s, first) ← processFiles G ellipseRev proc (G.init g.kwargs, false) files
  -- the caller's dictionary, or a new one
  let own := g.out.has "output_kwargs"
  let options := if own then shared else []
  match g.preprocess with
  | some (pads, _) =>
    let options := options.put "pad" (.slices (getPadSlices pads).1 (getPadSlices pads).2)
    let ((pad, scale, written), options) ← writeGrids G s first g.out options
    pure ({ ij := g.ij, lut, state := s, pad, scale, written, returned := [] },
      if own then options else shared)
  | Option.none =>
    let ((pad, scale, written), options) ← writeGrids G s first g.out options
    pure ({ ij := g.ij, lut, state := s, pad, scale, written, returned := written.map Prod.fst },
      if own then options else shared)

/-- `list(map(proc_each_grid, subgrids))` with the shared dictionary. -/
def procAll {σ ι : Type} (G : Gridder σ ι) (files : List GFile) :
    Dict → List Subgrid → Except Err (List (TileRun σ ι) × Dict)
  | shared, [] => .ok ([], shared)
  | shared, g :: rest => do
    let (r, shared) ← procEachGrid G files shared g
    let (rs, shared) ← procAll G files shared rest
    pure (r :: rs, shared)

/-- `grid_GLM_flashes`, make_grids.py:761-842: the tiles, and the caller's `output_kwargs` dictionary
afterwards. -/
def gridGlmFlashes {σ ι : Type} (G : Gridder σ ι) (files : List GFile) (kwargs shared : Dict) :
    Except Err (List (TileRun σ ι) × Dict) := do
  procAll G files shared (← subgridsFor (splitKwargs kwargs))

end Verif.Model
