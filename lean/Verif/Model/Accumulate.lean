import Verif.Py.Array
import Verif.Model.Split

/-!
# glmtools/grid/accumulate.py and the pipelines of glmtools/grid/make_grids.py

A grid is a shape and a function on its indices.  Grids hold rationals in place of 32 bit floats.
-/

namespace Verif.Model

open Verif.Py

/-- A two dimensional numpy array of shape `(n0, n1)`; `val` matters below the shape only. -/
structure Grid where
  n0 : Nat
  n1 : Nat
  val : Nat → Nat → Rat

/-- `np.zeros((n0, n1))`, make_grids.py:423, 477-480, 538-540. -/
def Grid.zeros (n0 n1 : Nat) : Grid := ⟨n0, n1, fun _ _ => 0⟩

/-- One row of a data set as the accumulators read it: `dataset[x_idx]`, `dataset[y_idx]` and
`dataset[var_name].astype(grid.dtype)`, accumulate.py:57-58, 95-96.  The cast is not modelled. -/
structure IdxRow where
  xi : Int
  yi : Int
  v : Rat
  deriving DecidableEq, Repr

/-- numpy indexing of an axis of length `n`: negative indices count from the end. -/
def npIndex (n : Nat) (i : Int) : Except Err Nat :=
  if 0 ≤ i ∧ i < n then .ok i.toNat
  else if i < 0 ∧ 0 ≤ i + n then .ok (i + n).toNat
  else .error .indexError

/-- The cell that `grid[yi, xi]` addresses, accumulate.py:59, 100. -/
def cellOf (g : Grid) (r : IdxRow) : Except Err (Nat × Nat) := do
  let i ← npIndex g.n0 r.yi
  let j ← npIndex g.n1 r.xi
  pure (i, j)

/-- `grid[I, J] = values`: the pairs are assigned one after the other. -/
def Grid.set (g : Grid) (cells : List ((Nat × Nat) × Rat)) : Grid :=
  { g with val := cells.foldl (fun f c i j => if (i, j) = c.1 then c.2 else f i j) g.val }

/-- One turn of the loop of `accumulate_var_on_grid_direct_idx`, accumulate.py:56-59:
`grid[yi, xi] += v` reads all the cells, adds, and assigns. -/
def accumulateVar (g : Grid) (ds : List IdxRow) : Except Err Grid := do
  let cells ← ds.mapM (cellOf g)
  let prev := cells.map fun c => g.val c.1 c.2
  pure (g.set (cells.zip (List.zipWith (· + ·) prev (ds.map IdxRow.v))))

/-- One turn of the loop of `accumulate_minvar_on_grid_direct_idx`, accumulate.py:93-108. -/
def accumulateMinvar (g : Grid) (ds : List IdxRow) : Except Err Grid := do
  let cells ← ds.mapM (cellOf g)
  let newMin := ds.map IdxRow.v
  let prev := cells.map fun c => g.val c.1 c.2
  let all := cells.zip (newMin.zip prev)
  let zero := all.filter fun a => ¬ a.2.2 > 0
  let nonzero := all.filter fun a => a.2.2 > 0
  let g := g.set (zero.map fun a => (a.1, a.2.1))
  pure (g.set (nonzero.map fun a => (a.1, min a.2.1 a.2.2)))

/-- Sending data sets to an accumulator one after the other.  The grid is changed in place, so what
was added before an exception stays; the coroutine ends with the exception. -/
def sendAll (step : Grid → List IdxRow → Except Err Grid) (g : Grid) :
    List (List IdxRow) → Grid × Option Err
  | [] => (g, none)
  | ds :: rest =>
    match step g ds with
    | .ok g' => sendAll step g' rest
    | .error e => (g, some e)

/-- `select_dataset`, accumulate.py:9-24: what is sent to the target for the frames received. -/
def selectDataset {α : Type} (useEventData : Bool) : List (List α × List α) → List (List α)
  | [] => []
  | (events, flashes) :: rest =>
    if useEventData then
      if events.length > 0 then events :: selectDataset useEventData rest
      else selectDataset useEventData rest
    else
      if flashes.length > 0 then flashes :: selectDataset useEventData rest
      else selectDataset useEventData rest

/-- `dataset[name]` of the rows handed to the pipeline, mimic_lma.py:809-821, for the columns that
the LUT pipeline accumulates. -/
def LmaEvent.column (name : String) (e : LmaEvent) : Except Err Rat :=
  match name with
  | "mesh_frac" => .ok e.meshFrac
  | "power" => .ok e.power
  | "lutevent_count" => .ok e.count
  | "lutevent_flash_count" => .ok e.flashCount
  | "lutevent_group_count" => .ok e.groupCount
  | "lutevent_total_flash_area" => .ok e.totalFlashArea
  | "lutevent_total_group_area" => .ok e.totalGroupArea
  | "lutevent_min_flash_area" => .ok e.minFlashArea
  | _ => .error .keyError

/-- The integer columns. -/
def LmaEvent.index (name : String) (e : LmaEvent) : Except Err Int :=
  match name with
  | "mesh_xi" => .ok e.meshXi
  | "mesh_yi" => .ok e.meshYi
  | _ => .error .keyError

/-- The accumulators that the pipelines create.  `points` stands for the lmatools accumulator of
parent centroids (`accumulate_points_on_grid`), which is not part of the repository. -/
inductive Accum
  | points
  | var (name x y : String)
  | minvar (name x y : String)
  deriving DecidableEq, Repr

/-- `xi, yi = dataset[x_idx], dataset[y_idx]`, `dataset[var_name]`, accumulate.py:57-58, 95-96. -/
def readRows (name x y : String) (ds : List LmaEvent) : Except Err (List IdxRow) :=
  ds.mapM fun e => do pure ⟨← e.index x, ← e.index y, ← e.column name⟩

/-- One frame arriving at a branch of the broadcast: `select_dataset(accum, use_event_data=True)`
in front of the accumulator.  The `points` branch does not read the events; lmatools decides what
it adds (`points`). -/
def Accum.receive (points : Grid → List LmaParent → Grid) (a : Accum) (g : Grid)
    (frame : List LmaEvent × List LmaParent) : Except Err Grid :=
  match a with
  | .points => .ok (points g frame.2)
  | .var name x y =>
    if frame.1.length > 0 then do accumulateVar g (← readRows name x y frame.1) else .ok g
  | .minvar name x y =>
    if frame.1.length > 0 then do accumulateMinvar g (← readRows name x y frame.1) else .ok g

/-- The grids that a `*_pipeline_setup` method returns, by the accumulator that writes to each of
them. -/
abbrev Outgrids := List Accum

/-- `GLMlutGridder.event_pipeline_setup`, make_grids.py:406-458. -/
def lutEventGrids : Outgrids := [.var "power" "mesh_xi" "mesh_yi"]

/-- `GLMlutGridder.flash_pipeline_setup`, make_grids.py:459-518. -/
def lutFlashGrids : Outgrids :=
  let initDensity := .points
  let extentDensity := .var "lutevent_flash_count" "mesh_xi" "mesh_yi"
  let footprint := .var "lutevent_total_flash_area" "mesh_xi" "mesh_yi"
  let minArea := .minvar "lutevent_min_flash_area" "mesh_xi" "mesh_yi"
  [initDensity, extentDensity, footprint, minArea]

/-- `GLMlutGridder.group_pipeline_setup`, make_grids.py:520-574. -/
def lutGroupGrids : Outgrids :=
  let initDensity := .points
  let extentDensity := .var "lutevent_group_count" "mesh_xi" "mesh_yi"
  let footprint := .var "lutevent_total_group_area" "mesh_xi" "mesh_yi"
  [initDensity, extentDensity, footprint]

/-- `GLMGridder.flash_pipeline_setup`, make_grids.py:82-154: three grids, all written by lmatools
accumulators. -/
def plainFlashGrids : Outgrids := [.points, .points, .points]

/-- `GLMGridder.event_pipeline_setup`, make_grids.py:155-211. -/
def plainEventGrids : Outgrids := [.points]

/-- `GLMGridder.pipeline_setup`, make_grids.py:213-271, with the three methods of the class: tuple
unpacking of the wrong length is a ValueError.  The result is `self.outgrids`; each grid comes with
the pipeline it belongs to ("flash", "group" or "event"). -/
def pipelineSetup (flash group event : Outgrids) : Except Err (List (String × Accum)) :=
  match flash with
  | [initDensity, extentDensity, footprint, minFlashArea] =>
    match group with
    | [groupCentroidDensity, groupExtentDensity, groupFootprint] =>
      match event with
      | [totalEnergy] =>
        .ok [("flash", extentDensity), ("flash", initDensity), ("flash", footprint),
             ("event", totalEnergy), ("group", groupExtentDensity),
             ("group", groupCentroidDensity), ("group", groupFootprint),
             ("flash", minFlashArea)]
      | _ => .error .valueError
    | _ => .error .valueError
  | _ => .error .valueError

/-- `GLMlutGridder.pipeline_setup`, inherited. -/
def lutPipelineSetup : Except Err (List (String × Accum)) :=
  pipelineSetup lutFlashGrids lutGroupGrids lutEventGrids

/-- `GLMGridder.pipeline_setup`; its group pipeline is its flash pipeline, make_grids.py:76-80. -/
def plainPipelineSetup : Except Err (List (String × Accum)) :=
  pipelineSetup plainFlashGrids plainFlashGrids plainEventGrids

/-- What `output_setup` stores in the gridder, make_grids.py:273-363. -/
structure OutputTables where
  postfixes : List String
  names : List String
  descriptions : List String
  units : List String
  formats : List String
  divide : List (Nat × Nat)
  deriving DecidableEq, Repr

/-- `GLMGridder.output_setup`, make_grids.py:273-363, as a function of the density label that is
formatted from the projection, the spacing and the frame length. -/
def outputSetup (densityLabel : String) : OutputTables :=
  let units := [densityLabel, densityLabel, "km^2 per flash", "nJ", densityLabel, densityLabel,
    "km^2 per group", "km^2"]
  { postfixes := ["flash_extent.nc", "flash_centroid.nc", "footprint.nc", "total_energy.nc",
      "group_extent.nc", "group_centroid.nc", "group_area.nc", "flash_area_min.nc"]
    names := ["flash_extent_density", "flash_centroid_density", "average_flash_area",
      "total_energy", "group_extent_density", "group_centroid_density", "average_group_area",
      "minimum_flash_area"]
    descriptions := ["Flash extent density", "Flash centroid density", "Average flash area",
      "Total radiant energy", "Group extent density", "Group centroid density",
      "Average group area", "Minimum flash area"]
    units := units
    formats := List.replicate units.length "f"
    divide := [] }

/-- `GLMlutGridder.output_setup`, make_grids.py:576-597. -/
def lutOutputSetup (densityLabel : String) : OutputTables :=
  { outputSetup densityLabel with divide := [(2, 0), (6, 4)] }

/-- The gridding of one frame: every grid of `self.outgrids` starts from zeros of shape
`(xedge.shape[0]-1, yedge.shape[0]-1)` (make_grids.py:97, 169, 421, 475, 536) and receives what its
pipeline is sent.  `frames kind` are the pairs (children, parents) that arrive at the framer of that
kind for this frame.  Which frame a pair belongs to is decided by `flashes_to_frames` of lmatools,
outside the repository. -/
def gridFrame (points : Grid → List LmaParent → Grid) (nx ny : Nat) (outgrids : List (String × Accum))
    (frames : String → List (List LmaEvent × List LmaParent)) : Except Err (List Grid) :=
  outgrids.mapM fun ka => (frames ka.1).foldlM (ka.2.receive points) (Grid.zeros nx ny)

end Verif.Model
