import Verif.Model.Whole

/-!
# Several frames

`GLMlutGridder` (`glmtools/grid/make_grids.py`) for a period that is cut into frames.  Which frame something belongs to is
decided by `flashes_to_frames` of lmatools, which is outside the repository; the code decides which times it goes by.
-/

namespace Verif.Model

open Verif.Py

/-- What lmatools does with the times of a call. -/
structure Framing where
  /-- `self.t_edges_seconds` -/
  tEdges : List Rat
  /-- the children that `flashes_to_frames(..., do_events='time')` sends on to a frame, make_grids.py:451-453, 511-513,
  567-569 -/
  pick : Rat × Rat → List LmaEvent → List LmaEvent
  /-- the parents that it sends on to a frame (`time_key='start'`) -/
  keep : Rat × Rat → List LmaParent → List LmaParent

/-- The `time` of a child in seconds, `sec_since_basedate`, mimic_lma.py:582-588 and 875-876; times of the model are
nanoseconds. -/
def LmaEvent.seconds (e : LmaEvent) : Rat := (e.time : Rat) / 1000000000

/-- The `start` of a parent in seconds, mimic_lma.py:903-905, 926-928. -/
def LmaParent.seconds (r : LmaParent) : Rat := (r.start : Rat) / 1000000000

/-- The grids of a gridder with a frame for each pair of successive edges, make_grids.py:213-271 and 406-574 (one slice
`grid[:,:,i]` of each array for every frame, 424-449, 482-509, 542-565), and the image files, one for each frame,
imagery.py:457-569.  Like `lutImages`, the grids are filled at the end with all that arrived, in order. -/
def framesImages (env : Surroundings) (F : Framing) (s : TileState) (out : Dict) (pad scale : Val) :
    Except Err (List ImageFile) := do
  let outgrids ← lutPipelineSetup
  let nx := s.xedge.length - 1
  let ny := s.yedge.length - 1
  let frames ← (pairwise F.tEdges).mapM fun t => gridFrame (env.points s.xedge s.yedge) nx ny
    outgrids fun k => s.sent.map fun f => (F.pick t f.children, F.keep t (f.parentsFor k))
  let fields := (List.range outgrids.length).map fun v i j k =>
    ((frames.getD k []).getD v (Grid.zeros nx ny)).val i j
  let tables := lutOutputSetup env.label
  let files ← writeImagery
    { table := env.table, fileName := env.path out, xedge := s.xedge, yedge := s.yedge,
      tEdges := F.tEdges, names := tables.names, divide := tables.divide }
    pad.asPad (scale != .bool false) ⟨nx, ny, frames.length, fields⟩
  pure files.1

/-- `GLMlutGridder` as `proc_each_grid` uses it, for several frames. -/
def framesGridder (env : Surroundings) (F : Framing) : Gridder TileState ImageFile where
  init := (lutGridder env).init
  openFile := env.openFile
  process := lutProcess env
  write := fun s out pad scale => do
    let files ← framesImages env F s out pad scale
    pure (files.map fun f => (f.name, f))

end Verif.Model
