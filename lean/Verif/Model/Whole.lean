import Verif.Model.Session
import Verif.Model.Select
import Verif.Model.Imagery
import Verif.Model.Writing

/-!
# The lookup table gridder in a whole call

`GLMlutGridder` (`glmtools/grid/make_grids.py`) put together from its parts: what `grid_GLM_flashes` does
from the options of the call to the image files.
-/

namespace Verif.Model

open Verif.Py

/-- What comes from outside the repository, or is the same for the whole call. -/
structure Surroundings where
  /-- the clipper -/
  clip : Poly → Poly → List Poly
  /-- nearest neighbours, for meshes that are not regular -/
  query : List Pt → Pt → Nat → List Nat
  /-- the footprint of a pixel, from the table of corner offsets -/
  foot : Pt → Poly
  /-- `np.arange` of lmatools' `FlashGridder`, from bounds and box size to edges -/
  edges : Rat × Rat → Rat → List Rat
  basedate : Int
  /-- the packed location of a pixel -/
  loc : Rat → Rat → Int
  /-- the order in which a set of flash ids is gone through -/
  order : List Int → List Int
  /-- the product time of a file -/
  productTime : GFile → Int
  /-- `GLMDataset(filename, ellipse_rev=ellipse_rev)` -/
  openFile : Val → GFile → Except Err GFile
  /-- `accumulate_points_on_grid` of lmatools, from the edges of the grid, make_grids.py:484-485, 544-545 -/
  points : List Rat → List Rat → Grid → List LmaParent → Grid
  /-- the parents that `flashes_to_frames` of lmatools sends on to the one frame of the call -/
  keep : List LmaParent → List LmaParent
  label : String
  table : SceneTable
  /-- the path of a file -/
  path : Dict → Scene → Rat → Rat → String
  /-- the one frame of the call -/
  frame : Rat × Rat

/-- The parents that a chunk sends to a pipeline, mimic_lma.py:961-970 and 222-236; nothing that comes after the event pipeline
uses its parents, make_grids.py:441-449. -/
def FakeLma.parentsFor (k : String) (f : FakeLma) : List LmaParent :=
  if k = "flash" then f.flashParents else if k = "group" then f.groupParents else []

/-- The state of a `GLMlutGridder`: its edges, and what was sent to its pipelines so far. -/
structure TileState where
  xedge : List Rat
  yedge : List Rat
  sent : List FakeLma

/-- The bounds and the box size that lmatools' `FlashGridder.__init__` gets, make_grids.py:874-877; [] if
the options are missing. -/
def gridderEdges (edges : Rat × Rat → Rat → List Rat) (kwargs : Dict) (bnd d : String) : List Rat :=
  match argOf kwargs bnd, (argOf kwargs d).asNum with
  | .bnd lo hi, .ok delta => edges (lo, hi) delta
  | _, _ => []

/-- The mesh of a tile, make_grids.py:880-881. -/
def tileMesh (x y : List Rat) : Mesh :=
  { xedge := (meshgrid x y).1, yedge := (meshgrid x y).2, regular := true, nNeighbors := 16 * 10 }

/-- `process_flashes`, make_grids.py:366-403, with clipping. -/
def lutProcess (env : Surroundings) (s : TileState) (proc : Dict) (glm : GFile) : Except Err TileState := do
  let c ← processCriteria proc
  let sent ← readFlashesLut env.clip env.query (fun pts => pts.map env.foot) (tileMesh s.xedge s.yedge) env.basedate
    env.loc env.order c 20000 (env.productTime glm) glm
  pure { xedge := s.xedge, yedge := s.yedge, sent := s.sent ++ sent }

/-- The option `pad`. -/
def Val.asPad : Val → Option (PySlice × PySlice)
  | .slices x y => some (x, y)
  | _ => Option.none

/-- The grids of a gridder for one frame, make_grids.py:213-271 and 406-574, and their image files,
make_grids.py:599-609 and imagery.py:457-569.  The gridder makes its grids when it is set up and fills them as chunks
arrive; here they are filled at the end with all that arrived, in order. -/
def lutImages (env : Surroundings) (s : TileState) (out : Dict) (pad scale : Val) : Except Err (List ImageFile) := do
  let outgrids ← lutPipelineSetup
  let nx := s.xedge.length - 1
  let ny := s.yedge.length - 1
  let grids ← gridFrame (env.points s.xedge s.yedge) nx ny outgrids fun k =>
    s.sent.map fun f => (f.children, env.keep (f.parentsFor k))
  let tables := lutOutputSetup env.label
  let files ← writeImagery
    { table := env.table, fileName := env.path out, xedge := s.xedge, yedge := s.yedge,
      tEdges := [env.frame.1, env.frame.2], names := tables.names, divide := tables.divide }
    pad.asPad (scale != .bool false) ⟨nx, ny, 1, grids.map fun g i j _ => g.val i j⟩
  pure files.1

/-- `GLMlutGridder` as `proc_each_grid` uses it. -/
def lutGridder (env : Surroundings) : Gridder TileState ImageFile where
  init := fun kwargs => ⟨gridderEdges env.edges kwargs "x_bnd" "dx", gridderEdges env.edges kwargs "y_bnd" "dy", []⟩
  openFile := env.openFile
  process := lutProcess env
  write := fun s out pad scale => do
    let files ← lutImages env s out pad scale
    pure (files.map fun f => (f.name, f))

end Verif.Model
