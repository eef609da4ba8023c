import Verif.Model.Tiles

/-!
# glmtools/io/imagery.py: writing gridded fields as GOES imagery

Numbers are rationals in place of floats.  Attributes, encodings without effect on the data and the
netCDF library are left out.
-/

namespace Verif.Model

open Verif.Py

/-! ## Scaling -/

/-- An entry of `glm_scaling`; the type is `uint16` throughout. -/
structure Scaling where
  scaleFactor : Rat
  addOffset : Rat
  deriving DecidableEq, Repr

/-- `glm_scaling`, imagery.py:66-86. -/
def glmScaling : List (String × Scaling) :=
  [("flash_extent_density", ⟨625 / 10000, 0⟩),
   ("flash_centroid_density", ⟨1, 0⟩),
   ("average_flash_area", ⟨10, 0⟩),
   ("minimum_flash_area", ⟨10, 0⟩),
   ("event_density", ⟨25 / 100, 0⟩),
   ("group_extent_density", ⟨25 / 100, 0⟩),
   ("group_centroid_density", ⟨1, 0⟩),
   ("average_group_area", ⟨1, 0⟩),
   ("total_energy", ⟨152597 / 100000000000, 0⟩)]

/-- The keyword arguments of `glm_image_to_var` for a field, imagery.py:543-545. -/
def scalingFor (fieldName : String) (scaleAndOffset : Bool) : Option Scaling :=
  if scaleAndOffset then glmScaling.lookup fieldName else none

/-- What `glm_image_to_var` does to one element of the data, imagery.py:345-351: with a scale factor,
positive values up to one step are raised to one step. -/
def raiseTiny (scaling : Option Scaling) (v : Rat) : Rat :=
  match scaling with
  | none => v
  | some s =>
    let minAllowed := s.scaleFactor + s.addOffset
    if v > 0 ∧ v ≤ minAllowed then minAllowed else v

/-- `np.around`: to the nearest integer, ties to even. -/
def npAround (q : Rat) : Int :=
  let f := ⌊q⌋
  if q - f < 1 / 2 then f
  else if q - f > 1 / 2 then f + 1
  else if f % 2 = 0 then f else f + 1

/-- How `to_netcdf` stores one element of a scaled variable: the count is the rounded quotient, in an
unsigned 16 bit integer.  Counts outside of its range are not defined (`none`). -/
def cfEncode (s : Scaling) (v : Rat) : Option Nat :=
  let n := npAround ((v - s.addOffset) / s.scaleFactor)
  if 0 ≤ n ∧ n < 65536 then some n.toNat else none

/-- How a stored count is read: the fill value 0 (imagery.py:315, 337) is missing. -/
def cfDecode (s : Scaling) (n : Nat) : Option Rat :=
  if n = 0 then none else some (n * s.scaleFactor + s.addOffset)

/-! ## The scene -/

/-- The names of scenes. -/
inductive Scene
  | full | conus | meso1 | meso2 | other
  deriving DecidableEq, Repr

/-- `np.allclose(a, b, rtol=1.0e-2)` for numbers; the default of `atol` is 1e-8. -/
def allclose (a b : Rat) : Bool := |a - b| ≤ 1 / 100000000 + 1 / 100 * |b|

/-- The spans of the scenes and the resolutions that are imported from lmatools.grid.fixed. -/
structure SceneTable where
  full : Rat × Rat
  conus : Rat × Rat
  meso : Rat × Rat
  resolutions : List (String × Rat)

/-- The description of the resolution: a known one, or a number of microradians. -/
inductive Resolution
  | known (km : String)
  | microradians (n : Int)
  deriving DecidableEq, Repr

/-- `x.max() - x.min()`; the maximum of an empty array is a ValueError. -/
def span (l : List Rat) : Except Err Rat :=
  match l with
  | [] => .error .valueError
  | a :: as => .ok (as.foldl max a - as.foldl min a)

/-- `infer_scene_from_dataset`, imagery.py:425-455. -/
def inferScene (t : SceneTable) (x y : List Rat) : Except Err (Scene × Resolution) := do
  let x1 ← match x[1]? with | some v => Except.ok v | none => .error .indexError
  let x0 ← match x[0]? with | some v => Except.ok v | none => .error .indexError
  let dx := |x1 - x0|
  let resolution := t.resolutions.foldl (fun r km => if allclose km.2 dx then .known km.1 else r)
    (Resolution.microradians (npAround (dx * 1000000)))
  let spanEW ← span x
  let spanNS ← span y
  let scene :=
    if allclose spanEW t.full.1 && allclose spanNS t.full.2 then Scene.full
    else if allclose spanEW t.conus.1 && allclose spanNS t.conus.2 then .conus
    else if allclose spanEW t.meso.1 && allclose spanNS t.meso.2 then .meso1
    else if allclose spanEW (172732 / 1000000) then .conus
    else .other
  pure (scene, resolution)

/-- The letters for a scene in the name of the data set, imagery.py:260-264. -/
def sceneLetters : List (Scene × String) :=
  [(.full, "F"), (.conus, "C"), (.meso1, "M1"), (.meso2, "M2"), (.other, "M1")]

/-- The name of a scene in the attributes, imagery.py:265-269. -/
def sceneNames : List (Scene × String) :=
  [(.full, "Full Disk"), (.conus, "CONUS"), (.meso1, "Mesoscale"), (.meso2, "Mesoscale"),
   (.other, "Custom")]

/-- `scenes[scene_id]`, `scene_names[scene_id]`, imagery.py:275, 307. -/
def sceneAttrs (s : Scene) : Except Err (String × String) :=
  match sceneLetters.lookup s, sceneNames.lookup s with
  | some a, some b => .ok (a, b)
  | _, _ => .error .keyError

/-! ## Images -/

/-- An image: `val r c` is the pixel in row `r` and column `c`. -/
structure Image where
  rows : Nat
  cols : Nat
  val : Nat → Nat → Rat

/-- `np.flipud(grid.T)`, imagery.py:541. -/
def Grid.toImage (g : Grid) : Image := ⟨g.n1, g.n0, fun r c => g.val c (g.n1 - 1 - r)⟩

/-- The grids of a gridder, `self.outgrids`: arrays of shape `(nx, ny, nt)`. -/
structure Grids where
  nx : Nat
  ny : Nat
  nt : Nat
  fields : List (Nat → Nat → Nat → Rat)

/-- One element of the quotient, imagery.py:535-540: zero where one of the numbers is zero. -/
def quotient (grid denom : Rat) : Rat := if denom = 0 ∨ grid = 0 then 0 else grid / denom

/-- `a[xs, ys, ti] = v` for a function of the old elements and of the index. -/
def updateRegion (nx ny : Nat) (xs ys : PySlice) (ti : Nat) (f : Nat → Nat → Nat → Rat)
    (v : Nat → Nat → Rat) : Nat → Nat → Nat → Rat :=
  fun i j t =>
    if t = ti ∧ (xs.bounds nx).1 ≤ i ∧ i < (xs.bounds nx).2 ∧
        (ys.bounds ny).1 ≤ j ∧ j < (ys.bounds ny).2 then v i j else f i j t

/-- One turn of the loop over the fields, imagery.py:533-552: the image and the grids afterwards.
`grid_allt[x_slice,y_slice,ti]`, its transposition and flip are views, so that the division and the
raising of tiny values change the grids of the gridder in place. -/
def writeField (xs ys : PySlice) (scaleAndOffset : Bool) (divide : List (Nat × Nat)) (ti : Nat)
    (g : Grids) (i : Nat) (name : String) : Except Err (Image × Grids) := do
  if g.nt ≤ ti then .error .indexError
  let grid ← match g.fields[i]? with | some f => Except.ok f | none => .error .indexError
  let grid ← match divide.lookup i with
    | none => Except.ok grid
    | some k =>
      match g.fields[k]? with
      | none => .error .indexError
      | some denom => .ok (updateRegion g.nx g.ny xs ys ti grid fun a b =>
          quotient (grid a b ti) (denom a b ti))
  let grid := updateRegion g.nx g.ny xs ys ti grid fun a b =>
    raiseTiny (scalingFor name scaleAndOffset) (grid a b ti)
  let view := (Grid.mk g.nx g.ny fun a b => grid a b ti).slice xs ys
  pure (view.toImage, { g with fields := g.fields.set i grid })

/-- The loop over the fields, imagery.py:533. -/
def writeFields (xs ys : PySlice) (scaleAndOffset : Bool) (divide : List (Nat × Nat)) (ti : Nat) :
    Grids → List (Nat × String) → Except Err (List (String × Image) × Grids)
  | g, [] => .ok ([], g)
  | g, (i, name) :: rest => do
    let r ← writeField xs ys scaleAndOffset divide ti g i name
    let rs ← writeFields xs ys scaleAndOffset divide ti r.2 rest
    pure ((name, r.1) :: rs.1, rs.2)

/-- `pairwise`, imagery.py:419-423. -/
def pairwise {α : Type} (l : List α) : List (α × α) := l.zip l.tail

/-- A file. -/
structure ImageFile where
  name : String
  start : Rat
  stop : Rat
  x : List Rat
  y : List Rat
  scene : Scene
  resolution : Resolution
  fields : List (String × Image)

/-- What `write_goes_imagery` reads from the gridder besides the grids.  `fileName` stands for
`outpath.format(...)` with the name of the data set, as a function of scene, start and end: platform
and the time of creation are fixed.  Field names are those of `output_setup`. -/
structure ImageSetup where
  table : SceneTable
  fileName : Scene → Rat → Rat → String
  xedge : List Rat
  yedge : List Rat
  tEdges : List Rat
  names : List String
  divide : List (Nat × Nat)

/-- One file, imagery.py:498-567. -/
def writeFrame (s : ImageSetup) (xs ys : PySlice) (scaleAndOffset : Bool) (g : Grids) (ti : Nat)
    (t : Rat × Rat) : Except Err (ImageFile × Grids) := do
  let xCoord := xs.apply (cellCentres s.xedge)
  let yCoord := ys.apply (cellCentres s.yedge)
  let scene ← inferScene s.table xCoord yCoord.reverse
  let _ ← sceneAttrs scene.1
  let r ← writeFields xs ys scaleAndOffset s.divide ti g
    ((List.range (min g.fields.length s.names.length)).zip s.names)
  pure ({ name := s.fileName scene.1 t.1 t.2, start := t.1, stop := t.2, x := xCoord,
          y := yCoord.reverse, scene := scene.1, resolution := scene.2, fields := r.1 }, r.2)

/-- The loop over the frames, imagery.py:498. -/
def writeFrames (s : ImageSetup) (xs ys : PySlice) (scaleAndOffset : Bool) :
    Grids → List (Nat × (Rat × Rat)) → Except Err (List ImageFile × Grids)
  | g, [] => .ok ([], g)
  | g, (ti, t) :: rest => do
    let r ← writeFrame s xs ys scaleAndOffset g ti t
    let rs ← writeFrames s xs ys scaleAndOffset r.2 rest
    pure (r.1 :: rs.1, rs.2)

/-- `write_goes_imagery`, imagery.py:457-569: the files, and the grids afterwards. -/
def writeImagery (s : ImageSetup) (pad : Option (PySlice × PySlice)) (scaleAndOffset : Bool)
    (g : Grids) : Except Err (List ImageFile × Grids) :=
  let slices := pad.getD (⟨none, none⟩, ⟨none, none⟩)
  writeFrames s slices.1 slices.2 scaleAndOffset g
    ((List.range (pairwise s.tEdges).length).zip (pairwise s.tEdges))

end Verif.Model
