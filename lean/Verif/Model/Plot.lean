import Verif.Model.Aggregate
import Verif.Model.Chunk
import Verif.Model.Names

/-!
# Model of `glmtools/plot` and `examples/plot`

What is modelled is what is drawn and where, and what happens to the data.  Maps, colours, fonts and colour bars are
left out.  Memory is modelled as far as it is shared: an array of values is either a part of the dataset (a view) or a
copy of its own.
-/

namespace Verif.Model

open Verif.Py

/-! ## Memory -/

/-- The dataset in memory, and the arrays that are not part of it. -/
structure Memory where
  series : TimeSeries
  temps : List FrameValues

/-- An array: a field of a frame of the dataset, or an array of its own. -/
inductive Ref
  | view (frame : Nat) (field : String)
  | temp (k : Nat)
  deriving DecidableEq

/-- The values of an array. -/
def Memory.read (m : Memory) : Ref → FrameValues
  | .view k f => match m.series.frames[k]? with
    | some fr => fr.value f
    | none => fun _ => none
  | .temp k => match m.temps[k]? with
    | some v => v
    | none => fun _ => none

/-- One field of a frame replaced. -/
def setField (f : String) (v : FrameValues) (fr : Frame) : Frame :=
  { fr with value := fun g => if g = f then v else fr.value g }

/-- Assignment to all elements of an array. -/
def Memory.write (m : Memory) (v : FrameValues) : Ref → Memory
  | .view k f => { m with series := { m.series with frames := m.series.frames.modify k (setField f v) } }
  | .temp k => { m with temps := m.temps.set k v }

/-- `a.copy()`: a new array. -/
def Memory.copy (m : Memory) (r : Ref) : Memory × Ref :=
  ({ m with temps := m.temps ++ [m.read r] }, .temp m.temps.length)

/-- `glm[np.isnan(glm)] = 0`, plot/grid.py:80 and examples/plot/plots.py:113. -/
def Memory.fillMissing (m : Memory) (r : Ref) : Memory := m.write (fun p => some ((m.read r p).getD 0)) r

/-- `DataArray.compute()` and `.data`: values that are computed on demand (dask) come as a new array, others are the
array that the `DataArray` refers to. -/
def Memory.compute (m : Memory) (dask : Bool) (r : Ref) : Memory × Ref :=
  if dask then m.copy r else (m, r)

/-- `glm_grids[f].sel(time=tidx)`, plot/grid.py:70, examples/plot/plots.py:109: a view of the frame at that time.
Several frames at one time give an array with a further dimension, which `imshow` does not take; the exception is
raised here. -/
def selTime (s : TimeSeries) (f : String) (t : Int) : Except Err Ref :=
  if f ∉ s.vars then .error .keyError
  else match (List.range s.frames.length).filter fun k => (s.frames.map Frame.time)[k]? = some t with
    | [] => .error .keyError
    | [k] => .ok (.view k f)
    | _ => .error .typeError

/-! ## Panels -/

/-- One panel of a figure: its number, title, image, the limits of the image (left, right, bottom, top) and the
maximum that is printed. -/
structure Panel where
  number : Nat
  title : String
  image : FrameValues
  left : Rat
  right : Rat
  bottom : Rat
  top : Rat
  maximum : Rat

/-- The labels of `glmtools/plot/values.py`. -/
def displayParams : List (String × String) :=
  [("flash_centroid_density", "GOES-16 GLM Flash Centroid Density (count)"),
   ("flash_extent_density", "GOES-16 GLM Flash Extent Density (count)"),
   ("group_centroid_density", "GOES-16 GLM Group Centroid Density (count)"),
   ("group_extent_density", "GOES-16 GLM Group Extent Density (count)"),
   ("event_density", "GOES-16 GLM Group Extent Density (count)"),
   ("total_energy", "GOES-16 GLM Total Energy (nJ)"),
   ("average_flash_area", "GOES-16 GLM Average Flash Area (km$^2$)"),
   ("average_group_area", "GOES-16 GLM Average Group Area (km$^2$)"),
   ("minimum_flash_area", "GOES-16 GLM Minimum Flash Area (km$^2$)")]

/-- The labels of `examples/plot/plots.py`, lines 20-61. -/
def exampleParams : List (String × String) :=
  [("flash_centroid_density", "GOES-16 GLM Flash Centroid Density (count)"),
   ("flash_extent_density", "GOES-16 GLM Flash Extent Density (count)"),
   ("group_centroid_density", "GOES-16 GLM Group Centroid Density (count)"),
   ("group_extent_density", "GOES-16 GLM Group Extent Density (count)"),
   ("event_density", "GOES-16 GLM Group Extent Density (count)"),
   ("total_energy", "GOES-16 GLM Total Energy (J)"),
   ("average_flash_area", "GOES-16 GLM Average Flash Area (km$^2$)"),
   ("average_group_area", "GOES-16 GLM Average Group Area (km$^2$)")]

/-- `min` and `max` of an array; a ValueError if it has no elements. -/
def arrayMin : List Rat → Except Err Rat
  | [] => .error .valueError
  | a :: as => .ok (as.foldl min a)

def arrayMax : List Rat → Except Err Rat
  | [] => .error .valueError
  | a :: as => .ok (as.foldl max a)

/-- The pixels of an image with `n` rows and `m` columns. -/
def pixels (n m : Nat) : List Pixel := (List.range n).flatMap fun i => (List.range m).map fun j => (i, j)

/-- The limits of the plots, plot/grid.py:36-42, examples/plot/plots.py:77-83: the coordinates, in radian, times the
height of the satellite. -/
def plotLimits (x y : List Rat) (height : Rat) : Except Err (Rat × Rat × Rat × Rat) := do
  let left ← arrayMin (x.map (· * height))
  let right ← arrayMax (x.map (· * height))
  let bottom ← arrayMin (y.map (· * height))
  let top ← arrayMax (y.map (· * height))
  pure (left, right, bottom, top)

/-- One round of the loop of `plot_glm_grid`, plot/grid.py:55-111.  `DataArray` has a method `compute` whatever its
data, so the other branch (lines 78-79) is never taken.  `add_subplot` raises a ValueError for a number above
the number of panels; `panel_labels` has 12 letters. -/
def plotGridPanel (dask : Bool) (x y : List Rat) (height : Rat) (t : Int) (subplots : Nat × Nat) (m : Memory)
    (fi : Nat) (f : String) : Except Err (Memory × Panel) := do
  let (left, right, bottom, top) ← plotLimits x y height
  match displayParams.lookup f with
  | none => .error .keyError
  | some title =>
    if subplots.1 * subplots.2 < fi + 1 then .error .valueError
    else do
      let sel ← selTime m.series f t
      let (m, computed) := m.compute dask sel
      let (m, copied) := m.copy computed
      let (m, glm) := m.copy copied
      let m := m.fillMissing glm
      let maximum ← arrayMax ((pixels y.length x.length).map fun p => (m.read glm p).getD 0)
      if 12 ≤ fi then .error .indexError
      else pure (m, ⟨fi + 1, title, m.read glm, left, right, bottom, top, maximum⟩)

/-- One round of the loop of `plot_glm`, examples/plot/plots.py:96-137.  The label formats the
maximum with `{0:3.0f}` (lines 63-64, 130), which values that are computed on demand (dask) do not support: a TypeError, as the
comment in plot/grid.py:72-73 says. -/
def plotExamplePanel (dask : Bool) (x y : List Rat) (height : Rat) (t : Int) (subplots : Nat × Nat) (m : Memory)
    (fi : Nat) (f : String) : Except Err (Memory × Panel) := do
  let (left, right, bottom, top) ← plotLimits x y height
  match exampleParams.lookup f with
  | none => .error .keyError
  | some title =>
    if subplots.1 * subplots.2 < fi + 1 then .error .valueError
    else do
      let sel ← selTime m.series f t
      let (m, glm) := m.compute dask sel
      let m := m.fillMissing glm
      if dask then .error .typeError
      let maximum ← arrayMax ((pixels y.length x.length).map fun p => (m.read glm p).getD 0)
      pure (m, ⟨fi + 1, title, m.read glm, left, right, bottom, top, maximum⟩)

/-- `for fi, f in enumerate(fields)`, from number `fi`. -/
def plotPanels (panel : Memory → Nat → String → Except Err (Memory × Panel)) (m : Memory) (fi : Nat) :
    List String → Except Err (Memory × List Panel)
  | [] => .ok (m, [])
  | f :: fields => do
    let (m, p) ← panel m fi f
    let (m, ps) ← plotPanels panel m (fi + 1) fields
    pure (m, p :: ps)

/-- `plot_glm_grid`, plot/grid.py:33-134.  At the end `set_shared_geoaxes` (plot/grid.py:24-30) takes the first panel:
an IndexError if there is none. -/
def plotGlmGrid (dask : Bool) (x y : List Rat) (height : Rat) (m : Memory) (t : Int) (fields : List String)
    (subplots : Nat × Nat) : Except Err (Memory × List Panel) := do
  let _ ← plotLimits x y height
  let out ← plotPanels (plotGridPanel dask x y height t subplots) m 0 fields
  if fields = [] then .error .indexError else pure out

/-- `plot_glm`, examples/plot/plots.py:74-156. -/
def plotGlm (dask : Bool) (x y : List Rat) (height : Rat) (m : Memory) (t : Int) (fields : List String)
    (subplots : Nat × Nat) : Except Err (Memory × List Panel) := do
  let _ ← plotLimits x y height
  let out ← plotPanels (plotExamplePanel dask x y height t subplots) m 0 fields
  if fields = [] then .error .indexError else pure out

/-- Where `imshow(..., extent=(left, right, bottom, top), origin='upper')` (plot/grid.py:84-88) draws the pixel in row
`i` and column `j` of an image with `n` rows and `m` columns: left, right, bottom and top of it. -/
def pixelBox (p : Panel) (n m i j : Nat) : Rat × Rat × Rat × Rat :=
  (p.left + (p.right - p.left) * j / m, p.left + (p.right - p.left) * (j + 1) / m,
   p.top - (p.top - p.bottom) * (i + 1) / n, p.top - (p.top - p.bottom) * i / n)

/-! ## One flash -/

/-- What `plot_flash` draws: longitude, latitude and energy of groups and events, the places of flashes, and the id and
the two times of the title. -/
structure FlashPlot where
  groups : List (Rat × Rat × Rat)
  events : List (Rat × Rat × Rat)
  flashes : List (Rat × Rat)
  id : Int
  start : Int
  stop : Int

/-- `plot_flash`, plot/locations.py:5-59. -/
def plotFlash (d : GFile) (flashId : Int) : Except Err FlashPlot := do
  let fd ← getFlashes d [flashId]
  match fd.flashes with
  | [] => .error .indexError
  | f :: _ =>
    pure { groups := fd.groups.map fun g => (g.val.lon, g.val.lat, g.val.energy),
           events := fd.events.map fun e => (e.val.lon, e.val.lat, e.val.energy),
           flashes := fd.flashes.map fun f => (f.val.lon, f.val.lat),
           id := f.id, start := firstTime f, stop := lastTime f }

/-- `GLMDataset.fov_bounds`, io/glm.py:469-475. -/
def fovBounds (d : GFile) : Except Err ((Rat × Rat) × (Rat × Rat)) := do
  let lat0 ← arrayMin (d.events.map fun e => e.val.lat)
  let lat1 ← arrayMax (d.events.map fun e => e.val.lat)
  let lon0 ← arrayMin (d.events.map fun e => e.val.lon)
  let lon1 ← arrayMax (d.events.map fun e => e.val.lon)
  pure ((lon0, lon1), (lat0, lat1))

/-! ## The program `plot_glm_file.py` -/

/-- The directories and the images of a file system.  The content of an image is the time it shows. -/
structure Disk where
  dirs : List Text
  files : List (Text × Int)

/-- `os.path.join(a, b)` for a relative `b`. -/
def joinPath (a b : Text) : Text := if a = [] ∨ a.getLast? = some '/' then a ++ b else a ++ '/' :: b

/-- `%b` of `strftime`. -/
def monthName (m : Nat) : Text :=
  (["Jan", "Feb", "Mar", "Apr", "May", "Jun", "Jul", "Aug", "Sep", "Oct", "Nov", "Dec"].getD (m - 1) "").toList

/-- The directory of the images of a day, plot_glm_file.py:38. -/
def dayDirectory (outdir : Text) (t : DateTime) : Text :=
  joinPath outdir ("20".toList ++ two t.year ++ '/' :: monthName t.month ++ '/' :: two t.day)

/-- `outfile.replace(' ', '_').replace(':', '')`, plot_glm_file.py:48-49. -/
def cleanPath (path : Text) : Text := (path.map fun c => if c = ' ' then '_' else c).filter (· ≠ ':')

/-- The path of an image, plot_glm_file.py:43-49. -/
def imagePath (outdir : Text) (t : DateTime) : Text :=
  cleanPath (joinPath (dayDirectory outdir t) ("satellite.GOES-16.".toList ++ strftimeYear t.year ++ two t.month ++
    two t.day ++ two t.hour ++ two t.minute ++ ".GLM_fed_afa_toe_ged_aga_gcd.png".toList))

/-- One round of the loop, plot_glm_file.py:35-51.  `savefig` replaces an existing file and raises FileNotFoundError
if the directory is missing.  Directories above the one that is made are left out. -/
def plotFileStep (calendar : Int → DateTime) (plot : Int → Except Err Unit) (outdir : Text) (disk : Disk) (t : Int) :
    Except Err Disk := do
  plot t
  let dir := dayDirectory outdir (calendar t)
  let dirs := if dir ∈ disk.dirs then disk.dirs else dir :: disk.dirs
  let path := imagePath outdir (calendar t)
  if dirname path ∈ dirs then
    pure ⟨dirs, (path, t) :: disk.files.filter fun f => f.1 ≠ path⟩
  else .error .fileNotFoundError

/-- The main program of plot_glm_file.py, lines 27-51: the times of the series in increasing order. -/
def plotFiles (calendar : Int → DateTime) (plot : Int → Except Err Unit) (outdir : Text) (times : List Int)
    (disk : Disk) : Except Err Disk :=
  (times.mergeSort (· ≤ ·)).foldlM (plotFileStep calendar plot outdir) disk

/-- The six fields of the program, plot_glm_file.py:20-21. -/
def fieldsSixPanel : List String :=
  ["flash_extent_density", "average_flash_area", "total_energy", "group_extent_density", "average_group_area",
   "group_centroid_density"]

/-- The program with the plots it makes: `open_mfdataset` in `open_glm_time_series` gives values that are computed on
demand.  A plot does not change these. -/
def plotProgram (calendar : Int → DateTime) (x y : List Rat) (height : Rat) (vars : List String)
    (files : List ImageData) (outdir : Text) (disk : Disk) : Except Err Disk := do
  let series ← openGlmTimeSeries vars files
  plotFiles calendar (fun t => (plotGlm true x y height ⟨series, []⟩ t fieldsSixPanel (2, 3)).map fun _ => ())
    outdir (series.frames.map Frame.time) disk

end Verif.Model
