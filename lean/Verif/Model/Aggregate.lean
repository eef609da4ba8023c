import Verif.Py.Basic
import Mathlib.Data.Rat.Floor

/-!
# glmtools/io/imagery.py: time series of images and their aggregation

Times are integers that count nanoseconds, as in the arrays of xarray.  A missing value (NaN) is
`none`.  All operations on values act pixel by pixel.
-/

namespace Verif.Model

open Verif.Py

/-- A pixel: row and column. -/
abbrev Pixel := Nat × Nat

/-- The values of a field over the pixels of one frame. -/
abbrev FrameValues := Pixel → Option Rat

/-- One frame of a time series: its time, and the values of each field. -/
structure Frame where
  time : Int
  value : String → FrameValues

/-- A time series of images: the names of its variables, its frames and its time coverage. -/
structure TimeSeries where
  vars : List String
  frames : List Frame
  coverageStart : Int
  coverageEnd : Int

/-! ## Opening a time series -/

/-- An image file as far as it is read: the attributes `time_coverage_start`, `time_coverage_end`, and
the values of each field. -/
structure ImageData where
  start : Int
  stop : Int
  value : String → FrameValues

/-- `gen_file_times`, imagery.py:663-668, for either attribute.  Time zones are left out. -/
def genFileTimes (attr : ImageData → Int) (files : List ImageData) : List Int := files.map attr

/-- `min(l)`; an empty list is a ValueError. -/
def pyMin : List Int → Except Err Int
  | [] => .error .valueError
  | a :: as => .ok (as.foldl min a)

/-- `max(l)`; an empty list is a ValueError. -/
def pyMax : List Int → Except Err Int
  | [] => .error .valueError
  | a :: as => .ok (as.foldl max a)

/-- `open_glm_time_series`, imagery.py:671-694.  `open_mfdataset(..., combine='nested')` is taken as
concatenation in the order of the list (an OSError for an empty list is modelled as the ValueError
that `min` would raise); then the start times become the coordinate. -/
def openGlmTimeSeries (vars : List String) (files : List ImageData) : Except Err TimeSeries := do
  let starts := genFileTimes (·.start) files
  let ends := genFileTimes (·.stop) files
  let frames := List.zipWith (fun t d => Frame.mk t d.value) starts files
  let covStart ← pyMin starts
  let covEnd ← pyMax ends
  pure ⟨vars, frames, covStart, covEnd⟩

/-! ## Aggregation -/

/-- `pd.Timestamp(t).to_pydatetime()`: nanoseconds are cut off to microseconds. -/
def toPydatetime (t : Int) : Int := t / 1000 * 1000

/-- One minute. -/
def oneMinute : Int := 60000000000

/-- `sum(..., skipna=True)`: missing values count as nothing, also if all are missing. -/
def nanSum (l : List (Option Rat)) : Rat := (l.map (·.getD 0)).sum

/-- `min(..., skipna=True)`: missing values are ignored; missing if all are missing. -/
def nanMin (l : List (Option Rat)) : Option Rat :=
  match l.filterMap id with
  | [] => none
  | a :: as => some (as.foldl min a)

/-- Products and quotients with missing values.  A quotient by zero is NaN or infinite; both are
represented by `none`. -/
def mulNan (a b : Option Rat) : Option Rat :=
  match a, b with
  | some a, some b => some (a * b)
  | _, _ => none

def divNan (a b : Option Rat) : Option Rat :=
  match a, b with
  | some a, some b => if b = 0 then none else some (a / b)
  | _, _ => none

/-- The names of the fields that are summed, imagery.py:613-615. -/
def sumVars : List String :=
  ["flash_extent_density", "flash_centroid_density", "total_energy", "group_extent_density",
   "group_centroid_density"]

/-- The names of the fields whose minimum is taken, imagery.py:621-622.  The projection and the
coordinates of the satellite, which are constant, are left out. -/
def minVars : List String := ["minimum_flash_area"]

/-- One interval of the result, with its values. -/
structure AggBin where
  left : Int
  right : Int
  value : String → FrameValues

/-- The result: the names of its variables, its intervals and its time coverage. -/
structure Aggregated where
  vars : List String
  bins : List AggBin
  coverageStart : Int
  coverageEnd : Int

/-- The edges of the intervals, imagery.py:631.  The quotient of two timedeltas is taken as exact. -/
def binEdges (start duration dt : Int) : List Int :=
  (List.range (duration.tdiv dt + 1).toNat).map fun (i : Nat) => start + dt * (i : Int)

/-- `groupby_bins`: an interval is open to the left and closed to the right. -/
def inBin (b : Int × Int) (t : Int) : Bool := b.1 < t ∧ t ≤ b.2

/-- The fields of one frame that are summed, imagery.py:616-617, 628-629: both totals are the product
of the average flash area with the flash extent density. -/
def summand (f : Frame) (name : String) (p : Pixel) : Option Rat :=
  if name = "total_flash_area" then
    mulNan (f.value "average_flash_area" p) (f.value "flash_extent_density" p)
  else if name = "total_group_area" then
    mulNan (f.value "average_flash_area" p) (f.value "flash_extent_density" p)
  else f.value name p

/-- The values of one interval, imagery.py:633-647.  An interval without frames has no values. -/
def aggregateBin (frames : List Frame) (b : Int × Int) : AggBin :=
  let inside := frames.filter fun f => inBin b f.time
  let sums : String → FrameValues := fun name p =>
    if inside.isEmpty then none else some (nanSum (inside.map fun f => summand f name p))
  let mins : String → FrameValues := fun name p => nanMin (inside.map fun f => f.value name p)
  { left := b.1, right := b.2,
    value := fun name p =>
      if name = "average_flash_area" then
        divNan (sums "total_flash_area" p) (sums "flash_extent_density" p)
      else if name = "average_group_area" then
        divNan (sums "total_group_area" p) (sums "group_extent_density" p)
      else if name ∈ minVars then mins name p
      else sums name p }

/-- `aggregate`, imagery.py:572-660.  `minutes` is an integer that is not negative.  Grouping fails if
no frame falls into any interval. -/
def aggregate (glm : TimeSeries) (minutes : Nat) (startEnd : Option (Int × Int)) :
    Except Err Aggregated := do
  let dt := oneMinute * minutes
  let se ← match startEnd with
    | some se => Except.ok se
    | none => do
      let first ← pyMin (glm.frames.map (·.time))
      let last ← pyMax (glm.frames.map (·.time))
      pure (toPydatetime first, toPydatetime last + dt)
  let duration := se.2 - se.1
  let summed := sumVars.filter (· ∈ glm.vars)
  let mins := minVars.filter (· ∈ glm.vars)
  if "average_flash_area" ∉ glm.vars ∨ "flash_extent_density" ∉ glm.vars then .error .attributeError
  if dt = 0 then .error .zeroDivisionError
  let edges := binEdges se.1 duration dt
  let bins := edges.zip edges.tail
  if glm.frames.all (fun f => bins.all fun b => !inBin b f.time) then .error .valueError
  if "group_extent_density" ∉ glm.vars then .error .attributeError
  let out := bins.map (aggregateBin glm.frames)
  let covStart ← pyMin (out.map (·.left))
  let covEnd ← pyMax (out.map (·.right))
  pure ⟨summed ++ ["total_flash_area", "total_group_area", "average_flash_area", "average_group_area"]
    ++ mins, out, covStart, covEnd⟩

end Verif.Model
