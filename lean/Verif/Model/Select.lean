import Verif.Model.Driver
import Verif.Model.Lut

/-!
# `process_flashes`: from the options of a gridding call to the flashes that are read

glmtools/grid/make_grids.py:366-403 and glmtools/io/mimic_lma.py:30-93.
-/

namespace Verif.Model

open Verif.Py

/-- The keyword arguments of `process_flashes`, make_grids.py:366-370. -/
def processArgs : List String :=
  ["lat_bnd", "lon_bnd", "x_bnd", "y_bnd", "min_points_per_flash", "min_groups_per_flash",
   "clip_events", "fixed_grid", "nadir_lon", "corner_pickle"]

/-- A range, or none.  Anything else is a TypeError when it is compared with coordinates. -/
def Val.asRange : Val → Except Err (Option (Rat × Rat))
  | .none => .ok Option.none
  | .bnd lo hi => .ok (some (lo, hi))
  | _ => .error .typeError

/-- A least number, or none; other types of numbers are not considered. -/
def Val.asLeast : Val → Except Err (Option Int)
  | .none => .ok Option.none
  | .nat n => .ok (some (n : Int))
  | _ => .error .typeError

/-- The value of a keyword argument with default None. -/
def argOf (d : Dict) (k : String) : Val :=
  match d.get k with
  | .ok v => v
  | .error _ => .none

/-- The call of `read_flashes` in `process_flashes`, make_grids.py:397-403, as far as the selection
of flashes goes.  A keyword that `process_flashes` does not have is a TypeError. -/
def processCriteria (proc : Dict) : Except Err Criteria := do
  if proc.any (fun e => !processArgs.contains e.1) then throw .typeError
  let x ← (argOf proc "x_bnd").asRange
  let y ← (argOf proc "y_bnd").asRange
  let lon ← (argOf proc "lon_bnd").asRange
  let lat ← (argOf proc "lat_bnd").asRange
  let minEvents ← (argOf proc "min_points_per_flash").asLeast
  let minGroups ← (argOf proc "min_groups_per_flash").asLeast
  pure { lon, lat, x, y, minEvents, minGroups }

/-- The chunks of flashes that `process_flashes` reads from a file, with the default chunk size of
mimic_lma.py:33. -/
def processFlashes (order : List Int → List Int) (proc : Dict) (glm : GFile) :
    Except Err (List GFile) := do
  readFlashesChunks order glm (← processCriteria proc) 20000

/-- A gridder that keeps what it reads, in order. -/
def recorder (order : List Int → List Int) : Gridder (List GFile) Unit where
  init := fun _ => []
  openFile := fun _ f => .ok f
  process := fun s proc glm => do pure (s ++ (← processFlashes order proc glm))
  write := fun _ _ _ _ => .ok []

end Verif.Model
