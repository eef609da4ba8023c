import Verif.Model.Collection
import Verif.Model.Values

/-!
# Model of the programs in `examples/`

`check_glm_data.py`, `flash_init_dataset.py` and the filter in `glm-lasso-stats.py`.
-/

namespace Verif.Model

open Verif.Py

/-! ### `check_glm_data.py` -/

/-- The loop of `examples/check_glm_data.py:16-21`: the names that are printed, and the exception that ends the
program, if any.  Only KeyError is caught.  `glm` is `GLMDataset` with default arguments on the contents of a file
(`openDataset` or `openWithTimes`; the corrections of areas and energies raise nothing, `Verif.Model.Values`). -/
def checkFiles (glm : GFile → Except Err GFile) : List (String × GFile) → List String × Option Err
  | [] => ([], none)
  | (name, d) :: rest =>
    match glm d with
    | .ok _ => checkFiles glm rest
    | .error .keyError => (name :: (checkFiles glm rest).1, (checkFiles glm rest).2)
    | .error e => ([], some e)

/-! ### `flash_init_dataset.py` -/

/-- `group_frame_time_offset`, the second time variable of a group. -/
def frameTime (r : Row GVal) : Int := r.val.times.getD 1 0

/-- `get_first_group(group_subset)`, `examples/flash_init_dataset.py:6-13`: the row at the `argmin` of the frame
times, which is the first of several.  `argmin` of nothing is a ValueError. -/
def getFirstGroup : List (Row GVal) → Except Err (Row GVal)
  | [] => .error .valueError
  | r :: rs => .ok (rs.foldl (fun best g => if frameTime g < frameTime best then g else best) r)

/-- `glm.parent_groups['group_parent_flash_id']` as a sequence of pairs of id and rows, as used in
`examples/flash_init_dataset.py:16, 39-40`.  The groupby is `None` without groups, and `None` is not iterable. -/
def groupsByFlash (d : GFile) : Except Err (List (Int × List (Row GVal))) :=
  if d.groups = [] then .error .typeError
  else .ok ((groups (d.groups.map Row.pid)).map fun kv => (kv.1, take d.groups kv.2))

/-- `flash_init_manual(glm)`, `examples/flash_init_dataset.py:15-19`: what is printed, id, latitude, longitude. -/
def flashInitManual (d : GFile) : Except Err (List (Int × Rat × Rat)) := do
  (← groupsByFlash d).mapM fun kv => do
    let g ← getFirstGroup kv.2
    pure (kv.1, g.val.lat, g.val.lon)

/-- `get_flash_init_data(glm)`, `examples/flash_init_dataset.py:35-44`: id, longitude, latitude.  `single` is the
conversion to four byte floats; the ids fit four byte integers. -/
def getFlashInitData (single : Rat → Rat) (d : GFile) : Except Err (List (Int × Rat × Rat)) := do
  (← groupsByFlash d).mapM fun kv => do
    let g ← getFirstGroup kv.2
    pure (g.pid, single g.val.lon, single g.val.lat)

/-- `add_flash_init_data(glm)`, `examples/flash_init_dataset.py:46-63`: `flash_id`, `flash_init_lon` and
`flash_init_lat` of the new dataset.  Assignment aligns by flash id: repeated ids are a ValueError, ids without data
get NaN, and `int` of NaN in the check of the alignment is a ValueError. -/
def addFlashInitData (single : Rat → Rat) (d : GFile) : Except Err (List (Int × Rat × Rat)) := do
  let init ← getFlashInitData single d
  if ¬ (d.flashes.map Row.id).Nodup then .error .valueError
  else d.flashes.mapM fun f =>
    match init.find? (fun e => e.1 = f.id) with
    | some e => pure (f.id, e.2.1, e.2.2)
    | none => .error .valueError

/-- `assign_flash_init(ds_one_flash, child_groupby)`, `examples/flash_init_dataset.py:21-33`, for the flash with id
`i` and the positions `idx`: longitude and latitude. -/
def assignFlashInit (d : GFile) (i : Int) (idx : List Nat) : Except Err (Rat × Rat) :=
  if idx.length ≠ 1 then .error .assertionError
  else if d.groups = [] then .error .attributeError
  else match dictGet (groups (d.groups.map Row.pid)) i with
    | none => .error .keyError
    | some k => do
      let g ← getFirstGroup (take d.groups k)
      pure (g.val.lon, g.val.lat)

/-- `calculate_flash_init(glm)`, `examples/flash_init_dataset.py:65-68`: `flash_id`, `flash_init_lon` and
`flash_init_lat` of the new dataset.  `map` of a groupby applies the function to the groups in the order of their
keys and puts the results back to the positions where they came from. -/
def calculateFlashInit (d : GFile) : Except Err (List (Int × Rat × Rat)) :=
  if d.flashes = [] then .error .attributeError
  else do
    let applied ← (groups (d.flashes.map Row.id)).mapM fun kv => do
      let p ← assignFlashInit d kv.1 kv.2
      pure (kv.2.map fun k => (k, kv.1, p.1, p.2))
    pure ((List.range d.flashes.length).filterMap fun n =>
      (applied.flatten.find? fun e => e.1 = n).map fun e => e.2)

/-! ### `glm-lasso-stats.py` -/

/-- A field of a flash record: `k in flashes.dtype.names` and `flashes[k]`, `examples/glm-lasso-stats.py:153-154`,
with the fields of `flash_dtype`, mimic_lma.py:598-605.  The inner `none` is NaN. -/
def ParentRow.field (p : ParentRow) : String → Option (Option Rat)
  | "area" => some p.area
  | "total_energy" => some p.totalEnergy
  | "specific_energy" => some p.specificEnergy
  | "ctr_lat" => some p.ctrLat
  | "ctr_lon" => some p.ctrLon
  | "ctr_alt" => some p.ctrAlt
  | "start" => some p.start
  | "duration" => some p.duration
  | "init_lat" => some p.initLat
  | "init_lon" => some p.initLon
  | "init_alt" => some p.initAlt
  | "flash_id" => some ((p.flashId : Int) : Rat)
  | "n_points" => some ((p.nPoints : Int) : Rat)
  | _ => none

/-- The same for events: `k in events.dtype.names` and `events[k]`, `examples/glm-lasso-stats.py:151-152`, fields of
`event_dtype`, mimic_lma.py:592-597. -/
def ChildRow.field (c : ChildRow) : String → Option (Option Rat)
  | "flash_id" => some ((c.flashId : Int) : Rat)
  | "alt" => some c.alt
  | "lat" => some c.lat
  | "lon" => some c.lon
  | "time" => some c.time
  | "mesh_frac" => some c.meshFrac
  | "mesh_xi" => some ((c.meshXi : Nat) : Rat)
  | "mesh_yi" => some ((c.meshYi : Nat) : Rat)
  | "power" => some c.power
  | _ => none

/-- One of the bounds, `examples/glm-lasso-stats.py:150-154`: `good` is the mask of the record so far.  Comparisons
with NaN are false. -/
def goodStep {β : Type} (field : β → String → Option (Option Rat)) (r : β) (good : Bool) (b : String × Rat × Rat) :
    Bool :=
  match field r b.1 with
  | some (some v) => good && (decide (v ≥ b.2.1) && decide (v ≤ b.2.2))
  | some none => false
  | none => good

/-- The masks `ev_good` and `fl_good` of one record, `examples/glm-lasso-stats.py:147-154`. -/
def goodRecord {β : Type} (field : β → String → Option (Option Rat)) (bounds : List (String × Rat × Rat)) (r : β) :
    Bool :=
  bounds.foldl (goodStep field r) true

/-- `gen_filtered_time_series(events_series, flashes_series, bounds)`, `examples/glm-lasso-stats.py:145-157`. -/
def filteredTimeSeries (events : List (List ChildRow)) (flashes : List (List ParentRow))
    (bounds : List (String × Rat × Rat)) : List (List ChildRow × List ParentRow) :=
  (events.zip flashes).map fun ef =>
    (ef.1.filter (goodRecord ChildRow.field bounds), ef.2.filter (goodRecord ParentRow.field bounds))

/-- `bounds`, `examples/glm-lasso-stats.py:160-163`, with the altitudes in km of the command line,
`examples/glm-lasso-stats.py:57-62`. -/
def lassoBounds (minArea maxArea minAlt maxAlt minEnergy maxEnergy : Rat) : List (String × Rat × Rat) :=
  [("area", minArea, maxArea), ("ctr_alt", minAlt * 1000, maxAlt * 1000),
   ("total_energy", minEnergy, maxEnergy)]

end Verif.Model
