import Verif.Model.Lcfa
import Verif.Model.Traversal

/-!
# glmtools/io/convert_lcfa.py: writing the converted file, and what a traversal finds in it

Simplification: what is written to the file is what is read from it (integers and doubles are stored as they are).
-/

namespace Verif.Model

open Verif.Py

variable {F : Type}

/-- A variable of a dataset: along one dimension, and perhaps one of its coordinates. -/
structure LcfaVar (F : Type) where
  name : String
  dim : String
  coord : Bool
  values : List (Cell F)
  deriving DecidableEq, Repr

/-- `frame.to_xarray()` for a frame whose index has the name `dim`: the index becomes a coordinate of the same
name, convert_lcfa.py:140-142, 148-150. -/
def toXarray (frame : DataFrame F) (dim : String) : List (LcfaVar F) :=
  ⟨dim, dim, true, (List.range ((frame.map fun c => c.2.length).headD 0)).map fun i => .int i⟩ ::
    frame.map fun c => ⟨c.1, dim, false, c.2⟩

/-- `a.merge(b)` for datasets without common names.  (Common names are compared; here they count as a
conflict, a MergeError, which is a ValueError.) -/
def mergeData (a b : List (LcfaVar F)) : Except Err (List (LcfaVar F)) :=
  if (a.map LcfaVar.name).any fun n => (b.map LcfaVar.name).contains n then .error .valueError else .ok (a ++ b)

/-- `d.set_coords(names)`: ValueError if one is not in the dataset. -/
def setCoords (d : List (LcfaVar F)) (names : List String) : Except Err (List (LcfaVar F)) :=
  if names.all fun n => (d.map LcfaVar.name).contains n then
    .ok (d.map fun v => { v with coord := v.coord || names.contains v.name })
  else .error .valueError

/-- convert_lcfa.py:48-64 -/
def ncCoords : List String :=
  ["event_id", "event_time_offset", "event_lat", "event_lon", "event_parent_group_id",
   "group_id", "group_time_offset", "group_lat", "group_lon", "group_parent_flash_id",
   "flash_id", "flash_time_offset_of_first_event", "flash_time_offset_of_last_event", "flash_lat", "flash_lon"]

/-- `merge_dataframes_to_xarray`, convert_lcfa.py:147-153.  `inplace` says if the installed xarray still has the
argument of that name; if not, `set_coords` is a TypeError. -/
def mergeFrames (inplace : Bool) (flashes groups events : DataFrame F) : Except Err (List (LcfaVar F)) := do
  let evx := toXarray events "number_of_events"
  let flx := toXarray flashes "number_of_flashes"
  let grx := toXarray groups "number_of_groups"
  let egf ← mergeData (← mergeData evx grx) flx
  if inplace then setCoords egf ncCoords else .error .typeError

/-- `main(infile, outfile)`, convert_lcfa.py:155-158: what is written to `outfile`; nothing is written if there is an
exception.  `text` is what is in `infile`, if there is such a file. -/
def convertMain (N : Numbers F) (inplace : Bool) (text : Option Text) : Except Err (List (LcfaVar F)) :=
  match text with
  | none => .error .fileNotFoundError
  | some text => do
    let (flashes, groups, events) ← parseLcfa N text
    mergeFrames inplace flashes groups events

/-- A number of an id variable.  In converted files these are integers. -/
def Cell.id : Cell F → Int
  | .int n => n
  | .float _ => 0

/-- `dataset[name]`: KeyError if there is no such variable. -/
def ncGet (d : List (LcfaVar F)) (name : String) : Except Err (LcfaVar F) :=
  match d.find? fun v => v.name = name with
  | some v => .ok v
  | none => .error .keyError

/-- The rows along the dimension of an entity variable, traversal.py:73-94: ids, ids of the parents, and all variables
along the dimension. -/
def ncRows (d : List (LcfaVar F)) (evar : String) (pvar : Option String) :
    Except Err (List (Row (List (String × Cell F)))) := do
  let e ← ncGet d evar
  let p ← match pvar with
    | some p => ncGet d p
    | none => pure e
  pure ((List.range e.values.length).map fun i =>
    ⟨(e.values.getD i (.int 0)).id, (p.values.getD i (.int 0)).id,
      (d.filter fun v => v.dim = e.dim).map fun v => (v.name, v.values.getD i (.int 0))⟩)

/-- `OneToManyTraversal(xr.open_dataset(outfile), entity_ids, parent_ids)` with the names of glm.py:188-189. -/
def ncTraversal (d : List (LcfaVar F)) : Except Err (List (Level (List (String × Cell F)))) := do
  let flashes ← ncRows d "flash_id" none
  let groups ← ncRows d "group_id" (some "group_parent_flash_id")
  let events ← ncRows d "event_id" (some "event_parent_group_id")
  mkTraversal (fun v => if v = "flash_id" then flashes else if v = "group_id" then groups else events)
    ["flash_id", "group_id", "event_id"] ["group_parent_flash_id", "event_parent_group_id"]

end Verif.Model
