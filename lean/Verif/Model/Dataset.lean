import Verif.Model.Traversal
import Mathlib.Data.Rat.Floor

/-!
# Model of `GLMDataset` in `glmtools/io/glm.py`: opening, derived variables, subsetting

Simplifications:
* the three levels share one record of variables, `GVal`; a level uses the fields it has;
* coordinates are rationals; the conversion of longitude and latitude to fixed grid
  coordinates is a parameter `nav` (its formula is modelled in `Verif.Model.Ellipse`);
* the iteration order of a python `set` is a parameter `order`, an arbitrary function.  Theorems
  assume only that `order l` is a permutation of `l`.
-/

namespace Verif.Model

open Verif.Py

/-- Variables of one flash, group or event.  `flashOf` is `event_parent_flash_id`, `nGroups`
`flash_child_group_count`, `nEvents` `flash_child_event_count` / `group_child_event_count`, `times`
the counts of the time variables (four for a flash, two for a group, one for an event). -/
structure GVal where
  lon : Rat := 0
  lat : Rat := 0
  x : Rat := 0
  y : Rat := 0
  energy : Rat := 0
  area : Rat := 0
  flashOf : Int := 0
  nGroups : Nat := 0
  nEvents : Nat := 0
  times : List Int := []
  deriving DecidableEq, Repr

/-- The dataset of one LCFA file. -/
structure GFile where
  flashes : List (Row GVal)
  groups : List (Row GVal)
  events : List (Row GVal)
  deriving DecidableEq, Repr

/-- `OneToManyTraversal(dataset, self.entity_ids, self.parent_ids)` with the variable names of
glm.py:188-189. -/
def GFile.levels (d : GFile) : List (Level GVal) :=
  [⟨"flash_id", none, d.flashes⟩,
   ⟨"group_id", some "group_parent_flash_id", d.groups⟩,
   ⟨"event_id", some "event_parent_group_id", d.events⟩]

/-- The dataset with the rows of the given levels. -/
def GFile.ofLevels : List (Level GVal) → Except Err GFile
  | [f, g, e] => .ok ⟨f.rows, g.rows, e.rows⟩
  | _ => .error .keyError

/-- The `check_tree` branch of `GLMDataset.__init__`, glm.py:198-222. -/
def repairTree (order : List Int → List Int) (d : GFile) : Except Err GFile := do
  let (es, ps) ← checkParentChild d.levels
  if es.any (fun s => 0 < s.badCount) || ps.any (fun s => 0 < s.badCount) then
    match es.find? (fun s => s.var == "flash_id") with
    | none => .error .keyError
    | some s =>
      -- `set(group_parent_flash_id) - flashes_with_no_groups` as a list
      let good := order ((npUnique (d.groups.map Row.pid)).filter (· ∉ s.bad))
      GFile.ofLevels (← reduceToEntities d.levels "flash_id" good)
  else pure d

/-- `self.dataset[name] = xr.DataArray(xs, dims=[dim])`: ValueError for conflicting sizes. -/
def setVar {β : Type} (upd : Row GVal → β → Row GVal) (rows : List (Row GVal)) (xs : List β) :
    Except Err (List (Row GVal)) :=
  if xs.length = rows.length then .ok (List.zipWith upd rows xs) else .error .valueError

/-- Assignment of `event_parent_flash_id`. -/
def setFlashOf (r : Row GVal) (i : Int) : Row GVal := { r with val := { r.val with flashOf := i } }
/-- Assignment of `flash_child_group_count`. -/
def setNGroups (r : Row GVal) (n : Nat) : Row GVal := { r with val := { r.val with nGroups := n } }
/-- Assignment of `flash_child_event_count` or `group_child_event_count`. -/
def setNEvents (r : Row GVal) (n : Nat) : Row GVal := { r with val := { r.val with nEvents := n } }

/-- `GLMDataset.__init_parent_child_data`, glm.py:254-305. -/
def initParentChild (d : GFile) : Except Err GFile := do
  let noData := d.flashes.length = 0 ∨ d.groups.length = 0 ∨ d.events.length = 0
  -- lines 269-277
  let flashIds ← if noData then pure []
    else replicateParentIds d.levels "flash_id" "event_parent_group_id"
  let events ← setVar setFlashOf d.events flashIds
  -- lines 281-296
  let (fc, gc, count) ← if noData then pure ([], [], [])
    else do
      let all ← countChildren d.levels "flash_id" (some "event_id")
      match all with
      | fc :: gc :: _ =>
        let grouper := groups (events.map fun e => e.val.flashOf)
        pure (fc, gc, countLine grouper (d.flashes.map Row.id))
      | _ => .error .indexError
  -- lines 298-305
  let flashes ← setVar setNGroups d.flashes fc
  let groups ← setVar setNEvents d.groups gc
  let flashes ← setVar setNEvents flashes count
  pure ⟨flashes, groups, events⟩

/-- Fixed grid coordinates of one row. -/
def setXY (nav : Rat → Rat → Rat × Rat) (r : Row GVal) : Row GVal :=
  { r with val := { r.val with x := (nav r.val.lon r.val.lat).1, y := (nav r.val.lon r.val.lat).2 } }

/-- `GLMDataset.__init_fixed_grid_data`, glm.py:545-576. -/
def initFixedGrid (nav : Rat → Rat → Rat × Rat) (d : GFile) : GFile :=
  ⟨d.flashes.map (setXY nav), d.groups.map (setXY nav), d.events.map (setXY nav)⟩

/-- `GLMDataset.__init__`, glm.py:188-240, up to the corrections of times, areas and energies
(modelled in `Verif.Model.Values`). -/
def openDataset (order : List Int → List Int) (nav : Rat → Rat → Rat × Rat)
    (checkTree calcParentChild : Bool) (d : GFile) : Except Err GFile := do
  let d ← if checkTree then repairTree order d else pure d
  if calcParentChild then
    let d ← initParentChild d
    pure (initFixedGrid nav d)
  else pure d

/-- Limit of the corner point lookup table, glm.py:398, 406: 0.1349 radians. -/
def fovLimit : Rat := 1349 / 10000

/-- `GLMDataset._check_event_xy(x_range, y_range)`, glm.py:398-423. -/
def checkEventXY (d : GFile) (xRange yRange : Rat × Rat) : List Int :=
  let xr := (max (-fovLimit) xRange.1, min fovLimit xRange.2)
  let yr := (max (-fovLimit) yRange.1, min fovLimit yRange.2)
  npUnique ((d.events.filter fun e =>
    decide (e.val.x < xr.2) && decide (e.val.x > xr.1) &&
    (decide (e.val.y < yr.2) && decide (e.val.y > yr.1))).map fun e => e.val.flashOf)

/-- The optional arguments of `subset_flashes`. -/
structure Criteria where
  lon : Option (Rat × Rat) := none
  lat : Option (Rat × Rat) := none
  x : Option (Rat × Rat) := none
  y : Option (Rat × Rat) := none
  minEvents : Option Int := none
  minGroups : Option Int := none

/-- `if range is not None: good &= (v < range[1]) & (v > range[0])`. -/
def rangeMask (range : Option (Rat × Rat)) (v : Rat) (good : Bool) : Bool :=
  match range with
  | none => good
  | some r => good && (decide (v < r.2) && decide (v > r.1))

/-- `if least is not None: good &= (n >= least)`. -/
def countMask (least : Option Int) (n : Nat) (good : Bool) : Bool :=
  match least with
  | none => good
  | some m => good && decide ((n : Int) ≥ m)

/-- The mask `good` of one flash, glm.py:502-518. -/
def flashMask (c : Criteria) (f : Row GVal) : Bool :=
  countMask c.minGroups f.val.nGroups <|
  countMask c.minEvents f.val.nEvents <|
  rangeMask c.lat f.val.lat <|
  rangeMask c.lon f.val.lon <|
  rangeMask c.y f.val.y <|
  rangeMask c.x f.val.x true

/-- `GLMDataset.get_flashes`, glm.py:534-543. -/
def getFlashes (d : GFile) (ids : List Int) : Except Err GFile := do
  GFile.ofLevels (← reduceToEntities d.levels "flash_id" ids)

/-- `GLMDataset.subset_flashes`, glm.py:478-532.  `good_event_flash_ids` is unbound when
`check_event_xy` is off. -/
def subsetFlashes (order : List Int → List Int) (d : GFile) (c : Criteria) (checkXY : Bool) :
    Except Err GFile := do
  let flashIds := (d.flashes.filter (flashMask c)).map Row.id
  let goodEventFlashIds ← if checkXY then
      pure (checkEventXY d (c.x.getD (-fovLimit, fovLimit)) (c.y.getD (-fovLimit, fovLimit)))
    else .error .unboundLocalError
  getFlashes d (order ((npUnique flashIds).filter (· ∈ goodEventFlashIds)))

end Verif.Model
