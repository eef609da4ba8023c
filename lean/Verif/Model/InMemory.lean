import Verif.Model.OpenOptions

/-!
# glmtools/io/glm.py: `GLMDataset` of a dataset in memory

`GLMDataset(dataset)` for an `xarray.Dataset` works on that object, glm.py:191-194: assignments to variables of `self.dataset`
are assignments to variables of the object that was given.  Here the objects in memory are a list, and a dataset is a place in
it.
-/

namespace Verif.Model

open Verif.Py

/-- An `xarray.Dataset` with the variables of an LCFA file: what the file said besides its rows, the rows, and the variables of
energies and areas, which take the place of those in the rows. -/
structure DataObject where
  attrs : FileAttrs
  rows : GFile
  values : ValueVars

/-- A dataset as it is read from a file. -/
def DataObject.ofFile (a : FileAttrs) (file : GFile) : DataObject := ⟨a, file, valueVars a file⟩

/-- The datasets in memory. -/
abbrev Objects := List DataObject

/-- An assignment to a variable of rows: nothing is assigned if the sizes differ. -/
def assignRows {β : Type} (upd : Row GVal → β → Row GVal) (rows : List (Row GVal)) (xs : List β) :
    List (Row GVal) × Except Err Unit :=
  match setVar upd rows xs with
  | .ok rows => (rows, .ok ())
  | .error e => (rows, .error e)

/-- The assignments of counts, glm.py:298-305, to a dataset whose events are `events`, with what has been assigned when they are
left by an exception. -/
def countSteps (d : GFile) (events : List (Row GVal)) (fc gc count : List Nat) : GFile × Except Err Unit :=
  match assignRows setNGroups d.flashes fc with
  | (_, .error e) => ({ d with events }, .error e)
  | (flashes, .ok ()) =>
    match assignRows setNEvents d.groups gc with
    | (_, .error e) => ({ d with events, flashes }, .error e)
    | (groups, .ok ()) =>
      match assignRows setNEvents flashes count with
      | (_, .error e) => (⟨flashes, groups, events⟩, .error e)
      | (flashes, .ok ()) => (⟨flashes, groups, events⟩, .ok ())

/-- `GLMDataset.__init_parent_child_data`, glm.py:254-305, with what has been assigned when it is left by an exception. -/
def parentChildSteps (d : GFile) : GFile × Except Err Unit :=
  let noData := d.flashes.length = 0 ∨ d.groups.length = 0 ∨ d.events.length = 0
  -- lines 269-279
  match (if noData then pure [] else replicateParentIds d.levels "flash_id" "event_parent_group_id" : Except Err (List Int)) with
  | .error e => (d, .error e)
  | .ok flashIds =>
    match assignRows setFlashOf d.events flashIds with
    | (_, .error e) => (d, .error e)
    | (events, .ok ()) =>
      -- lines 281-296
      if noData then countSteps d events [] [] []
      else match countChildren d.levels "flash_id" (some "event_id") with
        | .error e => ({ d with events }, .error e)
        | .ok (fc :: gc :: _) =>
          countSteps d events fc gc (countLine (groups (events.map fun e => e.val.flashOf)) (d.flashes.map Row.id))
        | .ok _ => ({ d with events }, .error .indexError)

/-- `GLMDataset.__init__` after the check of the tree, glm.py:224-252, on the object it works on.  The correction of times opens
the file again (glm.py:452); a dataset is not a file, and what `xr.open_dataset` raises for one depends on its version. -/
def openInPlace (notAFile : Err) (nav : Rat → Rat → Rat × Rat) (o : OpenOptions) (x : DataObject) :
    DataObject × Except Err Unit :=
  match (if o.calculateParentChild then parentChildSteps x.rows else (x.rows, .ok ()) : GFile × Except Err Unit) with
  | (rows, .error e) => ({ x with rows }, .error e)
  | (rows, .ok ()) =>
    let rows := if o.calculateParentChild then initFixedGrid nav rows else rows
    let x := { x with rows }
    if o.fixTimes && needsTimeFix x.attrs.productMin x.attrs.productMax x.attrs.hasFrameTime then (x, .error notAFile)
    else
      let (values, result) := openValues o.checkAreaUnits o.changeEnergyUnits x.values
      ({ x with values }, result)

/-- The check of the tree of a dataset, glm.py:198-222: a new dataset if there is something to repair.  The given dataset is
taken to be as it is read from a file. -/
def repairObject (order : List Int → List Int) (x : DataObject) : Except Err (Option DataObject) := do
  let (es, ps) ← checkParentChild x.rows.levels
  let rows ← repairTree order x.rows
  if es.any (fun s => 0 < s.badCount) || ps.any (fun s => 0 < s.badCount) then pure (some (.ofFile x.attrs rows))
  else pure none

/-- `GLMDataset(dataset, **options)` for the dataset at place `ref`, glm.py:153-252: the datasets in memory afterwards, and the
place of `self.dataset`. -/
def openObject (notAFile : Err) (order : List Int → List Int) (nav : Rat → Rat → Rat × Rat) (o : OpenOptions) (m : Objects)
    (ref : Nat) : Objects × Except Err Nat :=
  match m[ref]? with
  | none => (m, .error .nameError)
  | some x =>
    match (if o.checkTree then repairObject order x else pure none : Except Err (Option DataObject)) with
    | .error e => (m, .error e)
    | .ok none =>
      let (x, result) := openInPlace notAFile nav o x
      (m.set ref x, result.map fun _ => ref)
    | .ok (some y) =>
      let (y, result) := openInPlace notAFile nav o y
      (m ++ [y], result.map fun _ => m.length)

end Verif.Model
