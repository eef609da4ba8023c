import Verif.Py.Basic

/-!
# Model of `glmtools/io/traversal.py`

A dataset is a list of levels from the top of the hierarchy to the bottom.  A level is one
dimension of the xarray dataset together with its entity id variable and, except at the top,
its parent id variable.  All other variables along the dimension are the payload `val` of a row.

Simplifications:
* each id variable is one-dimensional and all variable names are distinct, so the dictionaries
  keyed by variable name in the python class are fields of the level;
* ids are integers;
* the parent id variables are coordinates of the dataset, as in the product and in converted files (C123);
  otherwise line 189 is a KeyError.
-/

namespace Verif.Model

open Verif.Py

/-- One row along a dimension: its entity id, its parent id (meaningless at the top level, where
the code has `None` for the parent variable) and everything else. -/
structure Row (α : Type) where
  id : Int
  pid : Int
  val : α
  deriving DecidableEq, Repr

/-- A dimension with its id variables: traversal.py:59-61. -/
structure Level (α : Type) where
  evar : String
  pvar : Option String
  rows : List (Row α)
  deriving DecidableEq, Repr

namespace Level
variable {α : Type}
/-- `dataset[e_var].data` -/
def ids (l : Level α) : List Int := l.rows.map Row.id
/-- `dataset[p_var].data` -/
def pids (l : Level α) : List Int := l.rows.map Row.pid
end Level

variable {α : Type}

/-- `OneToManyTraversal.__init__`, traversal.py:53-94.  `tables` gives the rows along the
dimension of each entity variable.  The check of lines 53-57 is
`n_parent_keys != n_entities - 1` on python integers, so it also rejects zero entities.
Groupbys are computed where they are used (`entityGroups`, `parentGroups`). -/
def mkTraversal (tables : String → List (Row α)) (entityVars parentVars : List String) :
    Except Err (List (Level α)) :=
  if (parentVars.length : Int) ≠ (entityVars.length : Int) - 1 then
    .error .valueError
  else
    .ok ((entityVars.zip (none :: parentVars.map some)).map fun ep =>
      { evar := ep.1, pvar := ep.2, rows := tables ep.1 })

/-- `self.entity_groups[e_var].groups`, traversal.py:75-80: the groupby is `None` for an empty
dimension, so that `.groups` raises AttributeError. -/
def entityGroups (l : Level α) : Except Err (List (Int × List Nat)) :=
  if l.rows = [] then .error .attributeError else .ok (groups l.ids)

/-- `self.parent_groups[p_var].groups`, traversal.py:81-89.  `None` at the top of the hierarchy
and for an empty dimension. -/
def parentGroups (l : Level α) : Except Err (List (Int × List Nat)) :=
  if l.pvar = none then .error .attributeError
  else if l.rows = [] then .error .attributeError else .ok (groups l.pids)

/-! ### `count_children`, traversal.py:104-137 -/

/-- Local variables of the loop of `count_children`.  `last` is `none` until
`last_entity_ids` is bound. -/
structure CountState where
  countNext : Bool
  last : List Int
  counts : List (List Nat)

/-- Lines 128-129: `[len(grouper[eid]) if (eid in grouper) else 0 for eid in last_entity_ids]`. -/
def countLine (g : List (Int × List Nat)) (last : List Int) : List Nat :=
  last.map fun eid =>
    match dictGet g eid with
    | some idx => idx.length
    | none => 0

/-- One iteration of the loop, lines 125-136. -/
def countStep (entity : String) (child : Option String) (s : CountState) (l : Level α) :
    Except Err CountState := do
  -- lines 126-131
  let s ← if s.countNext then do
      let g ← parentGroups l
      pure { s with counts := s.counts ++ [countLine g s.last], last := l.ids }
    else pure s
  -- lines 132-133
  let s := if child = none ∨ child = some l.evar then { s with countNext := false } else s
  -- lines 134-136
  if l.evar = entity then pure { s with countNext := true, last := l.ids } else pure s

/-- `count_children(entity_id_var, child_entity_id_var)`, traversal.py:104-137. -/
def countChildren (t : List (Level α)) (entity : String) (child : Option String) :
    Except Err (List (List Nat)) := do
  let s ← t.foldlM (countStep entity child) ⟨false, [], []⟩
  pure s.counts

/-! ### `replicate_parent_ids`, traversal.py:139-195 -/

/-- `np.asarray(e_idx).flatten()` for a list of lists of positions, line 181.  All groups of the
same length give a rectangular array, which flattens to the concatenation.  A ragged list is
not an array of integers and cannot be used as an index (ValueError from numpy 1.24). -/
def flattenIdx (e : List (List Nat)) : Except Err (List Nat) :=
  match e with
  | [] => .ok []
  | x :: xs => if xs.all (fun y => y.length == x.length) then .ok (x :: xs).flatten
               else .error .valueError

/-- `[grouper.groups[eid] for eid in last_replicated_p_ids]`, lines 179-180.  With a `None`
groupby the attribute is only looked up if there is an id to look up. -/
def lookupAll (l : Level α) (ids : List Int) : Except Err (List (List Nat)) :=
  match ids with
  | [] => .ok []
  | ids => do
    let g ← entityGroups l
    ids.mapM fun eid =>
      match dictGet g eid with
      | some idx => .ok idx
      | none => .error .keyError

/-- Local variables of the loop: `collect`, and `last_replicated_p_ids` (`none` = unbound). -/
structure ReplState where
  collect : Bool
  last : Option (List Int)

/-- One iteration of the loop, lines 170-194. -/
def replStep (entity parent : String) (s : ReplState) (l : Level α) : Except Err ReplState := do
  -- lines 171-176
  let s := if l.evar = entity then { s with collect := false } else s
  -- lines 177-189
  let s ← if s.collect then do
      let idxs ← lookupAll l (s.last.getD [])
      let idx ← flattenIdx idxs
      -- line 189: `last_replicated_e_ids[p_var]` with `p_var` None at the top is not an id array
      match l.pvar with
      | none => .error .typeError
      | some _ => pure { s with last := some ((take l.rows idx).map Row.pid) }
    else pure s
  -- lines 190-194
  if l.pvar = some parent then pure { collect := true, last := some l.pids } else pure s

/-- `replicate_parent_ids(entity_id_var, parent_id_var)`, traversal.py:139-195.  Line 195 raises
UnboundLocalError if `parent_id_var` was never met. -/
def replicateParentIds (t : List (Level α)) (entity parent : String) :
    Except Err (List Int) := do
  let s ← t.reverse.foldlM (replStep entity parent) ⟨false, none⟩
  match s.last with
  | some ids => pure ids
  | none => .error .unboundLocalError

/-! ### `reduce_to_entities`, traversal.py:198-282 -/

/-- Lines 217-219, 237-239, 261-263: chain together the positions of every id that is a key. -/
def chainIdx (g : List (Int × List Nat)) (ids : List Int) : List Nat :=
  ids.flatMap fun eid => (dictGet g eid).getD []

/-- Local variables `prune` and `last_entity_ids` of both loops. -/
structure PruneState where
  prune : Bool
  last : List Int

/-- One iteration of the descending loop, lines 214-246, and the new rows of this level.
Simplification: the python code postpones the indexing of the entity's own dimension to the next
iteration (lines 223-224) or to the end (lines 252-253).  Nothing reads that dimension in
between, so the model indexes it at once. -/
def descendStep (entity : String) (entityIds : List Int) (s : PruneState) (l : Level α) :
    Except Err (PruneState × Level α) := do
  -- lines 215-225
  let (s, l') ← if s.prune then do
      let g ← parentGroups l
      let l' := { l with rows := take l.rows (chainIdx g s.last) }
      pure ({ s with last := l'.ids }, l')
    else pure (s, l)
  -- lines 229-246
  if l.evar = entity then do
    let g ← entityGroups l
    pure (⟨true, entityIds⟩, { l with rows := take l.rows (chainIdx g entityIds) })
  else pure (s, l')

/-- The descending loop, top to bottom. -/
def descendLoop (entity : String) (entityIds : List Int) (s : PruneState) :
    List (Level α) → Except Err (List (Level α))
  | [] => .ok []
  | l :: ls => do
    let (s, l') ← descendStep entity entityIds s l
    let ls' ← descendLoop entity entityIds s ls
    pure (l' :: ls')

/-- One iteration of the ascending loop, lines 258-280.  `orig` is the level of the original
dataset (its groupby is used), `cur` the level as left by the descending loop.  Above the entity
both are the same; at and below it `prune` is off. -/
def ascendStep (entity : String) (s : PruneState) (orig cur : Level α) :
    Except Err (PruneState × Level α) := do
  -- lines 259-268
  let l' ← if s.prune then do
      let g ← entityGroups orig
      pure { cur with rows := take cur.rows (chainIdx g s.last) }
    else pure cur
  -- lines 269-273
  let s := if cur.pvar ≠ none then { s with last := npUnique l'.pids }
           else { s with prune := false }
  -- lines 276-280
  let s := if cur.evar = entity ∧ cur.pvar ≠ none then ⟨true, npUnique l'.pids⟩ else s
  pure (s, l')

/-- The ascending loop, bottom to top: both lists are given from the bottom up. -/
def ascendLoop (entity : String) (s : PruneState) :
    List (Level α × Level α) → Except Err (List (Level α))
  | [] => .ok []
  | (orig, cur) :: ls => do
    let (s, l') ← ascendStep entity s orig cur
    let ls' ← ascendLoop entity s ls
    pure (l' :: ls')

/-- `reduce_to_entities(entity_id_var, entity_ids)`, traversal.py:198-282. -/
def reduceToEntities (t : List (Level α)) (entity : String) (entityIds : List Int) :
    Except Err (List (Level α)) := do
  let d ← descendLoop entity entityIds ⟨false, []⟩ t
  let r ← ascendLoop entity ⟨false, []⟩ (t.zip d).reverse
  pure r.reverse

/-! ### `check_parent_child`, traversal.py:284-373 -/

/-- One entry of `entity_var_stats` or `parent_var_stats`: variable name, number of distinct ids,
number of unmatched ids, the unmatched ids (a python set: here a list without repetition). -/
structure Stat where
  var : String
  count : Nat
  badCount : Nat
  bad : List Int
  deriving DecidableEq, Repr

/-- Lines 333-358 for one parent/child pair of levels. -/
def checkPair (parent child : Level α) : Except Err (Stat × Stat) := do
  let parentIds := (← parentGroups child).map Prod.fst
  let parentEntityIds := (← entityGroups parent).map Prod.fst
  let common := parentEntityIds.filter (· ∈ parentIds)
  let noChild := parentEntityIds.filter (· ∉ common)
  let noParent := parentIds.filter (· ∉ common)
  pure (⟨parent.evar, parentEntityIds.length, noChild.length, noChild⟩,
        ⟨child.pvar.getD "", parentIds.length, noParent.length, noParent⟩)

/-- The loop, lines 320-371: `prev` is the level of `id_entity_for_parent_var`. -/
def checkLoop (prev : Level α) : List (Level α) → Except Err (List Stat × List Stat)
  | [] => .ok ([], [])
  | l :: ls => do
    let (e, p) ← checkPair prev l
    let (es, ps) ← checkLoop l ls
    pure (e :: es, p :: ps)

/-- `check_parent_child()`, traversal.py:284-373. -/
def checkParentChild (t : List (Level α)) : Except Err (List Stat × List Stat) :=
  match t with
  | [] => .ok ([], [])
  | l :: ls => checkLoop l ls

end Verif.Model
