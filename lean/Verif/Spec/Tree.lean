import Verif.Model.Traversal

/-!
# Specification of the flash / group / event hierarchy

Only the data types `Row` and `Level` are shared with the model.  Everything here is stated with
membership, filters and counts on rows.
-/

namespace Verif.Spec

open Verif.Model (Row Level)

variable {α : Type}

/-- The dataset as the constructor makes it: a top level without a parent variable, and below it
levels with one; all variable names distinct. -/
structure WellFormed (t : List (Level α)) : Prop where
  top : ∀ l ∈ t.head?, l.pvar = none
  rest : ∀ l ∈ t.tail, l.pvar ≠ none
  evars : (t.map Level.evar).Nodup
  pvars : (t.tail.map Level.pvar).Nodup

/-- Every level has at least one row. -/
def NoEmptyLevel (t : List (Level α)) : Prop := ∀ l ∈ t, l.rows ≠ []

/-- Ids identify rows. -/
def UniqueIds (rows : List (Row α)) : Prop := (rows.map Row.id).Nodup

/-- `(p, c)` are neighbouring levels, `p` above `c`. -/
def Adjacent (t : List (Level α)) (p c : Level α) : Prop :=
  ∃ above below, t = above ++ p :: c :: below

/-- Every row below the top has a parent row in the level above. -/
def NoOrphans (t : List (Level α)) : Prop :=
  ∀ p c, Adjacent t p c → ∀ r ∈ c.rows, ∃ q ∈ p.rows, q.id = r.pid

/-- Every row above the bottom has a child row in the level below. -/
def NoChildless (t : List (Level α)) : Prop :=
  ∀ p c, Adjacent t p c → ∀ q ∈ p.rows, ∃ r ∈ c.rows, r.pid = q.id

/-- Number of rows whose parent id is `id`. -/
def childCount (rows : List (Row α)) (id : Int) : Nat := rows.countP (fun r => r.pid = id)

/-- `r` descends from an entity with an id in `ids`.  `mids` are the levels strictly between the
entity's level and the level of `r`, nearest to `r` first. -/
def Descends (ids : List Int) : (mids : List (List (Row α))) → Row α → Prop
  | [], r => r.pid ∈ ids
  | up :: ups, r => ∃ p ∈ up, p.id = r.pid ∧ Descends ids ups p

/-- `r` is an ancestor of one of the rows `kept`.  `mids` are the levels strictly between the
level of `r` and that of `kept`, nearest to `r` first. -/
def IsAncestor (kept : List (Row α)) : (mids : List (List (Row α))) → Row α → Prop
  | [], r => ∃ c ∈ kept, c.pid = r.id
  | down :: downs, r => ∃ c ∈ down, c.pid = r.id ∧ IsAncestor kept downs c

/-- Starting from a row with parent id `p`, following parent links through the levels `mids`
(nearest first) ends at the id `a`. -/
def LeadsTo : (mids : List (List (Row α))) → (p a : Int) → Prop
  | [], p, a => a = p
  | up :: ups, p, a => ∃ r ∈ up, r.id = p ∧ LeadsTo ups r.pid a

/-- For each parent id in order, all rows that refer to it, in their original order. -/
def childrenInOrder (parents : List Int) (rows : List (Row α)) : List (Row α) :=
  parents.flatMap fun p => rows.filter fun r => r.pid = p

/-- For each id in order, the rows with that id, in their original order. -/
def rowsInOrder (ids : List Int) (rows : List (Row α)) : List (Row α) :=
  ids.flatMap fun i => rows.filter fun r => r.id = i

/-- Children, grandchildren, ... of the ids, level by level downwards. -/
def descendantsInOrder (parents : List Int) : List (List (Row α)) → List (List (Row α))
  | [] => []
  | rows :: below =>
    childrenInOrder parents rows ::
      descendantsInOrder ((childrenInOrder parents rows).map Row.id) below

end Verif.Spec
