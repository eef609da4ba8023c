import Mathlib.Data.List.Sort
import Mathlib.Data.List.Dedup

/-!
# Python, numpy and xarray primitives

The fragments of the library semantics that glmtools relies on.  See DESIGN.md, trusted base.
-/

namespace Verif.Py

/-- Python exception classes that the modelled code can raise. -/
inductive Err
  | keyError
  | valueError
  | attributeError
  | nameError
  | unboundLocalError
  | typeError
  | indexError
  | zeroDivisionError
  | fileNotFoundError
  | overflowError
  | assertionError
  | fileExistsError
  deriving DecidableEq, Repr

/-- `np.unique(l)` on integers: the distinct values in increasing order. -/
def npUnique (l : List Int) : List Int :=
  l.dedup.insertionSort (· ≤ ·)

/-- The positions, in increasing order, at which `keys` holds `k`, counted from `start`. -/
def positionsFrom (start : Nat) (keys : List Int) (k : Int) : List Nat :=
  match keys with
  | [] => []
  | x :: xs =>
    if x = k then start :: positionsFrom (start + 1) xs k else positionsFrom (start + 1) xs k

/-- The positions, in increasing order, at which `keys` holds `k`. -/
def positions (keys : List Int) (k : Int) : List Nat := positionsFrom 0 keys k

/-- `dataset.groupby(var).groups`: a dictionary from each distinct value (in increasing order)
to the increasing list of positions that hold it. -/
def groups (keys : List Int) : List (Int × List Nat) :=
  (npUnique keys).map fun k => (k, positions keys k)

/-- `groups[k]` / `k in groups` of a python dictionary held as an association list. -/
def dictGet {κ β : Type} [DecidableEq κ] (d : List (κ × β)) (k : κ) : Option β :=
  match d with
  | [] => none
  | (k', v) :: d => if k' = k then some v else dictGet d k

/-- `rows[idx]` for a list of positions, in list order.  Positions that come from `groups` are
always in range (`Verif.Py.take_length_of_lt`), so no row is ever silently dropped. -/
def take {β : Type} (rows : List β) (idx : List Nat) : List β :=
  idx.filterMap fun i => rows[i]?

end Verif.Py
