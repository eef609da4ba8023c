import Verif.Py.Basic
import Mathlib.Data.Rat.Floor

/-!
# numpy primitives on one and two dimensional arrays

Two dimensional arrays are lists of rows.
-/

namespace Verif.Py

/-- A point (x, y). -/
abbrev Pt := Rat × Rat

/-- `np.repeat(l, counts)`. -/
def npRepeat {β : Type} (l : List β) (counts : List Nat) : List β :=
  (List.zipWith (fun a n => List.replicate n a) l counts).flatten

/-- `np.digitize(v, bins, right=True)`: for increasing bins the number of bins below `v`, for
decreasing bins the number of bins not below `v`, ValueError if the bins are not monotonic. -/
def digitizeRight (bins : List Rat) (v : Rat) : Except Err Nat :=
  if bins.Pairwise (· ≤ ·) then .ok (bins.filter (· < v)).length
  else if bins.Pairwise (· ≥ ·) then .ok (bins.filter (v ≤ ·)).length
  else .error .valueError

/-- `a[lo:hi]` with bounds that are not negative. -/
def slice {β : Type} (l : List β) (lo hi : Nat) : List β := (l.drop lo).take (hi - lo)

/-- `a[i, j]` of a two dimensional array, IndexError if out of range. -/
def at2 {β : Type} (a : List (List β)) (i j : Nat) : Except Err β :=
  match (a[i]? : Option (List β)) with
  | none => .error .indexError
  | some r => match r[j]? with
    | none => .error .indexError
    | some v => .ok v

/-- `a[I, J]` with two index arrays of the same length. -/
def fancy2 {β : Type} (a : List (List β)) (is js : List Nat) : Except Err (List β) :=
  (is.zip js).mapM fun ij => at2 a ij.1 ij.2

/-- `np.where(mask)` of a two dimensional mask: the index pairs in row-major order. -/
def where2 (mask : List (List Bool)) : List Nat × List Nat :=
  (mask.zipIdx.flatMap fun ri => (ri.1.zipIdx.filter Prod.fst).map fun bj => (ri.2, bj.2)).unzip

/-- `np.meshgrid(x, y)`. -/
def meshgrid (x y : List Rat) : List (List Rat) × List (List Rat) :=
  (List.replicate y.length x, y.map (List.replicate x.length))

end Verif.Py
