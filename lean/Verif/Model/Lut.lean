import Verif.Model.Dataset

/-!
# Model of the event lookup table, `get_lutevents` in `glmtools/io/glm.py`

Simplifications: exact rationals for floats; the counts, stored as 32 bit floats, are naturals;
`product_time` is an integer.
-/

namespace Verif.Model

open Verif.Py

/-- `float.astype('uint64')`: truncation towards zero, modulo 2^64.  (C leaves the result for
negative numbers undefined; every theorem is about numbers that are not negative.) -/
def toUint64 (q : Rat) : Nat := ((if 0 ≤ q then ⌊q⌋ else ⌈q⌉) % 2 ^ 64).toNat

/-- `discretize_2d_location(x, y, scale, x_range, y_range)` for one point, glm.py:712-735, in
64 bit unsigned arithmetic. -/
def discretize (scale : Rat) (xRange yRange : Rat × Rat) (x y : Rat) : Nat :=
  let xMax := toUint64 ((xRange.2 - xRange.1) / scale)
  let xd := toUint64 ((x - xRange.1) / scale)
  let yd := toUint64 ((y - yRange.1) / scale)
  (xd + yd * xMax) % 2 ^ 64

/-- One row of the table, glm.py:640-652. -/
structure LutRow where
  id : Int
  x : Rat
  y : Rat
  energy : Rat
  count : Nat
  flashCount : Nat
  groupCount : Nat
  totalFlashArea : Rat
  totalGroupArea : Rat
  time : Int
  minFlashArea : Rat
  deriving DecidableEq, Repr

/-- `flash_groups[fid]` for every id, KeyError if there is none. -/
def groupsOf (g : List (Int × List Nat)) (ids : List Int) : Except Err (List (List Nat)) :=
  ids.mapM fun i =>
    match dictGet g i with
    | some idx => .ok idx
    | none => .error .keyError

/-- `min(...)` of python and `ndarray.min()`: ValueError when there is nothing. -/
def listMin : List Rat → Except Err Rat
  | [] => .error .valueError
  | a :: l => .ok (l.foldl min a)

/-- The body of the loop of `event_lut_iter`, glm.py:676-709. -/
def lutRow (productTime : Int) (flashGroups groupGroups : List (Int × List Nat)) (d : GFile)
    (xyId : Int) (evids : List Nat) : Except Err LutRow := do
  let evs := take d.events evids
  let flashIds := npUnique (evs.map fun e => e.val.flashOf)
  let groupIds := npUnique (evs.map Row.pid)
  let replicatedFlashes := (← groupsOf flashGroups flashIds).flatten
  let totalFlashArea := ((take d.flashes replicatedFlashes).map fun f => f.val.area).sum
  let replicatedGroups := (← groupsOf groupGroups groupIds).flatten
  let totalGroupArea := ((take d.groups replicatedGroups).map fun g => g.val.area).sum
  let perFlash ← (← groupsOf flashGroups flashIds).mapM fun idx =>
    listMin ((take d.flashes idx).map fun f => f.val.area)
  let minFlashArea ← listMin perFlash
  pure { id := xyId
         x := (evs.map fun e => e.val.x).sum / evs.length
         y := (evs.map fun e => e.val.y).sum / evs.length
         energy := (evs.map fun e => e.val.energy).sum
         count := evids.length
         flashCount := flashIds.length
         groupCount := groupIds.length
         totalFlashArea, totalGroupArea
         time := productTime
         minFlashArea }

/-- `get_lutevents`, glm.py:584-666, with the location id as a parameter.  xarray's groupby raises
ValueError on an empty dimension. -/
def getLutevents (productTime : Int) (loc : Rat → Rat → Int) (d : GFile) :
    Except Err (List LutRow) :=
  if d.events = [] ∨ d.flashes = [] ∨ d.groups = [] then .error .valueError
  else
    (groups (d.events.map fun e => loc e.val.x e.val.y)).mapM fun kv =>
      lutRow productTime (groups (d.flashes.map Row.id)) (groups (d.groups.map Row.id)) d kv.1 kv.2

/-- The default discretisation: glm.py:584-585, 28 microradians over -0.31 to 0.31. -/
def defaultLoc (x y : Rat) : Int :=
  discretize (28 / 1000000) (-(31 / 100), 31 / 100) (-(31 / 100), 31 / 100) x y

/-! ### `read_flashes`, `glmtools/io/mimic_lma.py` -/

/-- `np.array_split(l, n)` for `n > 0`: the first `len % n` parts have one element more. -/
def splitSizes {β : Type} (l : List β) : List Nat → List (List β)
  | [] => []
  | s :: ss => l.take s :: splitSizes (l.drop s) ss

/-- `np.array_split(l, n)`. -/
def arraySplit {β : Type} (l : List β) (n : Nat) : List (List β) :=
  splitSizes l (List.replicate (l.length % n) (l.length / n + 1) ++
    List.replicate (n - l.length % n) (l.length / n))

/-- Are any of the criteria given?  mimic_lma.py:73-75. -/
def anyCriterion (c : Criteria) : Bool :=
  c.lon.isSome || c.lat.isSome || c.x.isSome || c.y.isSome || c.minEvents.isSome ||
    c.minGroups.isSome

/-- The chunks that `read_flashes` hands on, mimic_lma.py:73-93.  `chunk_size` is a positive
integer, so `int(n/chunk_size)` is the integer quotient. -/
def readFlashesChunks (order : List Int → List Int) (d : GFile) (c : Criteria) (chunkSize : Nat) :
    Except Err (List GFile) := do
  let flashData ← if anyCriterion c then subsetFlashes order d c true else pure d
  let flashIds := flashData.flashes.map Row.id
  let nChunks := max (flashIds.length / chunkSize) 1
  if flashData.flashes.length > 0 then
    (arraySplit flashIds nChunks).mapM (getFlashes d)
  else pure []

end Verif.Model
