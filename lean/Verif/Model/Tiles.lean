import Verif.Py.Array
import Verif.Model.Accumulate
import Mathlib.Data.Rat.Floor

/-!
# glmtools/grid/make_grids.py: tiles of the target grid, padding and trimming

Numbers are rationals in place of floats.
-/

namespace Verif.Model

open Verif.Py

/-- `int(q)`: truncation towards zero. -/
def pyInt (q : Rat) : Int := if 0 ≤ q then ⌊q⌋ else ⌈q⌉

/-- `np.arange(s+1)*delta*dn + bnd[0]` with the last edge replaced by `bnd[1]`, where `n` is the
number of grid boxes, make_grids.py:632-637. -/
def subdivideEdges (bnd : Rat × Rat) (delta : Rat) (s : Nat) (n : Int) : List Rat :=
  let dn := pyInt ((n : Rat) / s)
  let edges := (List.range (s + 1)).map fun (k : Nat) => (k : Rat) * delta * dn + bnd.1
  edges.set (edges.length - 1) bnd.2

/-- `subdivide_bnd`, make_grids.py:612-637. -/
def subdivideBnd (bnd : Rat × Rat) (delta : Rat) (s : Nat) : Except Err (List Rat) :=
  if delta = 0 ∨ s = 0 then .error .zeroDivisionError
  else
    let w := bnd.2 - bnd.1
    .ok (subdivideEdges bnd delta s (pyInt (w / delta)))

/-- The padding of a tile, make_grids.py:655-660: counts and distances. -/
structure Pads where
  nx : Int
  ny : Int
  x : Rat
  y : Rat
  deriving DecidableEq, Repr

/-- make_grids.py:655-660. -/
def padsFor (xPad yPad dx dy : Rat) : Except Err Pads :=
  if dx = 0 ∨ dy = 0 then .error .zeroDivisionError
  else
    let nx := pyInt (xPad / dx)
    let ny := pyInt (yPad / dy)
    .ok ⟨nx, ny, nx * dx, ny * dy⟩

/-- One tile: its index and the bounds, which serve both as target grid and as box for the
selection of flashes, make_grids.py:671-692. -/
structure Tile where
  ij : Nat × Nat
  xBnd : Rat × Rat
  yBnd : Rat × Rat
  pads : Pads
  deriving DecidableEq, Repr

/-- The tiles that `subdivided_fixed_grid` yields, in order, make_grids.py:639-708.  Options other
than the bounds are modelled in Model/Driver. -/
def subdividedFixedGrid (xBnd yBnd : Rat × Rat) (dx dy : Rat) (s : Nat) (xPad yPad : Rat) :
    Except Err (List Tile) := do
  let pads ← padsFor xPad yPad dx dy
  let xSub ← subdivideBnd xBnd dx s
  let ySub ← subdivideBnd yBnd dy s
  pure ((List.range s).flatMap fun i => (List.range s).map fun j =>
    { ij := (i, j)
      xBnd := (xSub.getD i 0 - pads.x, xSub.getD (i + 1) 0 + pads.x)
      yBnd := (ySub.getD j 0 - pads.y, ySub.getD (j + 1) 0 + pads.y)
      pads })

/-- A python slice object with step 1. -/
structure PySlice where
  start : Option Int
  stop : Option Int
  deriving DecidableEq, Repr

/-- Python's rule for an end of a slice of a sequence of length `n`. -/
def clampIndex (n : Nat) (i : Int) : Nat := min n (if i < 0 then (i + n).toNat else i.toNat)

/-- First and last position (exclusive) that a slice selects from a sequence of length `n`. -/
def PySlice.bounds (s : PySlice) (n : Nat) : Nat × Nat :=
  ((s.start.map (clampIndex n)).getD 0, (s.stop.map (clampIndex n)).getD n)

/-- `l[s]` for a one dimensional array. -/
def PySlice.apply {β : Type} (s : PySlice) (l : List β) : List β :=
  slice l (s.bounds l.length).1 (s.bounds l.length).2

/-- `grid[xs, ys]` for a two dimensional array. -/
def Grid.slice (g : Grid) (xs ys : PySlice) : Grid :=
  { n0 := (xs.bounds g.n0).2 - (xs.bounds g.n0).1
    n1 := (ys.bounds g.n1).2 - (ys.bounds g.n1).1
    val := fun i j => g.val ((xs.bounds g.n0).1 + i) ((ys.bounds g.n1).1 + j) }

/-- `GridOutputPreprocess.get_pad_slices`, make_grids.py:726-736. -/
def getPadSlices (p : Pads) : PySlice × PySlice :=
  (if p.nx = 0 then ⟨none, none⟩ else ⟨some p.nx, some (-p.nx)⟩,
   if p.ny = 0 then ⟨none, none⟩ else ⟨some p.ny, some (-p.ny)⟩)

/-- What the trimming concerns of one call of the output writer: positional arguments 3, 4 and 9. -/
structure WriteCall where
  xCoord : List Rat
  yCoord : List Rat
  grid : Grid

/-- `GridOutputPreprocess.capture_write_call`, make_grids.py:738-749: the trimmed call is
stored. -/
def captureWriteCall (p : Pads) (c : WriteCall) : WriteCall :=
  let (xSlice, ySlice) := getPadSlices p
  ⟨xSlice.apply c.xCoord, ySlice.apply c.yCoord, c.grid.slice xSlice ySlice⟩

/-- Cell centres from cell edges, imagery.py:490-491: `(edge[:-1] + edge[1:])/2.0`. -/
def cellCentres (edges : List Rat) : List Rat :=
  List.zipWith (fun a b => (a + b) / 2) edges.dropLast edges.tail

/-- `np.arange(lo, hi + d, d)`, the cell edges that lmatools' FlashGridder makes from bounds.  It
is outside of the repository; the theorems take the edges as a parameter and this is the instance
they are shown for. -/
def arangeEdges (bnd : Rat × Rat) (d : Rat) : List Rat :=
  (List.range ⌈(bnd.2 + d - bnd.1) / d⌉.toNat).map fun (k : Nat) => bnd.1 + k * d

end Verif.Model
