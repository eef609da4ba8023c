import Verif.Model.Setup
import Verif.Model.Tiles
import Verif.Model.Imagery
import Verif.Model.Values
import Mathlib.Data.Int.Log

/-!
# Cell counts, bounds, tiles and packed locations in floating point

The arithmetic of `grid_setup` (examples/grid/make_GLM_grids.py) and of `subdivide_bnd`
(glmtools/grid/make_grids.py) as in `Verif.Model.Setup` and `Verif.Model.Tiles`, and of `fix_event_locations`
(glmtools/io/glm.py) as in `Verif.Model.Values`, with the result of every operation rounded by `fl`.  `fl = double` is the arithmetic of the program; `fl = id` is that of those modules.
-/

namespace Verif.Model

open Verif.Py

/-- The nearest number with `p` significant bits, ties to even.  The limits of the exponent (overflow,
underflow) are not modelled. -/
def roundBits (p : Nat) (v : Rat) : Rat :=
  if v = 0 then 0
  else (npAround (v / 2 ^ (Int.log 2 |v| + 1 - p)) : Rat) * 2 ^ (Int.log 2 |v| + 1 - p)

/-- Rounding to a Python `float`: 53 significant bits. -/
def double (v : Rat) : Rat := roundBits 53 v

/-- `int(args.width/args.dx)`, make_GLM_grids.py:242, where both numbers are read from decimal texts
(`type=float`, make_GLM_grids.py:42-56) and so are rounded before they are divided. -/
def cellCountFl (fl : Rat → Rat) (width dx : Rat) : Except Err Int :=
  if fl dx = 0 then .error .zeroDivisionError else .ok (pyInt (fl (fl width / fl dx)))

/-- One entry of `(np.arange(nx, dtype='float') - (nx)/2.0)*dx + x_ctr + 0.5*dx`, make_GLM_grids.py:252-253. -/
def axisEdgeFl (fl : Rat → Rat) (n : Int) (d ctr : Rat) (i : Nat) : Rat :=
  fl (fl (fl (fl ((i : Rat) - fl ((n : Rat) / 2)) * d) + ctr) + fl (1 / 2 * d))

/-- The bounds of one axis, make_GLM_grids.py:250-257. -/
def axisBoundsFl (fl : Rat → Rat) (n : Int) (d ctr : Rat) : Except Err (Rat × Rat) :=
  let n := n + 1
  let edges := (List.range n.toNat).map (axisEdgeFl fl n d ctr)
  match edges with
  | [] => .error .valueError
  | e :: es => .ok (es.foldl min e, es.foldl max e)

/-- `np.arange(s+1, dtype='f8')*delta*dn + bnd[0]` with the last edge replaced by `bnd[1]`, where `n` is the
number of grid boxes, make_grids.py:632-637. -/
def subdivideEdgesFl (fl : Rat → Rat) (bnd : Rat × Rat) (delta : Rat) (s : Nat) (n : Int) : List Rat :=
  let dn := pyInt (fl ((n : Rat) / s))
  let edges := (List.range (s + 1)).map fun (k : Nat) => fl (fl (fl ((k : Rat) * delta) * dn) + bnd.1)
  edges.set (edges.length - 1) bnd.2

/-- `subdivide_bnd`, make_grids.py:612-637. -/
def subdivideBndFl (fl : Rat → Rat) (bnd : Rat × Rat) (delta : Rat) (s : Nat) : Except Err (List Rat) :=
  if delta = 0 ∨ s = 0 then .error .zeroDivisionError
  else
    let w := fl (bnd.2 - bnd.1)
    .ok (subdivideEdgesFl fl bnd delta s (pyInt (fl (w / delta))))

/-! ## Packed locations -/

/-- What xarray makes of a stored count before `fix_event_locations` (glm.py:98-102) sees it: scaled, then shifted, with
the attributes of the file. -/
def decodeFl (fl : Rat → Rat) (scale offset : Rat) (c : Int) : Rat := fl (fl ((c : Rat) * scale) + offset)

/-- One coordinate in the xarray branch of `fix_event_locations`, glm.py:98-118, for a value that is not missing. -/
def fixLocationFl (fl : Rat → Rat) (scale offset v : Rat) : Rat :=
  let n := castInt 0 (some (fl (fl (v - offset) / scale)))
  let n := if n < 0 then n + 2 ^ 16 else n
  fl (fl ((n : Rat) * scale) + offset)

/-- The constants of glm.py:92-95 as doubles. -/
def latOffsetD : Rat := double latOffset
def lonOffsetD : Rat := double lonOffset
def locationScaleD : Rat := double locationScale

end Verif.Model
