import Verif.Model.Accumulate
import Verif.Model.Imagery
import Mathlib.Data.Int.Log

/-!
# glmtools/grid/accumulate.py in single precision

The accumulators as in `Verif.Model.Accumulate`, with the casts and sums of 32 bit floats rounded.
-/

namespace Verif.Model

open Verif.Py

/-- The nearest number with 24 significant bits, ties to even: rounding to a 32 bit float, for numbers whose magnitude is
between 2^-126 and 2^128. -/
def roundSingle (v : Rat) : Rat :=
  if v = 0 then 0
  else (npAround (v / 2 ^ (Int.log 2 |v| - 23)) : Rat) * 2 ^ (Int.log 2 |v| - 23)

/-- `dataset[var_name].astype(grid.dtype)`, accumulate.py:59, 97, with the rounding `fl` of the type of the grid
(float32, make_grids.py:422-423, 477-480, 538-540). -/
def castRow (fl : Rat → Rat) (r : IdxRow) : IdxRow := { r with v := fl r.v }

/-- One turn of the loop of `accumulate_var_on_grid_direct_idx`, accumulate.py:56-59: the values are cast, and the sums are
rounded. -/
def accumulateVarSingle (fl : Rat → Rat) (g : Grid) (ds : List IdxRow) : Except Err Grid := do
  let cells ← ds.mapM (cellOf g)
  let prev := cells.map fun c => g.val c.1 c.2
  pure (g.set (cells.zip (List.zipWith (fun a b => fl (a + b)) prev ((ds.map (castRow fl)).map IdxRow.v))))

/-- One turn of the loop of `accumulate_minvar_on_grid_direct_idx`, accumulate.py:93-108: the values are cast; taking the
minimum does not round. -/
def accumulateMinvarSingle (fl : Rat → Rat) (g : Grid) (ds : List IdxRow) : Except Err Grid :=
  accumulateMinvar g (ds.map (castRow fl))

end Verif.Model
