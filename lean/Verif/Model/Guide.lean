import Verif.Model.Setup
import Verif.Model.Coords
import Mathlib.Algebra.Order.Ring.Abs

/-!
# examples/grid/test_grid_specs.py

The program that compares the coordinates of gridded files with the product user guide.
-/

namespace Verif.Model

open Verif.Py

/-- The entries of the result of `get_GOESR_grid` that are compared, test_grid_specs.py:50-88. -/
structure PugSpec where
  pixelsEW : Int
  pixelsNS : Int
  resolution : Rat
  spanEW : Rat
  spanNS : Rat
  centerEW : Rat
  centerNS : Rat

/-- `np.testing.assert_allclose(actual, desired, rtol, atol)` for numbers, test_grid_specs.py:64-88. -/
def assertClose (actual desired rtol atol : Rat) : Bool := decide (|actual - desired| ≤ atol + rtol * |desired|)

/-- What `check_against_pug` does with one axis, test_grid_specs.py:50-88: number, spacing, span, and the centre counted
from both ends.  `true` if no assertion fails; without a difference the mean is nan and an assertion fails. -/
def checkAxis (x : List Rat) (pixels : Int) (resolution span center : Rat) : Bool :=
  match x with
  | [] => false
  | first :: rest =>
    let deltas := List.zipWith (· - ·) rest x
    let delta := |deltas.sum / deltas.length|
    let low := rest.foldl min first
    let high := rest.foldl max first
    let extent := |high - low| + delta
    decide ((x.length : Int) = pixels) && !deltas.isEmpty &&
      assertClose delta resolution (1 / 100000) 0 &&
      assertClose extent span (1 / 100000) 0 &&
      assertClose (high - (extent - delta) / 2) center (1 / 100000) (1 / 100000000) &&
      assertClose (low + (extent - delta) / 2) center (1 / 100000) (1 / 100000000)

/-- `check_against_pug`, test_grid_specs.py:46-88: `true` if no assertion fails. -/
def checkAgainstPug (x y : List Rat) (p : PugSpec) : Bool :=
  checkAxis x p.pixelsEW p.resolution p.spanEW p.centerEW && checkAxis y p.pixelsNS p.resolution p.spanNS p.centerNS

end Verif.Model
