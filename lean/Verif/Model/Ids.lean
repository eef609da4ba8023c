import Verif.Model.Lut
import Verif.Model.Double

/-!
# Location ids in floating point

`discretize_2d_location` (glmtools/io/glm.py) as in `Verif.Model.Lut`, with the result of every operation on
floating point numbers rounded by `fl`.  The 64 bit integers are exact.
-/

namespace Verif.Model

/-- `discretize_2d_location(x, y, scale, x_range, y_range)` for one point, glm.py:712-735. -/
def discretizeFl (fl : Rat → Rat) (scale : Rat) (xRange yRange : Rat × Rat) (x y : Rat) : Nat :=
  let xMax := toUint64 (fl (fl (xRange.2 - xRange.1) / scale))
  let xd := toUint64 (fl (fl (x - xRange.1) / scale))
  let yd := toUint64 (fl (fl (y - yRange.1) / scale))
  (xd + yd * xMax) % 2 ^ 64

/-- The default discretisation in doubles: glm.py:584-585, where 28e-6 and 0.31 are the doubles next to these numbers. -/
def defaultLocD (x y : Rat) : Int :=
  discretizeFl double (double (28 / 1000000)) (-double (31 / 100), double (31 / 100))
    (-double (31 / 100), double (31 / 100)) x y

end Verif.Model
