import Verif.Model.Double
import Verif.Model.Accumulate
import Verif.Model.Meta

/-!
# The units of the densities, `output_setup` in `glmtools/grid/make_grids.py`

Simplification: no number is negative.
-/

namespace Verif.Model

open Verif.Py

/-- `'{0:7d}'.format(n)`: at least seven characters, with blanks before the digits. -/
def formatWidth7 (n : Int) : Text := List.replicate (7 - (decimal n).length) ' ' ++ decimal n

/-- `'{0:5.1f}'.format(v).lstrip()` for a number that is not negative: one digit after the point, rounded to nearest,
ties to even; the blanks that fill up to five characters are stripped. -/
def formatTenths (v : Rat) : Text :=
  let n := npAround (10 * v)
  decimal (n / 10) ++ ['.'] ++ decimal (n % 10)

/-- `density_units`, make_grids.py:292-297.  `scale` is `spatial_scale_factor`. -/
def densityUnits (fl : Rat → Rat) (proj : String) (dx dy scale : Rat) : Text :=
  if proj = "latlong" then "grid".toList
  else if proj = "geos" then
    "nominal ".toList ++ formatWidth7 (pyInt (fl (fl (dx * dy) * 1000000000000))) ++ " microradian^2".toList
  else formatTenths (fl (fl (fl (dx * scale) * dy) * scale)) ++ " km^2".toList

/-- `density_label`, make_grids.py:298-299. -/
def densityLabel (fl : Rat → Rat) (proj : String) (dx dy scale interval : Rat) : Text :=
  "Count per ".toList ++ densityUnits fl proj dx dy scale ++ " pixel per ".toList ++
    (formatTenths (fl (interval / 60)) ++ " min".toList)

/-- `GLMlutGridder.output_setup`, make_grids.py:273-363 and 576-597, with the label. -/
def gridderOutputSetup (fl : Rat → Rat) (proj : String) (dx dy scale interval : Rat) : OutputTables :=
  lutOutputSetup (String.ofList (densityLabel fl proj dx dy scale interval))

end Verif.Model
