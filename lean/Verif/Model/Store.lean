import Verif.Model.Imagery
import Verif.Model.Aggregate

/-!
# Storing images and reading them again

What `to_netcdf` (imagery.py:564-567) and `open_glm_time_series` (imagery.py:671-694) make of the values of an image,
as far as encoding (imagery.py:334-353) matters.
-/

namespace Verif.Model

open Verif.Py

/-- The value that is read for a value that was written, imagery.py:334-353: scaled fields are stored as counts in 16
bits, others as floats; the fill value is 0 for both.  `overflow` is what becomes of a value whose count does not fit
into 16 bits: that depends on the versions of numpy and xarray. -/
def storeValue (overflow : Rat → Option Rat) (scaling : Option Scaling) (v : Rat) : Option Rat :=
  match scaling with
  | some s => match cfEncode s v with
    | some n => cfDecode s n
    | none => overflow v
  | none => if v = 0 then none else some v

/-- A file as it is read again: start and end are attributes of the file (imagery.py:309-310), converted by `ns` to
nanoseconds; the values of the fields are decoded. -/
def storeFile (overflow : Rat → Option Rat) (scaleAndOffset : Bool) (ns : Rat → Int) (f : ImageFile) : ImageData where
  start := ns f.start
  stop := ns f.stop
  value := fun name p => match f.fields.lookup name with
    | none => none
    | some img =>
      if p.1 < img.rows ∧ p.2 < img.cols then
        storeValue overflow (scalingFor name scaleAndOffset) (img.val p.1 p.2)
      else none

end Verif.Model
