import Verif.Model.Template

/-!
# examples/grid/make_GLM_grids.py: the times in the log
-/

namespace Verif.Model

open Verif.Py

/-- The start of the time stamps of records, as a time. -/
def epoch : DateTime := ⟨1970, 1, 1, 0, 0, 0, 0⟩

/-- `datetime.fromtimestamp(created)`, make_GLM_grids.py:117, 119: the local time, rounded to the nearest microsecond, ties to
even.  `zone` is how many seconds local time is ahead of universal time when the record is made. -/
def fromTimestamp (zone : Int) (created : Rat) : Except Err DateTime :=
  addTimedelta epoch (created + zone)

/-- `"%03d" % record.msecs`, make_GLM_grids.py:124: `logging` sets `msecs` to a thousand times the fraction of `created`.
Simplification: without rounding.  Records are made after 1970, so the number is not negative. -/
def recordMillis (created : Rat) : Nat :=
  ⌊(created - ⌊created⌋) * 1000⌋.toNat

/-- `MyFormatter.formatTime`, make_GLM_grids.py:118-125.  `if datefmt:` is false for `None` and for an empty text. -/
def formatLogTime (o : FormatOthers) (zone : Int) (created : Rat) (datefmt : Option Text) : Except Err Text := do
  let ct ← fromTimestamp zone created
  match datefmt with
  | some (c :: rest) => pure (strftime o ct (c :: rest))
  | _ => pure (strftime o ct "%Y-%m-%d %H:%M:%S".toList ++ ',' :: three (recordMillis created))

/-- The format in the program, make_GLM_grids.py:128. -/
def logDateFormat : Text := "%Y-%m-%dT%H:%M:%S.%f".toList

end Verif.Model
