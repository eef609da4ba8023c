import Verif.Model.Double
import Verif.Model.Chunk
import Verif.Model.Lut
import Verif.Model.Aggregate
import Verif.Model.Meta

/-!
# Times and whole quotients in double precision

The parts of `Verif.Model.Chunk`, `Verif.Model.Lut`, `Verif.Model.Aggregate` and `Verif.Model.Meta` in which whole
numbers are divided, with the rounding `fl` after every operation.  With `fl = id` they are the definitions there.
-/

namespace Verif.Model

open Verif.Py

/-- `sec_since_basedate(t64, basedate)`, mimic_lma.py:582-588: numpy makes doubles of both numbers of nanoseconds and
divides them. -/
def secSinceBasedateFl (fl : Rat → Rat) (t : Int) (basedate : Option Int) : Option Rat :=
  basedate.map fun b => fl (fl ((t - b : Int) : Rat) / fl 1000000000)

/-- The edges of the intervals, imagery.py:631.  The quotient of two timedeltas is that of two whole numbers of
microseconds, rounded once. -/
def binEdgesFl (fl : Rat → Rat) (start duration dt : Int) : List Int :=
  (List.range (pyInt (fl ((duration : Rat) / dt)) + 1).toNat).map fun (i : Nat) => start + dt * (i : Int)

/-- `aggregate`, imagery.py:572-660, as in `Verif.Model.aggregate`. -/
def aggregateFl (fl : Rat → Rat) (glm : TimeSeries) (minutes : Nat) (startEnd : Option (Int × Int)) :
    Except Err Aggregated := do
  let dt := oneMinute * minutes
  let se ← match startEnd with
    | some se => Except.ok se
    | none => do
      let first ← pyMin (glm.frames.map (·.time))
      let last ← pyMax (glm.frames.map (·.time))
      pure (toPydatetime first, toPydatetime last + dt)
  let duration := se.2 - se.1
  let summed := sumVars.filter (· ∈ glm.vars)
  let mins := minVars.filter (· ∈ glm.vars)
  if "average_flash_area" ∉ glm.vars ∨ "flash_extent_density" ∉ glm.vars then .error .attributeError
  if dt = 0 then .error .zeroDivisionError
  let edges := binEdgesFl fl se.1 duration dt
  let bins := edges.zip edges.tail
  if glm.frames.all (fun f => bins.all fun b => !inBin b f.time) then .error .valueError
  if "group_extent_density" ∉ glm.vars then .error .attributeError
  let out := bins.map (aggregateBin glm.frames)
  let covStart ← pyMin (out.map (·.left))
  let covEnd ← pyMax (out.map (·.right))
  pure ⟨summed ++ ["total_flash_area", "total_group_area", "average_flash_area", "average_group_area"]
    ++ mins, out, covStart, covEnd⟩

/-- The chunks that `read_flashes` hands on, mimic_lma.py:73-93, as in `Verif.Model.readFlashesChunks`. -/
def readFlashesChunksFl (fl : Rat → Rat) (order : List Int → List Int) (d : GFile) (c : Criteria) (chunkSize : Nat) :
    Except Err (List GFile) := do
  let flashData ← if anyCriterion c then subsetFlashes order d c true else pure d
  let flashIds := flashData.flashes.map Row.id
  let nChunks := max (pyInt (fl ((flashIds.length : Rat) / chunkSize))) 1
  if flashData.flashes.length > 0 then
    (arraySplit flashIds nChunks.toNat).mapM (getFlashes d)
  else pure []

/-- `timedelta(0, seconds)` in microseconds, imagery.py:499-500, for a float: CPython (`accum` in _datetimemodule.c)
takes the whole seconds, multiplies the fraction with 1e6, takes the whole microseconds of that and rounds the fraction
that is left, ties to even of the total (as `npAround`, since the numbers before it are whole). -/
def timedeltaFl (fl : Rat → Rat) (seconds : Rat) : Int :=
  let whole := pyInt seconds
  npAround ((whole : Rat) * 1000000 + fl (1000000 * (seconds - whole)))

/-- `t_ref + timedelta(0, seconds)`, imagery.py:499-500. -/
def addTimedeltaFl (fl : Rat → Rat) (tRef : DateTime) (seconds : Rat) : Except Err DateTime :=
  ofMicro ((microOf tRef : Int) + timedeltaFl fl seconds)

end Verif.Model
