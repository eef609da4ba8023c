import Verif.Model.Dataset

/-!
# glmtools/io/glm.py: corrections of energies, areas, locations and times

Values are rationals (the code has floats), and NaN is `none`.
-/

namespace Verif.Model

open Verif.Py

/-! ## Energies and areas -/

/-- A variable of the dataset: its values, its attribute `units` and what is in its `encoding`. -/
structure FloatVar where
  values : List (Option Rat)
  units : Option String
  addOffset : Option Rat
  scaleFactor : Option Rat
  fillValue : Option Rat
  deriving DecidableEq, Repr

/-- The variables that are corrected. -/
structure ValueVars where
  flashEnergy : FloatVar
  groupEnergy : FloatVar
  eventEnergy : FloatVar
  flashArea : FloatVar
  groupArea : FloatVar
  deriving DecidableEq, Repr

/-- A method that changes the dataset and may raise an exception, which does not undo the changes. -/
abbrev Method := ValueVars → ValueVars × Except Err Unit

/-- One statement after the other. -/
def andThen (m n : Method) : Method := fun d =>
  match m d with
  | (d', .ok ()) => n d'
  | (d', .error e) => (d', .error e)

/-- `self.dataset[name] = self.dataset[name]*factor`, then `attrs['units'] = units`: arithmetic of
xarray returns a variable without attributes and without encoding. -/
def rescale (factor : Rat) (units : String) (v : FloatVar) : FloatVar :=
  { values := v.values.map (Option.map (· * factor))
    units := some units
    addOffset := none
    scaleFactor := none
    fillValue := none }

/-- One of the three branches of `_change_energy_units`, glm.py:315-332: without the attribute
`units` it is an AttributeError. -/
def changeOne (v : FloatVar) : FloatVar × Except Err Unit :=
  match v.units with
  | none => (v, .error .attributeError)
  | some u => if u = "J" then (rescale 1000000000 "nJ" v, .ok ()) else (v, .error .valueError)

/-- `_change_energy_units`, glm.py:307-333. -/
def changeEnergyUnits : Method :=
  andThen (fun d => let r := changeOne d.flashEnergy; ({ d with flashEnergy := r.1 }, r.2))
    (andThen (fun d => let r := changeOne d.groupEnergy; ({ d with groupEnergy := r.1 }, r.2))
      (fun d => let r := changeOne d.eventEnergy; ({ d with eventEnergy := r.1 }, r.2)))

/-- `_eliminate_zero_energy`, glm.py:335-352, with `fraction_of_min` 0.5.  A comparison with NaN is
false. -/
def eliminateZeroEnergy : Method := fun d =>
  match d.eventEnergy.addOffset, d.eventEnergy.scaleFactor with
  | some o, some s =>
    let minDiscr := o + s
    let minEnergy := 1 / 2 * minDiscr
    let values := d.eventEnergy.values.map fun v =>
      match v with
      | some e => if e < minDiscr then some minEnergy else some e
      | none => none
    ({ d with eventEnergy := { d.eventEnergy with values := values } }, .ok ())
  | _, _ => (d, .error .keyError)

/-- `add_offset + scale_factor*_FillValue` from the encoding, glm.py:363-368. -/
def maxArea (v : FloatVar) : Option Rat :=
  match v.addOffset, v.scaleFactor, v.fillValue with
  | some o, some s, some f => some (o + s * f)
  | _, _, _ => none

/-- `area[np.isnan(area)] = largest`. -/
def fillMissing (largest : Rat) (v : FloatVar) : FloatVar :=
  { v with values := v.values.map fun a => some (a.getD largest) }

/-- `_check_area_overflow`, glm.py:354-380. -/
def checkAreaOverflow : Method := fun d =>
  match maxArea d.flashArea, maxArea d.groupArea with
  | some mf, some mg =>
    ({ d with flashArea := fillMissing mf d.flashArea, groupArea := fillMissing mg d.groupArea }, .ok ())
  | _, _ => (d, .error .keyError)

/-- One of the two branches of `_check_area_units`, glm.py:384-395. -/
def areaUnitsOne (v : FloatVar) : FloatVar × Except Err Unit :=
  match v.units with
  | none => (v, .error .attributeError)
  | some u => if u = "m2" then (rescale (1 / 1000000) "km2" v, .ok ()) else (v, .ok ())

/-- `_check_area_units`, glm.py:382-396. -/
def checkAreaUnits : Method :=
  andThen (fun d => let r := areaUnitsOne d.flashArea; ({ d with flashArea := r.1 }, r.2))
    (fun d => let r := areaUnitsOne d.groupArea; ({ d with groupArea := r.1 }, r.2))

/-- A branch of `__init__` that depends on an option. -/
def when_ (option : Bool) (m : Method) : Method := if option then m else fun d => (d, .ok ())

/-- The corrections of values at the end of `GLMDataset.__init__`, glm.py:243-252. -/
def openValues (checkArea changeEnergy : Bool) : Method :=
  andThen (when_ checkArea (andThen checkAreaOverflow checkAreaUnits))
    (when_ changeEnergy (andThen eliminateZeroEnergy changeEnergyUnits))

/-! ## Unsigned integers -/

/-- `astype` from float to a signed integer: truncation towards zero.  C leaves the result for NaN
undefined: it is the parameter `nan`.  Numbers out of range are left out. -/
def castInt (nan : Int) : Option Rat → Int
  | some v => if 0 ≤ v then ⌊v⌋ else ⌈v⌉
  | none => nan

/-- `(v - add_offset)/scale_factor`, NaN for NaN. -/
def unscale (scale offset : Rat) (v : Option Rat) : Option Rat := v.map fun x => (x - offset) / scale

/-- One coordinate in the xarray branch of `fix_event_locations`, glm.py:101-116. -/
def fixLocation (nan : Int) (scale offset : Rat) (v : Option Rat) : Rat :=
  let n := castInt nan (unscale scale offset v)
  let n := if n < 0 then n + 2 ^ 16 else n
  (n : Rat) * scale + offset

/-- The constants in glm.py:92-96. -/
def latOffset : Rat := -6656 / 100
def lonOffset : Rat := -15606 / 100
def locationScale : Rat := 203128 / 100000000

/-- `fix_event_locations(lats, lons, is_xarray=True)`, glm.py:68-118.  No result is NaN. -/
def fixEventLocations (nan : Int) (lats lons : List (Option Rat)) :
    List (Option Rat) × List (Option Rat) :=
  (lats.map fun v => some (fixLocation nan locationScale latOffset v),
    lons.map fun v => some (fixLocation nan locationScale lonOffset v))

/-- `fix_event_locations(lats, lons)` on netCDF variables, glm.py:104-118: the counts are read without
scaling. -/
def fixRawLocations (lats lons : List Int) : List Rat × List Rat :=
  let fix := fun (offset : Rat) (n : Int) =>
    ((if n < 0 then n + 2 ^ 16 else n : Int) : Rat) * locationScale + offset
  (lats.map (fix latOffset), lons.map (fix lonOffset))

/-- `fix_unsigned(data)` for one value, glm.py:48-66, for integers of `bits` bits.  A negative float is
cast to an unsigned type by truncation modulo 2^bits (undefined in C, but what x86 does). -/
def fixUnsigned (nan : Int) (bits : Nat) (scale offset : Rat) (v : Option Rat) : Rat :=
  ((castInt nan (unscale scale offset v) % (2 ^ bits : Int) : Int) : Rat) * scale + offset

/-! ## Times -/

/-- The unsigned number that a signed 16 bit number stands for: what `decode_cf` makes of the counts
once they have the attribute `_Unsigned`.  (It then scales them, the same way for all.) -/
def unsigned16 (n : Int) : Int := n % 65536

/-- 2018-10-15T00:00:00 and 2018-11-06T00:00:00 in seconds since 1970, glm.py:440-441. -/
def problemStart : Int := 1539561600
def problemEnd : Int := 1541462400

/-- The condition for the correction of times, glm.py:442-450. -/
def needsTimeFix (productMin productMax : Int) (hasFrameTime : Bool) : Bool :=
  (decide (productMin ≥ problemStart) && decide (productMax ≤ problemEnd)) && hasFrameTime

/-- `self.dataset[var] = decoded[var]`. -/
def setTimes (r : Row GVal) (ts : List Int) : Row GVal := { r with val := { r.val with times := ts } }

/-- `_check_and_fix_missing_unsigned_time` when the correction is needed, glm.py:451-465: the times
are read from the file, in the order of the file, and assigned to the dataset.  The seven variables are
three columns of lists here; all are taken to be in the file. -/
def correctTimes (file d : GFile) : Except Err GFile := do
  let events ← setVar setTimes d.events (file.events.map fun r => r.val.times.map unsigned16)
  let groups ← setVar setTimes d.groups (file.groups.map fun r => r.val.times.map unsigned16)
  let flashes ← setVar setTimes d.flashes (file.flashes.map fun r => r.val.times.map unsigned16)
  pure ⟨flashes, groups, events⟩

/-- `GLMDataset.__init__` with the correction of times, glm.py:188-242. -/
def openWithTimes (order : List Int → List Int) (nav : Rat → Rat → Rat × Rat)
    (checkTree calcParentChild : Bool) (productMin productMax : Int) (hasFrameTime : Bool)
    (file : GFile) : Except Err GFile := do
  let d ← openDataset order nav checkTree calcParentChild file
  if needsTimeFix productMin productMax hasFrameTime then correctTimes file d else pure d

end Verif.Model
