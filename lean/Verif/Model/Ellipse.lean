import Verif.Model.Names
import Mathlib.Analysis.SpecialFunctions.Trigonometric.Arctan
import Mathlib.Analysis.SpecialFunctions.Trigonometric.Inverse

/-!
# glmtools/io/lightning_ellipse.py

Floats are real numbers; the functions of numpy are those of Mathlib.
-/

namespace Verif.Model

open Verif.Py

/-! ## Revisions -/

/-- `lightning_ellipse_rev`, lightning_ellipse.py:5-15: equatorial and polar radius in metres. -/
def lightningEllipseRev : List (Int × Rat × Rat) :=
  [(0, 6394140, 6362755), (1, 6378137 + 14000, 6362755)]

/-- `lightning_ellipse_rev[rev]`. -/
def ellipseRadii (rev : Int) : Except Err (Rat × Rat) :=
  match lightningEllipseRev.lookup rev with
  | some r => .ok r
  | none => .error .keyError

/-- `<` of `datetime` objects. -/
def DateTime.before (a b : DateTime) : Bool :=
  decide ([a.year, a.month, a.day, a.hour, a.minute, a.second, a.microsecond] <
    [b.year, b.month, b.day, b.hour, b.minute, b.second, b.microsecond])

/-- `ltg_ellpse_rev`, lightning_ellipse.py:17-42. -/
def ltgEllpseRev (date : DateTime) : Int :=
  if date.before ⟨2018, 10, 15, 0, 0, 0, 0⟩ then 0 else 1

/-- The functions of dates in the module, by name. -/
def dateFunctions : List (String × (DateTime → Int)) := [("ltg_ellpse_rev", ltgEllpseRev)]

/-- `ltg_ellps_radii`, lightning_ellipse.py:44-66, which calls `ltg_ellps_rev`. -/
def ltgEllpsRadii (date : DateTime) : Except Err (Rat × Rat) :=
  match dateFunctions.lookup "ltg_ellps_rev" with
  | some f => ellipseRadii (f date)
  | none => .error .nameError

/-- The revision that `__init_fixed_grid_data` uses, glm.py:550-558. -/
def revisionFor (ellipseRev : Int) (productTime : DateTime) : Int :=
  if ellipseRev < 0 then ltgEllpseRev productTime else ellipseRev

/-! ## Navigation -/

/-- Lines 106-109: `dlon[dlon < -180] += 360`, `dlon[dlon > 180] -= 360`. -/
noncomputable def wrapLon (d : ℝ) : ℝ :=
  let d := if d < -180 then d + 360 else d
  if d > 180 then d - 360 else d

/-- The vector from the satellite to the point, lines 99-101 and 111-122, in metres. -/
noncomputable def lookVector (re rp reGrs rpGrs height lon lat satLon : ℝ) : ℝ × ℝ × ℝ :=
  let ff := (re - rp) / re
  let ffGrs := (reGrs - rpGrs) / reGrs
  let satH := height + reGrs
  let lonRad := wrapLon (lon - satLon) * Real.pi / 180
  let latRad := lat * Real.pi / 180
  let latGeocent := Real.arctan ((1 - ffGrs) ^ 2 * Real.tan latRad)
  let cosFactor := Real.cos latGeocent
  let sinFactor := Real.sin latGeocent
  let r := re * (1 - ff) / Real.sqrt (1 - ff * (2 - ff) * cosFactor * cosFactor)
  (r * cosFactor * Real.cos lonRad - satH, r * cosFactor * Real.sin lonRad, r * sinFactor)

/-- Lines 123-132: the two angles (beta, alpha) of a vector. -/
noncomputable def scanAngles (v : ℝ × ℝ × ℝ) : ℝ × ℝ :=
  let vmag := Real.sqrt (v.1 * v.1 + v.2.1 * v.2.1 + v.2.2 * v.2.2)
  let vx := v.1 / (-vmag)
  let vy := v.2.1 / (-vmag)
  let vz := v.2.2 / vmag
  (-Real.arcsin vy, Real.arctan (vz / vx))

/-- `ltg_ellps_lon_lat_to_fixed_grid`, lightning_ellipse.py:68-133, with its default arguments, for
arrays of equal length.  Real numbers stand for floating point numbers; at a pole `Real.tan` is 0 by
convention, unlike the large number of floating point arithmetic, so results there mean nothing. -/
noncomputable def lonLatToFixedGrid (points : List (ℝ × ℝ)) (satLon : ℝ) (rev : Int) :
    Except Err (List (ℝ × ℝ)) :=
  match ellipseRadii rev with
  | .ok (re, rp) => .ok (points.map fun p =>
      scanAngles (lookVector re rp 6378137 (635675231414 / 100000) 35786023 p.1 p.2 satLon))
  | .error e => .error e

end Verif.Model
