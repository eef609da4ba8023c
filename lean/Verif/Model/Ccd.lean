import Verif.Py.Array

/-!
# Model of `glmtools/io/ccd.py`

The nearest neighbour and interpolation objects of scikit-learn and scipy are parameters.
-/

namespace Verif.Model

open Verif.Py

/-- A two dimensional array of positions, which may or may not be a masked array.
`mask` is `none` for a plain array, and true where a value is missing. -/
structure MaskedArr where
  data : List (List Rat)
  mask : Option (List (List Bool))

/-- `a[good]` with a boolean mask: the selected values in row-major order. -/
def maskSelect {β : Type} (a : List (List β)) (good : List (List Bool)) : List β :=
  ((a.flatten.zip good.flatten).filter Prod.snd).map Prod.fst

/-- `np.meshgrid(x, y)[k].T` for index ranges: row and column number of every pixel. -/
def indexGrids (nrow ncol : Nat) : List (List Nat) × List (List Nat) :=
  ((List.range nrow).map fun i => List.replicate ncol i,
    List.replicate nrow (List.range ncol))

/-- The mask of good pixels, ccd.py:203-208: AttributeError if only one of the two arrays is
masked. -/
def goodMask (lons lats : MaskedArr) : Except Err (List (List Bool)) :=
  match lons.mask, lats.mask with
  | none, none => .ok (lats.data.map fun r => r.map fun _ => true)
  | some m, some m' => .ok (List.zipWith (List.zipWith fun a b => !(b || a)) m m')
  | _, _ => .error .attributeError

/-- What `create_pixel_lookup` hands to the tree, and the index arrays that go with it. -/
structure PixelLookup where
  points : List Pt
  xIdx : List Nat
  yIdx : List Nat
  deriving DecidableEq, Repr

/-- `create_pixel_lookup`, ccd.py:172-218.  `lons.shape[1]` is taken from the first row. -/
def createPixelLookup (lons lats : MaskedArr) : Except Err PixelLookup := do
  let good ← goodMask lons lats
  let g := indexGrids lons.data.length (lons.data.headD []).length
  pure { points := (maskSelect lons.data good).zip (maskSelect lats.data good)
         xIdx := maskSelect g.1 good
         yIdx := maskSelect g.2 good }

/-- A value of an interpolator: `none` is NaN, outside of the convex hull of the table. -/
abbrev Interp := List Pt → List Rat → Pt → Option Rat

/-- One coordinate of one corner for every pixel, ccd.py:90-112: interpolated offset, replaced by
the nearest one where it is NaN if extrapolation is on, times `inflate`, added to the pixel. -/
def cornerColumn (linear : Interp) (nearest : List Pt → List Rat → Pt → Rat) (grid : List Pt)
    (offsets : List Rat) (inflate : Rat) (extrapolate : Bool) (pixels : List Pt)
    (coord : Pt → Rat) : List (Option Rat) :=
  let d := pixels.map (linear grid offsets)
  let d := if extrapolate then
      List.zipWith (fun p v => match v with
        | none => some (nearest grid offsets p)
        | some v => some v) pixels d
    else d
  List.zipWith (fun p v => v.map fun v => coord p + v * inflate) pixels d

/-- Corner `ci`, coordinate `k` of every entry of the table: `corner_points[:,:,ci,k].flatten()`.
A table is a two dimensional array of corner lists. -/
def cornerOffsets (corners : List (List (List Pt))) (ci : Nat) (k : Pt → Rat) : List Rat :=
  corners.flatten.map fun c => k (c.getD ci (0, 0))

/-- `quads_from_corner_lookup`, ccd.py:53-115: for every pixel the list of corners.
Simplification: `corner_points.shape[-2]` is the parameter `nCorners`. -/
def quadsFromCornerLookup (linear : Interp) (nearest : List Pt → List Rat → Pt → Rat)
    (nCorners : Nat) (lon lat : List (List Rat)) (corners : List (List (List Pt)))
    (pixels : List Pt) (nadirLon inflate : Rat) (extrapolate : Bool) :
    List (List (Option Rat × Option Rat)) :=
  let grid := (lon.flatten.map (· + nadirLon)).zip lat.flatten
  let columns := (List.range nCorners).map fun ci =>
    (cornerColumn linear nearest grid (cornerOffsets corners ci Prod.fst) inflate extrapolate
      pixels Prod.fst).zip
    (cornerColumn linear nearest grid (cornerOffsets corners ci Prod.snd) inflate extrapolate
      pixels Prod.snd)
  (List.range pixels.length).map fun p => columns.map fun c => c.getD p (none, none)

/-- `read_official_corner_lut`, ccd.py:117-148: stacks the named corner variables, in the order
north-west, south-west, south-east, north-east.  `nav` is the content of the MATLAB file; a
missing name is a KeyError. -/
def readOfficialCornerLut (nav : String → Option (List (List Rat))) :
    Except Err (List (List Rat) × List (List Rat) × List (List (List Pt))) := do
  let get := fun name => match nav name with
    | some a => Except.ok a
    | none => Except.error Err.keyError
  let lats ← get "lat_grid"
  let lons ← get "lon_grid"
  let xs ← ["nwlon", "swlon", "selon", "nelon"].mapM get
  let ys ← ["nwlat", "swlat", "selat", "nelat"].mapM get
  let at_ := fun (a : List (List Rat)) i j => (a.getD i []).getD j 0
  let corner := (List.range lats.length).map fun i =>
    (List.range (lats.headD []).length).map fun j =>
      List.zipWith (fun x y => (at_ x i j, at_ y i j)) xs ys
  pure (lons, lats, corner)

end Verif.Model
