import Verif.Model.Imagery

/-!
# Coordinates of written imagery (glmtools/io/imagery.py)

The coordinates are 16 bit integers with scale and offset.  The encoding is that of xarray: the quotient is
rounded and cast; a count equal to the fill value is read as missing.  Metadata is left out.
-/

namespace Verif.Model

/-- The encoding of a coordinate. -/
structure CoordEncoding where
  scaleFactor : Rat
  addOffset : Rat
  fillValue : Int

/-- `two_km_enc['FULL']['x']`, imagery.py:187-189. -/
def xEncoding : CoordEncoding := ⟨56 / 1000000, -151844 / 1000000, -999⟩

/-- `two_km_enc['FULL']['y']`, imagery.py:190-192. -/
def yEncoding : CoordEncoding := ⟨-56 / 1000000, 151844 / 1000000, -999⟩

/-- How `to_netcdf` stores one coordinate, encoding from imagery.py:166-231.  `cast` is what the cast to
16 bits does to a number that does not fit. -/
def coordEncode (cast : Int → Int) (e : CoordEncoding) (v : Rat) : Int :=
  let n := npAround ((v - e.addOffset) / e.scaleFactor)
  if -32768 ≤ n ∧ n < 32768 then n else cast n

/-- How a stored coordinate is read, encoding from imagery.py:166-231. -/
def coordDecode (e : CoordEncoding) (n : Int) : Option Rat :=
  if n = e.fillValue then none else some (n * e.scaleFactor + e.addOffset)

/-- The coordinates in a file as a reader gets them, imagery.py:166-231, 363-400: those of the image
(always with the encoding for the full disk) through `to_netcdf`. -/
def readCoords (cast : Int → Int) (f : ImageFile) : List (Option Rat) × List (Option Rat) :=
  (f.x.map fun v => coordDecode xEncoding (coordEncode cast xEncoding v),
   f.y.map fun v => coordDecode yEncoding (coordEncode cast yEncoding v))

end Verif.Model
