import Verif.Model.Clipping

/-!
# Model of the scaling to integers in `clip_polys_by_one_poly`, `glmtools/grid/clipping.py`

pyclipper works on integers.  Its functions `scale_to_clipper` and `scale_from_clipper` multiply every coordinate by
`2 ** 31` and cut off the fraction, and divide by `2 ** 31`.  What is left as a parameter is the intersection of
polygons with integer coordinates, `iclip`.

The product of a double and `2 ** 31` is exact, and so is the conversion back for integers of up to 53 bits.  The
overflow of 64 bit integers (coordinates of `2 ** 32` and more) is left out.
-/

namespace Verif.Model

open Verif.Py

/-- The default scale of pyclipper; clipping.py:85-86 and 429 mention it. -/
def clipperScale : Rat := 2147483648

/-- `scale_to_clipper` of a number: conversion of a C double to an integer, towards zero; clipping.py:423-424. -/
def toClipper (v : Rat) : Int :=
  if 0 ≤ v then ⌊v * clipperScale⌋ else ⌈v * clipperScale⌉

/-- `scale_from_clipper` of a number, clipping.py:440-441. -/
def fromClipper (n : Int) : Rat := n / clipperScale

/-- A polygon with integer coordinates. -/
abbrev IPoly := List (Int × Int)

/-- `scale_to_clipper(p)`, clipping.py:424. -/
def scaleToClipper (p : Poly) : IPoly := p.map fun v => (toClipper v.1, toClipper v.2)

/-- `scale_from_clipper(p)`, clipping.py:440-441. -/
def scaleFromClipper (p : IPoly) : Poly := p.map fun v => (fromClipper v.1, fromClipper v.2)

/-- `clip_poly_pair` (clipping.py:392-404) between the two conversions, as `clip_polys_by_one_poly` (clipping.py:422-441)
applies it to each of the quads; this is what `clip` stands for in `clipPolysByOnePoly`. -/
def scaledClip (iclip : IPoly → IPoly → List IPoly) (p q : Poly) : List Poly :=
  (iclip (scaleToClipper p) (scaleToClipper q)).map scaleFromClipper

/-- The message at the end of `make_sub_polys`, clipping.py:649-651: is it logged? -/
def notCoveredMessage (s : SubPolys) : Bool := decide (|s.fracs.sum * 100 - 100| > 1 / 10)

end Verif.Model
