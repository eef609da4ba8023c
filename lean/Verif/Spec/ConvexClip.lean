import Verif.Spec.Geometry
import Verif.Py.Array

/-!
# A clipper for convex polygons

`clip_poly_pair` (`glmtools/grid/clipping.py:392-404`) leaves the intersection of two polygons to the pyclipper
library, which is a parameter of the model.  Here is a clipper that can stand for it where the first polygon is
convex and the second a cell of a rectangular grid: the polygon is cut by the four lines of the cell, one after the
other (Sutherland and Hodgman).
-/

namespace Verif.Spec

open Verif.Py

/-- The point of the line through `a` and `b` at which a function that is affine, with value `α` at `a` and `β` at
`b`, is zero. -/
def meet (a b : Pt) (α β : Rat) : Pt :=
  (a.1 + α / (α - β) * (b.1 - a.1), a.2 + α / (α - β) * (b.2 - a.2))

/-- What is left of the step from `a` to `b` where `s` is not negative: the points to add. -/
def cutStep (s : Pt → Rat) (a b : Pt) : List Pt :=
  if 0 ≤ s b then (if 0 ≤ s a then [b] else [meet a b (s a) (s b), b])
  else if 0 ≤ s a then [meet a b (s a) (s b)] else []

/-- The same for a path that starts in `a`. -/
def cutPath (s : Pt → Rat) : Pt → List Pt → List Pt
  | _, [] => []
  | a, b :: l => cutStep s a b ++ cutPath s b l

/-- The part of a polygon where `s` is not negative. -/
def cut (s : Pt → Rat) (p : List Pt) : List Pt :=
  match p.getLast? with
  | none => []
  | some z => cutPath s z p

/-- The four sides of a line parallel to an axis. -/
def leftOf (c : Rat) (p : Pt) : Rat := c - p.1
def rightOf (c : Rat) (p : Pt) : Rat := p.1 - c
def below (c : Rat) (p : Pt) : Rat := c - p.2
def above (c : Rat) (p : Pt) : Rat := p.2 - c

/-- The part of a polygon in the rectangle from `(x, y)` to `(X, Y)`. -/
def cutRect (p : List Pt) (x y X Y : Rat) : List Pt :=
  cut (above y) (cut (below Y) (cut (rightOf x) (cut (leftOf X) p)))

/-- Counterclockwise. -/
def counterclockwise (p : List Pt) : List Pt := if signedArea p < 0 then p.reverse else p

/-- Intersection of a convex polygon with a rectangle listed from the lower left corner counterclockwise: no
polygon, or one. -/
def convexClip (p q : List Pt) : List (List Pt) :=
  match q with
  | [(x, y), _, (X, Y), _] =>
    if signedArea (cutRect (counterclockwise p) x y X Y) = 0 then []
    else [cutRect (counterclockwise p) x y X Y]
  | _ => []

/-- No corner is to the right of any edge, seen in the direction of the edge. -/
def ConvexCcw (p : List Pt) : Prop :=
  ∀ k < p.length, ∀ r ∈ p,
    0 ≤ cross ((p.getD ((k + 1) % p.length) (0, 0)).1 - (p.getD k (0, 0)).1,
        (p.getD ((k + 1) % p.length) (0, 0)).2 - (p.getD k (0, 0)).2)
      (r.1 - (p.getD k (0, 0)).1, r.2 - (p.getD k (0, 0)).2)

/-- A convex polygon, in either orientation. -/
def ConvexPoly (p : List Pt) : Prop := ConvexCcw p ∨ ConvexCcw p.reverse

/-- The points of a convex polygon: its corners and everything between. -/
inductive InHull (p : List Pt) : Pt → Prop
  | corner {v : Pt} : v ∈ p → InHull p v
  | between {a b : Pt} {t : Rat} : InHull p a → InHull p b → 0 ≤ t → t ≤ 1 →
      InHull p (a.1 + t * (b.1 - a.1), a.2 + t * (b.2 - a.2))

end Verif.Spec
