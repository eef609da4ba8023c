import Verif.Spec.ConvexClip
import Mathlib.Algebra.Order.Round

/-!
# Specification vocabulary: rounding of polygons

Independent of the model.
-/

namespace Verif.Spec

open Verif.Py

/-- The length of the outline of a polygon, measured along the axes: the sum over all edges, including the closing
one, of the differences of the two coordinates. -/
def outlineLength (p : List Pt) : Rat :=
  ((List.range p.length).map fun k =>
    |(p.getD ((k + 1) % p.length) (0, 0)).1 - (p.getD k (0, 0)).1| +
    |(p.getD ((k + 1) % p.length) (0, 0)).2 - (p.getD k (0, 0)).2|).sum

/-- A polygon with integer coordinates among all polygons. -/
def ofInts (p : List (Int × Int)) : List Pt := p.map fun v => ((v.1 : Rat), (v.2 : Rat))

/-- A rectangle with integer corners, from the lower left corner counterclockwise. -/
def intRect (x y X Y : Int) : List (Int × Int) := [(x, y), (X, y), (X, Y), (x, Y)]

/-- A clipper of polygons with integer coordinates that finds the area of the intersection of convex polygons with
rectangles up to an error of `τ n ℓ`, for polygons with `n` corners and an outline of length `ℓ`. -/
def ClipsWithin (iclip : List (Int × Int) → List (Int × Int) → List (List (Int × Int)))
    (τ : Nat → Rat → Rat) : Prop :=
  ∀ (p : List (Int × Int)) (x y X Y : Int), ConvexPoly (ofInts p) → signedArea (ofInts p) ≠ 0 → x ≤ X → y ≤ Y →
    |((iclip p (intRect x y X Y)).map fun q => |signedArea (ofInts q)|).sum -
      signedArea (cutRect (counterclockwise (ofInts p)) x y X Y)| ≤ τ p.length (outlineLength (ofInts p))

/-- The clipper that finds the intersection and rounds its corners to the nearest integers. -/
def roundClip (p q : List (Int × Int)) : List (List (Int × Int)) :=
  (convexClip (ofInts p) (ofInts q)).map fun s => s.map fun v => (round v.1, round v.2)

/-- Every corner that is not an end of an edge is on the left of the edge, by a margin that outlasts moving each
coordinate by `δ`. -/
def ClearlyCcw (δ : Rat) (p : List Pt) : Prop :=
  ∀ k < p.length, ∀ j < p.length, j ≠ k → j ≠ (k + 1) % p.length →
    2 * δ * (|(p.getD ((k + 1) % p.length) (0, 0)).1 - (p.getD k (0, 0)).1| +
        |(p.getD ((k + 1) % p.length) (0, 0)).2 - (p.getD k (0, 0)).2| +
        |(p.getD j (0, 0)).1 - (p.getD k (0, 0)).1| + |(p.getD j (0, 0)).2 - (p.getD k (0, 0)).2|) + 8 * δ ^ 2 ≤
      cross ((p.getD ((k + 1) % p.length) (0, 0)).1 - (p.getD k (0, 0)).1,
          (p.getD ((k + 1) % p.length) (0, 0)).2 - (p.getD k (0, 0)).2)
        ((p.getD j (0, 0)).1 - (p.getD k (0, 0)).1, (p.getD j (0, 0)).2 - (p.getD k (0, 0)).2)

/-- Convex by a margin, in either orientation. -/
def ClearlyConvex (δ : Rat) (p : List Pt) : Prop := ClearlyCcw δ p ∨ ClearlyCcw δ p.reverse

end Verif.Spec
