import Verif.Model.Clipping
import Verif.Model.Tiles

/-!
# Two further functions of `glmtools/grid/clipping.py`

The lookup for evenly spaced grids and the lines of a mesh.  No other part of the repository calls them.

Simplifications: exact numbers; the cell numbers fit in 32 bits; the limits of the box are an array (a list is a
TypeError).
-/

namespace Verif.Model

open Verif.Py

/-- `X_ctr1d`, clipping.py:189-210. -/
def Mesh.xCtr1d (m : Mesh) : List Rat :=
  if m.axes.xFirst then column0 (centres m.xedge) else (centres m.xedge).headD []

/-- `Y_ctr1d`, clipping.py:189-210. -/
def Mesh.yCtr1d (m : Mesh) : List Rat :=
  if m.axes.xFirst then (centres m.yedge).headD [] else column0 (centres m.yedge)

/-- `xi[xi<0] = 0` and `xi[xi>N+1] = N+1`, clipping.py:288-291. -/
def clampCell (n : Nat) (i : Int) : Int :=
  let i := if i < 0 then 0 else i
  if i > n + 1 then (n : Int) + 1 else i

/-- The cells along one axis, clipping.py:279-296.  `ctr[1]` is an IndexError if there is only one cell; a spacing of
zero does not occur. -/
def axisCellsRegular (ctr : List Rat) (lo hi : Rat) (pad : Nat) : Except Err (List Nat) :=
  match ctr with
  | c0 :: c1 :: _ =>
    let d := c1 - c0
    let i := ⌊(lo - c0) / d⌋ - (pad : Int)
    let j := ⌊(hi - c0) / d⌋ + (pad : Int)
    .ok (PySlice.apply ⟨some (clampCell ctr.length i), some (clampCell ctr.length j)⟩ (List.range ctr.length))
  | _ => .error .indexError

/-- `_quads_in_bbox_regular(bbox, pad)`, clipping.py:272-300. -/
def Mesh.quadsInBboxRegular (m : Mesh) (b : Box) (pad : Nat) : Except Err (List Nat × List Nat) := do
  let sx ← axisCellsRegular m.xCtr1d b.xmin b.xmax pad
  let sy ← axisCellsRegular m.yCtr1d b.ymin b.ymax pad
  let sl := if m.axes.xFirst then (sx, sy) else (sy, sx)
  pure (sl.1.flatMap (fun i => List.replicate sl.2.length i), sl.1.flatMap (fun _ => sl.2))

/-- `lines_from_quadmesh(xedge, yedge, scale)`, clipping.py:68-90, for arrays of the same shape with rows of `n` points.
`toClipper` is what pyclipper does with every coordinate; without `scale` it is the identity. -/
def linesFromQuadmesh {β : Type} (toClipper : Rat → β) (xedge yedge : List (List Rat)) (n : Nat) :
    List (List (β × β)) × List (List (β × β)) :=
  let lines := dstack xedge yedge
  let scale := List.map (List.map fun p : Pt => (toClipper p.1, toClipper p.2))
  (scale lines, scale ((List.range n).map fun j => lines.filterMap fun r => r[j]?))

end Verif.Model
