import Verif.Model.Double
import Verif.Model.Clipping

/-!
# Areas and shares of polygons in double precision

`poly_area` and what is made of it (glmtools/grid/clipping.py, glmtools/grid/split_events.py,
glmtools/io/mimic_lma.py) as in `Verif.Model.Clipping` and `Verif.Model.Split`, with the rounding `fl` after every
operation.  `sum` is `numpy.sum`, which adds in an order of its own.
-/

namespace Verif.Model

open Verif.Py

/-- `poly_area(x, y)`, clipping.py:58-66. -/
def polyAreaFl (fl : Rat → Rat) (sum : List Rat → Rat) (x y : List Rat) : Except Err Rat :=
  let det := List.zipWith (fun a b => fl (a - b)) (List.zipWith (fun a b => fl (a * b)) x.dropLast y.tail)
    (List.zipWith (fun a b => fl (a * b)) x.tail y.dropLast)
  match x.getLast?, y.head?, x.head?, y.getLast? with
  | some xn, some y0, some x0, some yn => .ok (fl (fl (sum det + fl (fl (xn * y0) - fl (x0 * yn))) * (1 / 2)))
  | _, _, _, _ => .error .indexError

/-- `poly_area(p[:,0], p[:,1])`. -/
def areaOfFl (fl : Rat → Rat) (sum : List Rat → Rat) (p : Poly) : Except Err Rat :=
  polyAreaFl fl sum (p.map Prod.fst) (p.map Prod.snd)

/-- An entry of `frac_areas`, clipping.py:649, for a polygon of which `areas`, clipping.py:570, is not zero. -/
def fracAreaFl (fl : Rat → Rat) (sum : List Rat → Rat) (poly piece : Poly) : Except Err Rat := do
  let area := |← areaOfFl fl sum poly|
  pure |fl ((← areaOfFl fl sum piece) / area)|

/-- An entry of `quad_frac_from_poly_frac_area`, clipping.py:617-620.  `sum'` is the sum along the second axis in
`vectorized_poly_area`, clipping.py:43-56, which has the operations of `poly_area` otherwise. -/
def quadFracFl (fl : Rat → Rat) (sum sum' : List Rat → Rat) (poly piece quad : Poly) : Except Err Rat := do
  let frac ← fracAreaFl fl sum poly piece
  let area := |← areaOfFl fl sum poly|
  pure (fl (fl (frac * area) / (← areaOfFl fl sum' quad)))

/-- The energy of a piece, split_events.py:161-167 and mimic_lma.py:246-317: the energy of the event times the share. -/
def pieceEnergyFl (fl : Rat → Rat) (sum : List Rat → Rat) (energy : Rat) (poly piece : Poly) : Except Err Rat := do
  pure (fl (energy * (← fracAreaFl fl sum poly piece)))

end Verif.Model
