import Verif.Model.Ccd

/-!
# Model of `glmtools/grid/clipping.py`

The polygon clipper (pyclipper, including its scaling to integers and back) is the parameter
`clip`, the nearest neighbour search of scikit-learn is the parameter `query`.
-/

namespace Verif.Model

open Verif.Py

/-- A polygon: its vertices in order. -/
abbrev Poly := List Pt

/-- `poly_area(x, y)`, clipping.py:58-66.  `x[-1]` of an empty array is an IndexError. -/
def polyArea (x y : List Rat) : Except Err Rat :=
  let det := List.zipWith (· - ·) (List.zipWith (· * ·) x.dropLast y.tail)
    (List.zipWith (· * ·) x.tail y.dropLast)
  match x.getLast?, y.head?, x.head?, y.getLast? with
  | some xn, some y0, some x0, some yn => .ok ((det.sum + (xn * y0 - x0 * yn)) * (1 / 2))
  | _, _, _, _ => .error .indexError

/-- `poly_area(p[:,0], p[:,1])`. -/
def areaOf (p : Poly) : Except Err Rat := polyArea (p.map Prod.fst) (p.map Prod.snd)

/-- `a[:, -1]`: IndexError if a row is empty. -/
def lastColumn (a : List (List Rat)) : Except Err (List Rat) :=
  a.mapM fun r => match r.getLast? with
    | some v => .ok v
    | none => .error .indexError

/-- `a[:, 0]`: IndexError if a row is empty. -/
def firstColumn (a : List (List Rat)) : Except Err (List Rat) :=
  a.mapM fun r => match r.head? with
    | some v => .ok v
    | none => .error .indexError

/-- `vectorized_poly_area(x, y)`, clipping.py:43-56: whole-array operations on stacks. -/
def vectorizedPolyArea (x y : List (List Rat)) : Except Err (List Rat) := do
  let mul := List.zipWith (List.zipWith (· * · : Rat → Rat → Rat))
  let det := List.zipWith (List.zipWith (· - ·))
    (mul (x.map List.dropLast) (y.map List.tail)) (mul (x.map List.tail) (y.map List.dropLast))
  let area := det.map List.sum
  let wrap := List.zipWith (· - ·)
    (List.zipWith (· * ·) (← lastColumn x) (← firstColumn y))
    (List.zipWith (· * ·) (← firstColumn x) (← lastColumn y))
  pure ((List.zipWith (· + ·) area wrap).map (· * (1 / 2)))

/-- `polys_from_quadmesh(x, y)`, clipping.py:93-114, `v` being the stacked vertices. -/
def polysFromQuadmesh (v : List (List Pt)) : List (List Poly) :=
  let q0 := v.dropLast.map List.dropLast
  let q1 := v.dropLast.map List.tail
  let q2 := v.tail.map List.tail
  let q3 := v.tail.map List.dropLast
  List.zipWith (List.zipWith fun ab cd => ab ++ cd)
    (List.zipWith (List.zipWith fun a b => [a, b]) q0 q1)
    (List.zipWith (List.zipWith fun c d => [c, d]) q2 q3)

/-- `np.dstack((x, y))`. -/
def dstack (x y : List (List Rat)) : List (List Pt) := List.zipWith List.zip x y

/-- What `QuadMeshSubset.__init__` finds out about a regular mesh, clipping.py:189-214. -/
structure Axes where
  /-- `X_edge1d` -/
  xEdge : List Rat
  /-- `Y_edge1d` -/
  yEdge : List Rat
  /-- `X_increasing_dim == 0` -/
  xFirst : Bool
  deriving DecidableEq, Repr

/-- `N_X_ctr`: one less than the number of edges, clipping.py:152-158, 213. -/
def Axes.nx (a : Axes) : Nat := a.xEdge.length - 1
/-- `N_Y_ctr`, clipping.py:214. -/
def Axes.ny (a : Axes) : Nat := a.yEdge.length - 1

/-- The first column. -/
def column0 (a : List (List Rat)) : List Rat := a.map fun r => r.headD 0

/-- Detection of the regular arrangement, clipping.py:189-210.  `np.allclose(d, 0.0)` is
`|d| <= 1e-8`. -/
def mkAxes (xedge yedge : List (List Rat)) : Axes :=
  let c := column0 xedge
  let mean := c.sum / c.length
  if ∀ x ∈ c, |mean - x| ≤ 1 / 100000000 then
    { xEdge := xedge.headD [], yEdge := column0 yedge, xFirst := false }
  else
    { xEdge := c, yEdge := yedge.headD [], xFirst := true }

/-- A bounding box. -/
structure Box where
  xmin : Rat
  xmax : Rat
  ymin : Rat
  ymax : Rat
  deriving DecidableEq, Repr

/-- The valid cell numbers of the two limits along one axis, clipping.py:329-334. -/
def limitCells (edge : List Rat) (lo hi : Rat) : Except Err (List Int) := do
  let i ← digitizeRight edge lo
  let j ← digitizeRight edge hi
  pure ([(i : Int) - 1, (j : Int) - 1].filter fun k => decide (0 ≤ k ∧ k < (edge.length : Int) - 1))

/-- `Xi1d[sl_quad_xi]`, clipping.py:337-348: the cells from the lowest valid limit minus the pad
to the highest valid limit plus the pad. -/
def axisCells (n pad : Nat) (idx : List Int) : List Nat :=
  match idx with
  | [] => []
  | k :: ks =>
    let lo := max (ks.foldl min k - pad) 0
    let hi := min (ks.foldl max k + 1 + pad) n
    slice (List.range n) lo.toNat hi.toNat

/-- `_quads_in_bbox_fast(bbox, pad)`, clipping.py:302-352: the index pairs, as two arrays. -/
def quadsInBboxFast (ax : Axes) (b : Box) (pad : Nat) : Except Err (List Nat × List Nat) := do
  let idxx ← limitCells ax.xEdge b.xmin b.xmax
  let idxy ← limitCells ax.yEdge b.ymin b.ymax
  let sl : List Nat × List Nat :=
    if idxx.length > 0 ∧ idxy.length > 0 then
      let sx := axisCells ax.nx pad idxx
      let sy := axisCells ax.ny pad idxy
      if ax.xFirst then (sx, sy) else (sy, sx)
    else ([], [])
  pure (sl.1.flatMap (fun i => List.replicate sl.2.length i), sl.1.flatMap (fun _ => sl.2))

/-- A mesh: `QuadMeshSubset`, clipping.py:129-221. -/
structure Mesh where
  xedge : List (List Rat)
  yedge : List (List Rat)
  regular : Bool
  nNeighbors : Nat

/-- `self.quads`. -/
def Mesh.quads (m : Mesh) : List (List Poly) := polysFromQuadmesh (dstack m.xedge m.yedge)
/-- `self.X_edge1d` and so on. -/
def Mesh.axes (m : Mesh) : Axes := mkAxes m.xedge m.yedge

/-- `self.X_ctr` or `self.Y_ctr`: mean of the four corners, clipping.py:152-158. -/
def centres (edge : List (List Rat)) : List (List Rat) :=
  let add := List.zipWith (List.zipWith (· + · : Rat → Rat → Rat))
  (add (add (add (edge.dropLast.map List.dropLast) (edge.tail.map List.tail))
    (edge.tail.map List.dropLast)) (edge.dropLast.map List.tail)).map (List.map (· / 4))

/-- `self.quad_areas`, clipping.py:173-180: areas of the flattened quads, reshaped to rows of the
original length. -/
def Mesh.quadAreas (m : Mesh) : Except Err (List (List Rat)) := do
  let flat := m.quads.flatten
  let a ← vectorizedPolyArea (flat.map (List.map Prod.fst)) (flat.map (List.map Prod.snd))
  pure (chunksOf (m.quads.map List.length) a)
where
  /-- Reshape into rows of the given lengths. -/
  chunksOf : List Nat → List Rat → List (List Rat)
    | [], _ => []
    | n :: ns, l => l.take n :: chunksOf ns (l.drop n)

/-- Candidate quads and their indices. -/
structure Candidates where
  quads : List Poly
  xi : List Nat
  yi : List Nat
  deriving DecidableEq, Repr

/-- Is some vertex coordinate inside the limits?  clipping.py:382-387, the loop over corners. -/
def anyCorner (k : Pt → Rat) (lo hi : Rat) (q : Poly) : Bool :=
  q.foldl (fun acc v => acc || (decide (lo ≤ k v) && decide (k v ≤ hi))) false

/-- `quads_in_bbox(bbox)`, clipping.py:354-390. -/
def Mesh.quadsInBbox (m : Mesh) (b : Box) : Except Err Candidates := do
  if m.regular then
    let (xi, yi) ← quadsInBboxFast m.axes b 2
    pure { quads := ← fancy2 m.quads xi yi, xi, yi }
  else
    let (xi, yi) := where2 (m.quads.map (List.map fun q =>
      anyCorner Prod.fst b.xmin b.xmax q && anyCorner Prod.snd b.ymin b.ymax q))
    pure { quads := ← fancy2 m.quads xi yi, xi, yi }

/-- `query_tree` and `quads_nearest`, clipping.py:233-270.  `query` gives the positions of the
nearest points in the list of centres; the tree refuses (ValueError) to look for more points than
it has.  The `squeeze` is handled where it matters, in
`candidatesFor`. -/
def Mesh.quadsNearest (query : List Pt → Pt → Nat → List Nat) (m : Mesh) (p : Pt) :
    Except Err Candidates := do
  if m.regular then
    let (xi, yi) ← quadsInBboxFast m.axes ⟨p.1, p.1, p.2, p.2⟩ 2
    pure { quads := ← fancy2 m.quads xi yi, xi, yi }
  else
    let l ← createPixelLookup ⟨centres m.xedge, none⟩ ⟨centres m.yedge, none⟩
    if l.points.length < m.nNeighbors then throw .valueError
    let idx := query l.points p m.nNeighbors
    let xi := take l.xIdx idx
    let yi := take l.yIdx idx
    pure { quads := ← fancy2 m.quads xi yi, xi, yi }

/-- The `bbox` argument of `slice`. -/
inductive BBoxArg
  | none
  | true
  | box (b : Box)

/-- `p.mean(axis=0)`. -/
def meanPoint (p : Poly) : Pt :=
  ((p.map Prod.fst).sum / p.length, (p.map Prod.snd).sum / p.length)

/-- The extent of a polygon, clipping.py:577-579: ValueError for one without vertices. -/
def polyBox (p : Poly) : Except Err Box :=
  match p.map Prod.fst, p.map Prod.snd with
  | x :: xs, y :: ys => .ok ⟨xs.foldl min x, xs.foldl max x, ys.foldl min y, ys.foldl max y⟩
  | _, _ => .error .valueError

/-- The candidates for one polygon, the body of the loop in clipping.py:574-591.
`recalc_bbox` is only assigned when `bbox == True`, so an explicit box is an UnboundLocalError.
`quads_nearest` squeezes its arrays: a single candidate loses its leading dimension, and the
reshape to four rows fails with ValueError. -/
def candidatesFor (query : List Pt → Pt → Nat → List Nat) (m : Mesh) (bbox : BBoxArg) (p : Poly) :
    Except Err Candidates :=
  match bbox with
  | .box _ => .error .unboundLocalError
  | .true => do m.quadsInBbox (← polyBox p)
  | .none => do
    let c ← m.quadsNearest query (meanPoint p)
    if c.quads.length = 1 then .error .valueError else pure c

/-- `clip_polys_by_one_poly(polys, p)`, clipping.py:406-446.  `clip p q` gives the pieces of `q`
inside `p` (`clip_poly_pair`, clipping.py:392-404). -/
def clipPolysByOnePoly (clip : Poly → Poly → List Poly) (polys : List Poly) (p : Poly) :
    List Poly × List Nat :=
  let all := polys.map (clip p)
  (all.flatten, all.map List.length)

/-- The pieces of one polygon: polygons, area fractions, cell indices, as parallel arrays. -/
structure SubPolys where
  polys : List Poly
  fracs : List Rat
  xi : List Nat
  yi : List Nat
  deriving DecidableEq, Repr

/-- `make_sub_polys`, clipping.py:625-653.  Simplification: the `squeeze` of a piece, which acts
only on a piece with a single vertex, is left out. -/
def makeSubPolys (clip : Poly → Poly → List Poly) (poly : Poly) (area : Rat) (c : Candidates) :
    Except Err SubPolys := do
  let (clipPolys, counts) := clipPolysByOnePoly clip c.quads poly
  let fracs ← clipPolys.mapM fun p => do pure |(← areaOf p) / area|
  pure { polys := clipPolys, fracs, xi := npRepeat c.xi counts, yi := npRepeat c.yi counts }

/-- `QuadMeshPolySlicer.slice(polys, bbox)`, clipping.py:475-607: pieces of every polygon, and the
polygon areas.  The areas are computed first, then all candidates, then the pieces. -/
def slicePolys (clip : Poly → Poly → List Poly) (query : List Pt → Pt → Nat → List Nat) (m : Mesh)
    (polys : List Poly) (bbox : BBoxArg) : Except Err (List SubPolys × List Rat) := do
  let areas ← polys.mapM fun p => do pure |← areaOf p|
  let cands ← polys.mapM (candidatesFor query m bbox)
  let subs ← (polys.zip (areas.zip cands)).mapM fun a => makeSubPolys clip a.1 a.2.1 a.2.2
  pure (subs, areas)

/-- `quad_frac_from_poly_frac_area`, clipping.py:609-620. -/
def quadFrac (areas : List (List Rat)) (fracs : List Rat) (total : Rat) (xi yi : List Nat) :
    Except Err (List Rat) := do
  let sub := fracs.map (· * total)
  pure (List.zipWith (· / ·) sub (← fancy2 areas xi yi))

/-- `run_pool_map(f, a, chunksize)`, clipping.py:660-671: the arguments are sent to the workers in
blocks; `schedule` is the order in which the blocks are completed; every finished block goes into
its own slot (future), and the caller reads the slots in order. -/
def runPoolMap {β γ : Type} (f : β → γ) (a : List β) (chunksize : Nat)
    (schedule : List Nat → List Nat) : List γ :=
  let nBlocks := (a.length + chunksize - 1) / chunksize
  let done := (schedule (List.range nBlocks)).foldl
    (fun (slots : Nat → List γ) k => fun i =>
      if i = k then (slice a (k * chunksize) ((k + 1) * chunksize)).map f else slots i)
    (fun _ => [])
  (List.range nBlocks).flatMap done

end Verif.Model
