import Verif.Model.Split
import Verif.Model.DoubleArea

/-!
# The lookup table reader in floating point

`fast_fixed_grid_read_chunk` as in `Verif.Model.Split`, with the result of every operation on areas, fractions,
energies, counts and positions rounded.

Simplification: the rows of the lookup table are given, as numbers.
-/

namespace Verif.Model

open Verif.Py

/-- An arithmetic: the rounding of the result of an operation, the sums of numpy over an array and along an axis, the
sums of pandas over a group, and the conversion to the 32 bit columns of the rows that are sent to the grids. -/
structure Arith where
  fl : Rat → Rat
  sum : List Rat → Rat
  sumAxis : List Rat → Rat
  groupSum : List Rat → Rat
  store : Rat → Rat

/-- Exact arithmetic, that of `Verif.Model.Split`. -/
def Arith.exact : Arith := ⟨id, List.sum, List.sum, List.sum, id⟩

/-- `make_sub_polys`, clipping.py:625-653. -/
def makeSubPolysFl (A : Arith) (clip : Poly → Poly → List Poly) (poly : Poly) (area : Rat) (c : Candidates) :
    Except Err SubPolys := do
  let (clipPolys, counts) := clipPolysByOnePoly clip c.quads poly
  let fracs ← clipPolys.mapM fun p => do pure |A.fl ((← areaOfFl A.fl A.sum p) / area)|
  pure { polys := clipPolys, fracs, xi := npRepeat c.xi counts, yi := npRepeat c.yi counts }

/-- `p.mean(axis=0)`, clipping.py:571 and split_events.py:13-16.  The coordinates of a polygon are in the arithmetic already, so
that their rounding changes nothing; it makes the model that of the polygon in the arithmetic, whatever the numbers. -/
def meanPointFl (A : Arith) (p : Poly) : Pt :=
  (A.fl (A.sumAxis (p.map fun v => A.fl v.1) / p.length), A.fl (A.sumAxis (p.map fun v => A.fl v.2) / p.length))

/-- The candidates for one polygon, clipping.py:571-591, as `candidatesFor`. -/
def candidatesForFl (A : Arith) (query : List Pt → Pt → Nat → List Nat) (m : Mesh) (bbox : BBoxArg) (p : Poly) :
    Except Err Candidates :=
  match bbox with
  | .box _ => .error .unboundLocalError
  | .true => do m.quadsInBbox (← polyBox p)
  | .none => do
    let c ← m.quadsNearest query (meanPointFl A p)
    if c.quads.length = 1 then .error .valueError else pure c

/-- `QuadMeshPolySlicer.slice(polys, bbox)`, clipping.py:475-607. -/
def slicePolysFl (A : Arith) (clip : Poly → Poly → List Poly) (query : List Pt → Pt → Nat → List Nat) (m : Mesh)
    (polys : List Poly) (bbox : BBoxArg) : Except Err (List SubPolys × List Rat) := do
  let areas ← polys.mapM fun p => do pure |← areaOfFl A.fl A.sum p|
  let cands ← polys.mapM (candidatesForFl A query m bbox)
  let subs ← (polys.zip (areas.zip cands)).mapM fun a => makeSubPolysFl A clip a.1 a.2.1 a.2.2
  pure (subs, areas)

/-- `self.quad_areas`, clipping.py:173-180, with `vectorized_poly_area`, clipping.py:43-56, cell by cell. -/
def quadAreasFl (A : Arith) (m : Mesh) : Except Err (List (List Rat)) := do
  let a ← m.quads.flatten.mapM (areaOfFl A.fl A.sumAxis)
  pure (Mesh.quadAreas.chunksOf (m.quads.map List.length) a)

/-- The pieces of one polygon, split_events.py:13-16, 29-44, and `quad_frac_from_poly_frac_area`,
clipping.py:609-620. -/
def splitOneFl (A : Arith) (meshAreas : List (List Rat)) (s : SubPolys) (total : Rat) (evid : Int) :
    Except Err (List (Poly × PropRow)) := do
  let quadFracs := List.zipWith (fun a b => A.fl (a / b)) (s.fracs.map fun f => A.fl (f * total))
    (← fancy2 meshAreas s.xi s.yi)
  let means := s.polys.map fun sq => (sq, meanPointFl A sq)
  pure ((means.zip (s.fracs.zip (s.xi.zip (s.yi.zip quadFracs)))).map
    fun ((sq, sqMean), fracArea, xIdx, yIdx, quadArea) =>
      (sq, { polyCtr := sqMean, eventFracArea := fracArea, meshFracArea := quadArea,
             meshIdx := (xIdx, yIdx), eventId := evid }))

/-- `split_event_data`, split_events.py:46-85, and `gen_split_events`, 18-44. -/
def splitEventDataFl (A : Arith) (meshAreas : List (List Rat)) (chopped : List SubPolys) (polyAreas : List Rat)
    (eventIds : List Int) : Except Err (List Poly × List PropRow) := do
  let parts ← (chopped.zip (polyAreas.zip eventIds)).mapM fun (s, total, evid) =>
    splitOneFl A meshAreas s total evid
  pure (parts.flatten.map Prod.fst, parts.flatten.map Prod.snd)

/-- `replicate_and_weight_split_child_dataset_new`, mimic_lma.py:246-317. -/
def replicateAndWeightNewFl (A : Arith) (parents : List LutRow) (split : List SplitRow) :
    Except Err (List SplitLut) :=
  split.mapM fun s =>
    match parents.find? fun r => r.id = s.parent with
    | none => .error .keyError
    | some r => .ok
      { row := s, lutId := r.id, energy := A.fl (r.energy * s.areaFraction), time := r.time
        count := A.fl (r.count * s.meshFraction), flashCount := A.fl (r.flashCount * s.meshFraction)
        groupCount := A.fl (r.groupCount * s.meshFraction)
        totalFlashArea := A.fl (r.totalFlashArea * s.meshFraction)
        totalGroupArea := A.fl (r.totalGroupArea * s.meshFraction)
        minFlashArea := r.minFlashArea }

/-- The row of one cell, mimic_lma.py:863-886; the columns are 32 bit floats (809-821) but for `mesh_frac`. -/
def cellEventFl (A : Arith) (basedate : Int) (g : List SplitLut) : LmaEvent where
  flashId := colMin (g.map fun s => s.row.parent)
  x := A.store (A.fl (A.groupSum (g.map fun s => s.row.x) / g.length))
  y := A.store (A.fl (A.groupSum (g.map fun s => s.row.y) / g.length))
  time := colMin (g.map SplitLut.time) - basedate
  meshFrac := A.groupSum (g.map fun s => |s.row.meshFraction|)
  meshXi := colMin (g.map fun s => s.row.meshX)
  meshYi := colMin (g.map fun s => s.row.meshY)
  power := A.store (A.groupSum (g.map SplitLut.energy))
  count := A.store (A.groupSum (g.map SplitLut.count))
  flashCount := A.store (A.groupSum (g.map SplitLut.flashCount))
  groupCount := A.store (A.groupSum (g.map SplitLut.groupCount))
  totalFlashArea := A.store (A.groupSum (g.map SplitLut.totalFlashArea))
  totalGroupArea := A.store (A.groupSum (g.map SplitLut.totalGroupArea))
  minFlashArea := A.store (colMin (g.map SplitLut.minFlashArea))

/-- `_fake_lma_events_from_split_glm_lutevents`, mimic_lma.py:808-888. -/
def fakeLmaEventsFl (A : Arith) (split : List SplitLut) (basedate : Int) : Except Err (List LmaEvent) :=
  match split.map fun s => s.row.meshX with
  | [] => .error .valueError
  | x0 :: xs =>
    let xiMax := xs.foldl max x0
    let xyidx := split.map fun s => ((s.row.meshY * (xiMax + 1) + s.row.meshX : Nat) : Int)
    .ok ((groups xyidx).map fun kv => cellEventFl A basedate (take split kv.2))

/-- `fast_fixed_grid_read_chunk`, mimic_lma.py:115-243, from the lookup table `rows` of the chunk to the children that
are sent to the targets. -/
def readChunkFl (A : Arith) (clip : Poly → Poly → List Poly) (query : List Pt → Pt → Nat → List Nat)
    (quads : List Pt → List Poly) (mesh : Mesh) (basedate : Int) (rows : List LutRow) :
    Except Err (List LmaEvent) := do
  let polys := quads (rows.map fun r => (r.x, r.y))
  let (chopped, areas) ← slicePolysFl A clip query mesh polys .none
  let meshAreas ← quadAreasFl A mesh
  let (_, props) ← splitEventDataFl A meshAreas chopped areas (rows.map LutRow.id)
  let split ← replicateAndWeightNewFl A rows (splitDatasetFromProps props)
  fakeLmaEventsFl A split basedate

end Verif.Model
