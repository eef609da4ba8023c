import Verif.Model.Clipping
import Verif.Model.Lut

/-!
# Model of `glmtools/grid/split_events.py` and of the lookup table reader in
`glmtools/io/mimic_lma.py`

Simplifications: exact rationals for floats; times are integers.
-/

namespace Verif.Model

open Verif.Py

/-- One element of the structured array of `split_event_data`, split_events.py:58-66. -/
structure PropRow where
  polyCtr : Pt
  eventFracArea : Rat
  meshFracArea : Rat
  meshIdx : Nat × Nat
  eventId : Int
  deriving DecidableEq, Repr

/-- The pieces of one polygon, the body of the outer loop of `gen_split_events`,
split_events.py:29-44, with `gen_sq_mean`, 13-16. -/
def splitOne (meshAreas : List (List Rat)) (s : SubPolys) (total : Rat) (evid : Int) :
    Except Err (List (Poly × PropRow)) := do
  let quadFracs ← quadFrac meshAreas s.fracs total s.xi s.yi
  let means := s.polys.map fun sq => (sq, meanPoint sq)
  pure ((means.zip (s.fracs.zip (s.xi.zip (s.yi.zip quadFracs)))).map
    fun ((sq, sqMean), fracArea, xIdx, yIdx, quadArea) =>
      (sq, { polyCtr := sqMean, eventFracArea := fracArea, meshFracArea := quadArea,
             meshIdx := (xIdx, yIdx), eventId := evid }))

/-- `gen_split_events(chopped_polys, poly_areas, slicer, event_ids)`, split_events.py:18-44. -/
def genSplitEvents (meshAreas : List (List Rat)) (chopped : List SubPolys) (polyAreas : List Rat)
    (eventIds : Option (List Int)) : Except Err (List (Poly × PropRow)) := do
  let ids := eventIds.getD ((List.range chopped.length).map fun k => (k : Int))
  let parts ← (chopped.zip (polyAreas.zip ids)).mapM fun (s, total, evid) =>
    splitOne meshAreas s total evid
  pure parts.flatten

/-- `split_event_data`, split_events.py:46-85: sub-polygons and their properties. -/
def splitEventData (meshAreas : List (List Rat)) (chopped : List SubPolys) (polyAreas : List Rat)
    (eventIds : List Int) : Except Err (List Poly × List PropRow) := do
  let parts ← genSplitEvents meshAreas chopped polyAreas (some eventIds)
  pure (parts.map Prod.fst, parts.map Prod.snd)

/-- One row of the split dataset. -/
structure SplitRow where
  x : Rat
  y : Rat
  meshFraction : Rat
  areaFraction : Rat
  meshX : Nat
  meshY : Nat
  parent : Int
  deriving DecidableEq, Repr

/-- `split_event_dataset_from_props`, split_events.py:87-101; the group and flash versions,
103-133, differ only in the names of the variables. -/
def splitDatasetFromProps (props : List PropRow) : List SplitRow :=
  props.map fun p =>
    { x := p.polyCtr.1, y := p.polyCtr.2, meshFraction := p.meshFracArea
      areaFraction := p.eventFracArea, meshX := p.meshIdx.1, meshY := p.meshIdx.2
      parent := p.eventId }

/-- `replicate_and_weight_split_child_dataset`, split_events.py:135-169: every piece with the row of
its parent and the weighted energy.  Variables of a length different from the number of pieces
do not fit the dimension: ValueError.  `t` are the levels of `glm`. -/
def replicateAndWeight (t : List (Level GVal)) (entity : String) (split : List SplitRow) :
    Except Err (List (SplitRow × Row GVal × Rat)) := do
  let reduced ← reduceToEntities t entity (split.map SplitRow.parent)
  let rows := (reduced.filter fun l => l.evar = entity).flatMap Level.rows
  if rows.length = split.length then
    pure (List.zipWith (fun s r => (s, r, r.val.energy * s.areaFraction)) split rows)
  else .error .valueError

/-- A split row with the replicated variables of the lookup table. -/
structure SplitLut where
  row : SplitRow
  lutId : Int
  energy : Rat
  time : Int
  count : Rat
  flashCount : Rat
  groupCount : Rat
  totalFlashArea : Rat
  totalGroupArea : Rat
  minFlashArea : Rat
  deriving DecidableEq, Repr

/-- `replicate_and_weight_split_child_dataset_new`, mimic_lma.py:246-317: selection by label,
KeyError for a label that does not exist.  Simplification: the labels of the table are assumed to
be distinct (they are, C17), pandas refuses to index with repeated labels. -/
def replicateAndWeightNew (parents : List LutRow) (split : List SplitRow) :
    Except Err (List SplitLut) :=
  split.mapM fun s =>
    match parents.find? fun r => r.id = s.parent with
    | none => .error .keyError
    | some r => .ok
      { row := s, lutId := r.id, energy := r.energy * s.areaFraction, time := r.time
        count := r.count * s.meshFraction, flashCount := r.flashCount * s.meshFraction
        groupCount := r.groupCount * s.meshFraction
        totalFlashArea := r.totalFlashArea * s.meshFraction
        totalGroupArea := r.totalGroupArea * s.meshFraction
        minFlashArea := r.minFlashArea }

/-- One row handed to the gridding pipeline, mimic_lma.py:809-821. -/
structure LmaEvent where
  flashId : Int
  x : Rat
  y : Rat
  time : Int
  meshFrac : Rat
  meshXi : Nat
  meshYi : Nat
  power : Rat
  count : Rat
  flashCount : Rat
  groupCount : Rat
  totalFlashArea : Rat
  totalGroupArea : Rat
  minFlashArea : Rat
  deriving DecidableEq, Repr

/-- `groupby(...).min()` of a column: the group is never empty. -/
def colMin {α : Type} [Min α] [Inhabited α] (l : List α) : α :=
  match l with
  | [] => default
  | a :: l => l.foldl min a

/-- `_fake_lma_events_from_split_glm_lutevents`, mimic_lma.py:808-888.  `max()` of an empty array is
a ValueError.  The area fractions are replaced by their absolute values, the replicated variables
keep the sign of their weights.  `basedate` is subtracted from the times. -/
def fakeLmaEvents (split : List SplitLut) (basedate : Int) : Except Err (List LmaEvent) :=
  match split.map fun s => s.row.meshX with
  | [] => .error .valueError
  | x0 :: xs =>
    let xiMax := xs.foldl max x0
    let xyidx := split.map fun s => ((s.row.meshY * (xiMax + 1) + s.row.meshX : Nat) : Int)
    .ok ((groups xyidx).map fun kv =>
      let g := take split kv.2
      { flashId := colMin (g.map fun s => s.row.parent)
        x := (g.map fun s => s.row.x).sum / g.length
        y := (g.map fun s => s.row.y).sum / g.length
        time := colMin (g.map SplitLut.time) - basedate
        meshFrac := (g.map fun s => |s.row.meshFraction|).sum
        meshXi := colMin (g.map fun s => s.row.meshX)
        meshYi := colMin (g.map fun s => s.row.meshY)
        power := (g.map SplitLut.energy).sum
        count := (g.map SplitLut.count).sum
        flashCount := (g.map SplitLut.flashCount).sum
        groupCount := (g.map SplitLut.groupCount).sum
        totalFlashArea := (g.map SplitLut.totalFlashArea).sum
        totalGroupArea := (g.map SplitLut.totalGroupArea).sum
        minFlashArea := colMin (g.map SplitLut.minFlashArea) })

/-- A row of a 16 bit integer column, `('n_points', '<i2')`: wraps around. -/
def toInt16 (n : Nat) : Int := ((n : Int) + 32768) % 65536 - 32768

/-- A parent row, `flash_dtype_fixedgridlut`, mimic_lma.py:606-609.  The duration and `ctr_z`, which is always 0, are left
out; `start` is in nanoseconds. -/
structure LmaParent where
  area : Rat
  totalEnergy : Rat
  ctrX : Rat
  ctrY : Rat
  start : Int
  flashId : Int
  nPoints : Int
  deriving DecidableEq, Repr

/-- `_fake_lma_from_glm_lutflashes` and `_fake_lma_from_glm_lutgroups`, mimic_lma.py:891-936, for
the rows of one level.  The first time of a row is `flash_time_offset_of_first_event` or
`group_time_offset`; `basedate` is subtracted from it. -/
def fakeLmaParents (d : GFile) (basedate : Int) (rows : List (Row GVal)) : List LmaParent :=
  rows.map fun r =>
    { area := r.val.area, totalEnergy := r.val.energy, ctrX := r.val.x, ctrY := r.val.y
      start := r.val.times.getD 0 0 - basedate
      flashId := r.id, nPoints := toInt16 d.events.length }

/-- `mimic_lma_dataset_lut`, mimic_lma.py:939-971: children and parents for the three targets; the
parents of the event target are the children themselves. -/
structure FakeLma where
  children : List LmaEvent
  flashParents : List LmaParent
  groupParents : List LmaParent
  deriving DecidableEq, Repr

/-- The same. -/
def mimicLmaDatasetLut (d : GFile) (split : List SplitLut) (basedate : Int) :
    Except Err FakeLma := do
  pure { children := ← fakeLmaEvents split basedate
         flashParents := fakeLmaParents d basedate d.flashes
         groupParents := fakeLmaParents d basedate d.groups }

/-- `fast_fixed_grid_read_chunk`, mimic_lma.py:115-243, up to what is sent to the three targets:
`none` if nothing is sent.  `quads` makes the footprints of the rows of the table from their
positions (`quads_from_corner_lookup` with the pickled table, modelled in Model/Ccd).  A KeyError
inside of the `try` is logged and nothing is sent. -/
def fastFixedGridReadChunk (clip : Poly → Poly → List Poly)
    (query : List Pt → Pt → Nat → List Nat) (quads : List Pt → List Poly) (mesh : Mesh)
    (productTime basedate : Int) (loc : Rat → Rat → Int) (d : GFile) :
    Except Err (Option FakeLma) := do
  let rows ← getLutevents productTime loc d
  let polys := quads (rows.map fun r => (r.x, r.y))
  let (chopped, areas) ← slicePolys clip query mesh polys .none
  let meshAreas ← mesh.quadAreas
  let (_, props) ← splitEventData meshAreas chopped areas (rows.map LutRow.id)
  let split ← replicateAndWeightNew rows (splitDatasetFromProps props)
  match mimicLmaDatasetLut d split basedate with
  | .ok fake => pure (if fake.children.length ≥ 1 then some fake else none)
  | .error .keyError => pure none
  | .error e => .error e

end Verif.Model
