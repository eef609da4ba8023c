import Verif.Model.Split

/-!
# Model of the reader without the lookup table, `glmtools/io/mimic_lma.py`

`read_flash_chunk`, `mimic_lma_dataset` and its helpers.

Simplifications: exact numbers for floats and for 32 bit integers (the ids of the product fit);
times are nanoseconds since some fixed instant; the corner point table is a parameter `quads`
(modelled in `Verif.Model.Ccd`), the polygon union of pyclipper a parameter `join`.
-/

namespace Verif.Model

open Verif.Py

/-- `sec_since_basedate(t64, basedate)`, mimic_lma.py:582-588.  No base date is "not a time", and the
result is NaN (`none`). -/
def secSinceBasedate (t : Int) (basedate : Option Int) : Option Rat :=
  basedate.map fun b => ((t - b : Int) : Rat) / 1000000000

/-- A row of `event_dtype`, mimic_lma.py:592-597. -/
structure ChildRow where
  flashId : Int
  alt : Rat
  lat : Rat
  lon : Rat
  time : Option Rat
  meshFrac : Rat
  meshXi : Nat
  meshYi : Nat
  power : Rat
  deriving DecidableEq, Repr

/-- A row of `flash_dtype`, mimic_lma.py:598-605. -/
structure ParentRow where
  area : Rat
  totalEnergy : Rat
  specificEnergy : Rat
  ctrLat : Rat
  ctrLon : Rat
  ctrAlt : Rat
  start : Option Rat
  duration : Option Rat
  initLat : Rat
  initLon : Rat
  initAlt : Rat
  flashId : Int
  nPoints : Int
  deriving DecidableEq, Repr

/-- A row of a split dataset after `replicate_and_weight_split_child_dataset`: centre of the piece in
longitude and latitude, time and weighted energy of the parent. -/
structure SplitChild where
  row : SplitRow
  lon : Rat
  lat : Rat
  time : Int
  energy : Rat
  deriving DecidableEq, Repr

/-- The first time variable of a row: `flash_time_offset_of_first_event`, `group_time_offset` or
`event_time_offset`. -/
def firstTime (r : Row GVal) : Int := r.val.times.getD 0 0

/-- `flash_time_offset_of_last_event`, the second time variable of a flash. -/
def lastTime (r : Row GVal) : Int := r.val.times.getD 1 0

/-- Assignment of a column of length `xs.length` to an array of `n` rows: a single value is repeated,
other lengths are a ValueError. -/
def fillColumn {β : Type} (n : Nat) (xs : List β) : Except Err (List β) :=
  if xs.length = n then .ok xs
  else match xs with
    | [x] => .ok (List.replicate n x)
    | _ => .error .valueError

/-- What the three helpers do, mimic_lma.py:611-805.  They differ in the level of the parents
(`parents`, with its area and times), in the id that an unsplit event gets (`childId`) and in the split
dataset that they use (`own`).  `mem k` is what happens to be in row `k` of a new array
(`np.empty_like`).  The number of child rows is decided by `splitEvents`, their content by `own`:
AttributeError if only `own` is missing. -/
def fakeLmaLevel (mem : Nat → ChildRow) (pmem : Nat → ParentRow) (d : GFile)
    (parents : List (Row GVal)) (area : Row GVal → Rat) (tEnd : Row GVal → Int)
    (childId : Row GVal → Int) (splitEvents own : Option (List SplitChild)) (basedate : Option Int) :
    Except Err (List ChildRow × List ParentRow) := do
  let n ← match splitEvents, own with
    | some _, some s => pure s.length
    | some _, none => .error .attributeError
    | none, _ => pure d.events.length
  if parents.length = 0 then pure ((List.range n).map mem, [])
  else
    let filled ← match own with
      | some s => do
        let s ← fillColumn n s
        pure (s.zipIdx.map fun (p, k) =>
          { mem k with
            flashId := p.row.parent, lat := p.lat, lon := p.lon
            time := secSinceBasedate p.time basedate, power := p.energy
            meshFrac := |p.row.meshFraction|, meshXi := p.row.meshX, meshYi := p.row.meshY
            alt := 0 })
      | none => do
        let e ← fillColumn n d.events
        pure (e.zipIdx.map fun (e, k) =>
          { mem k with
            flashId := childId e, lat := e.val.lat, lon := e.val.lon
            time := secSinceBasedate (firstTime e) basedate, power := e.val.energy
            alt := 0 })
    pure (filled, parents.zipIdx.map fun (r, k) =>
      { pmem k with
        area := area r, totalEnergy := r.val.energy
        ctrLon := r.val.lon, ctrLat := r.val.lat, initLon := r.val.lon, initLat := r.val.lat
        start := secSinceBasedate (firstTime r) basedate
        duration := basedate.map fun _ => ((tEnd r - firstTime r : Int) : Rat) / 1000000000
        flashId := r.id, nPoints := toInt16 d.events.length
        ctrAlt := 0, initAlt := 0, specificEnergy := 0 })

/-- `_fake_lma_from_glm_flashes`, mimic_lma.py:611-674. -/
def fakeLmaFlashes (mem : Nat → ChildRow) (pmem : Nat → ParentRow) (d : GFile) (basedate : Option Int)
    (splitEvents _splitGroups splitFlashes : Option (List SplitChild)) :
    Except Err (List ChildRow × List ParentRow) :=
  fakeLmaLevel mem pmem d d.flashes (fun r => r.val.area) lastTime (fun e => e.val.flashOf)
    splitEvents splitFlashes basedate

/-- `_fake_lma_from_glm_groups`, mimic_lma.py:676-739. -/
def fakeLmaGroups (mem : Nat → ChildRow) (pmem : Nat → ParentRow) (d : GFile) (basedate : Option Int)
    (splitEvents splitGroups _splitFlashes : Option (List SplitChild)) :
    Except Err (List ChildRow × List ParentRow) :=
  fakeLmaLevel mem pmem d d.groups (fun r => r.val.area) firstTime Row.pid
    splitEvents splitGroups basedate

/-- `_fake_lma_from_glm_events`, mimic_lma.py:742-805. -/
def fakeLmaEventLevel (mem : Nat → ChildRow) (pmem : Nat → ParentRow) (d : GFile)
    (basedate : Option Int) (splitEvents _splitGroups _splitFlashes : Option (List SplitChild)) :
    Except Err (List ChildRow × List ParentRow) :=
  fakeLmaLevel mem pmem d d.events (fun _ => 0) firstTime Row.id splitEvents splitEvents basedate

/-- The dictionary returned by `mimic_lma_dataset`: children and parents of the three levels. -/
structure FakePoints where
  flash : List ChildRow × List ParentRow
  group : List ChildRow × List ParentRow
  event : List ChildRow × List ParentRow
  deriving DecidableEq, Repr

/-- `mimic_lma_dataset`, mimic_lma.py:974-1009. -/
def mimicLmaDataset (mem : Nat → ChildRow) (pmem : Nat → ParentRow) (d : GFile)
    (basedate : Option Int) (splitEvents splitGroups splitFlashes : Option (List SplitChild)) :
    Except Err FakePoints := do
  let flash ← fakeLmaFlashes mem pmem d basedate splitEvents splitGroups splitFlashes
  let group ← fakeLmaGroups mem pmem d basedate splitEvents splitGroups splitFlashes
  let event ← fakeLmaEventLevel mem pmem d basedate splitEvents splitGroups splitFlashes
  pure ⟨flash, group, event⟩

/-- The union polygons of every parent and the id that goes with each, mimic_lma.py:451-461 and
499-509: `poly_index` has the sorted ids as keys, and collects the polygons of the events of each. -/
def unionPolys (join : List Poly → List Poly) (polys : List Poly) (parents : List Int) :
    List Poly × List Int :=
  let pairs := (npUnique parents).flatMap fun i =>
    (join (((polys.zip parents).filter fun q => q.2 = i).map Prod.fst)).map fun u => (u, i)
  (pairs.map Prod.fst, pairs.map Prod.snd)

/-- Splitting the polygons of one level, mimic_lma.py:418-448, 463-496, 512-546 without the branches
for the fixed grid, which are not reached: slice, properties of the pieces, variables of the parents
(taken from `glm`, not from the chunk). -/
def splitLevel (clip : Poly → Poly → List Poly) (query : List Pt → Pt → Nat → List Nat) (mesh : Mesh)
    (bbox : BBoxArg) (glm : GFile) (entity : String) (polys : List Poly) (ids : List Int) :
    Except Err (List SplitChild) := do
  let (chopped, areas) ← slicePolys clip query mesh polys bbox
  let meshAreas ← mesh.quadAreas
  let (_, props) ← splitEventData meshAreas chopped areas ids
  let rep ← replicateAndWeight glm.levels entity (splitDatasetFromProps props)
  pure (rep.map fun o => ⟨o.1, o.1.x, o.1.y, firstTime o.2.1, o.2.2⟩)

/-- `read_flash_chunk`, mimic_lma.py:320-577, up to the dictionary that it returns or sends.
`clipEvents` is the mesh or nothing.  In the branch for the fixed grid `datetime` is used but not
imported: NameError.  `quads inflate pts` are the footprints of events. -/
def readFlashChunk (clip : Poly → Poly → List Poly) (query : List Pt → Pt → Nat → List Nat)
    (join : List Poly → List Poly) (quads : Rat → List Pt → List Poly)
    (mem : Nat → ChildRow) (pmem : Nat → ParentRow) (glm : GFile) (basedate : Option Int)
    (fixedGrid : Bool) (clipEvents : Option Mesh) (d : GFile) : Except Err FakePoints :=
  match clipEvents with
  | none => mimicLmaDataset mem pmem d basedate none none none
  | some mesh =>
    if fixedGrid then .error .nameError
    else do
      let pts := d.events.map fun e => (e.val.lon, e.val.lat)
      let polys := quads 1 pts
      let inflated := quads (102 / 100) pts
      let ev ← splitLevel clip query mesh .none glm "event_id" polys (d.events.map Row.id)
      let ug := unionPolys join inflated (d.events.map Row.pid)
      let gr ← splitLevel clip query mesh .true glm "group_id" ug.1 ug.2
      let uf := unionPolys join inflated (d.events.map fun e => e.val.flashOf)
      let fl ← splitLevel clip query mesh .true glm "flash_id" uf.1 uf.2
      mimicLmaDataset mem pmem d basedate (some ev) (some gr) (some fl)

/-- What is sent to the three targets, mimic_lma.py:566-577: nothing if there are no children at the
flash level. -/
def sentPoints (f : FakePoints) : Option FakePoints := if f.flash.1.length ≥ 1 then some f else none

/-- `read_flashes(glm, None, clip_events=False, ...)`, mimic_lma.py:30-113: one dictionary for every
chunk. -/
def readFlashesPoints (clip : Poly → Poly → List Poly) (query : List Pt → Pt → Nat → List Nat)
    (join : List Poly → List Poly) (quads : Rat → List Pt → List Poly)
    (mem : Nat → ChildRow) (pmem : Nat → ParentRow) (order : List Int → List Int) (glm : GFile)
    (c : Criteria) (chunkSize : Nat) (fixedGrid : Bool) (basedate : Option Int) :
    Except Err (List FakePoints) := do
  let chunks ← readFlashesChunks order glm c chunkSize
  chunks.mapM (readFlashChunk clip query join quads mem pmem glm basedate fixedGrid none)

/-- `read_flashes(glm, target, clip_events=False, ...)` with targets, mimic_lma.py:30-113 and 566-575: what
the targets receive, in order. -/
def readFlashesSent (clip : Poly → Poly → List Poly) (query : List Pt → Pt → Nat → List Nat)
    (join : List Poly → List Poly) (quads : Rat → List Pt → List Poly)
    (mem : Nat → ChildRow) (pmem : Nat → ParentRow) (order : List Int → List Int) (glm : GFile)
    (c : Criteria) (chunkSize : Nat) (fixedGrid : Bool) (basedate : Option Int) :
    Except Err (List FakePoints) := do
  let chunks ← readFlashesChunks order glm c chunkSize
  let made ← chunks.mapM (readFlashChunk clip query join quads mem pmem glm basedate fixedGrid none)
  pure (made.filterMap sentPoints)

end Verif.Model
