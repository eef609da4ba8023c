import Verif.Model.Chunk

/-!
# Model of the collections of files in `glmtools/io/mimic_lma.py`

`GLMncCollection`, `TimeSeriesGLMFlashSubset` and `TimeSeriesGLMPolygonFlashSubset`.  Their base classes
are part of lmatools; of `LMAh5Collection` it is assumed that its constructor calls
`_table_times_for_file` for every file in turn and sorts the times, and that iteration calls
`data_for_time` for each of the times; of `TimeSeriesGenericFlashSubset` that without a base date it
uses one that depends on the start time only.

Opening a file is a parameter (`Verif.Model.Dataset` models it).  Times are nanoseconds, as in
`Verif.Model.Chunk`, the keys of the lookup table are seconds.
-/

namespace Verif.Model

open Verif.Py

/-- `product_time.data.astype('M8[s]')`, mimic_lma.py:1032: the second in which the product begins. -/
def startSecond (t : Int) : Int := t / 1000000000

/-- `d[k] = v` for a dictionary, used in mimic_lma.py:1035. -/
def dictSet {κ β : Type} [DecidableEq κ] (d : List (κ × β)) (k : κ) (v : β) : List (κ × β) :=
  (k, v) :: d.filter fun e => e.1 ≠ k

/-- An instance of `GLMncCollection`, mimic_lma.py:1012-1022.  `criteria` holds `min_points`, `min_groups`,
`lon_range` and `lat_range`. -/
structure Collection where
  lookup : List (Int × String)
  times : List Int
  baseDate : Option Int
  criteria : Criteria

/-- `_table_times_for_file(fname)`, mimic_lma.py:1024-1037: the new lookup table and the time.
`productTime` opens a file for its start time. -/
def tableTimesForFile (productTime : String → Except Err Int) (lookup : List (Int × String))
    (fname : String) : Except Err (List (Int × String) × Int) := do
  let t := startSecond (← productTime fname)
  pure (dictSet lookup t fname, t)

/-- The loop over the files in the constructor of `LMAh5Collection`, called from mimic_lma.py:1022. -/
def tableTimes (productTime : String → Except Err Int) (lookup : List (Int × String)) :
    List String → Except Err (List (Int × String) × List Int)
  | [] => .ok (lookup, [])
  | f :: fs => do
    let (lookup, t) ← tableTimesForFile productTime lookup f
    let (lookup, ts) ← tableTimes productTime lookup fs
    pure (lookup, t :: ts)

/-- `GLMncCollection(filenames, base_date=..., min_points=..., ...)`, mimic_lma.py:1012-1022. -/
def newCollection (productTime : String → Except Err Int) (filenames : List String)
    (baseDate : Option Int) (criteria : Criteria) : Except Err Collection := do
  let (lookup, ts) ← tableTimes productTime [] filenames
  pure ⟨lookup, ts.mergeSort (· ≤ ·), baseDate, criteria⟩

/-- `np.hstack` of a generator, mimic_lma.py:1054.  Newer versions of numpy accept only sequences
(`accepts` is false): TypeError.  Nothing to stack is a ValueError. -/
def hstackGenerator {β : Type} (accepts : Bool) (l : List (List β)) : Except Err (List β) :=
  if !accepts then .error .typeError
  else if l = [] then .error .valueError
  else .ok l.flatten

/-- What opening, numpy and memory contribute; the other parameters of `readFlashesPoints`, which are
not used without clipping, are left out. -/
structure CollectionEnv where
  /-- `GLMDataset(fname, calculate_parent_child=False).dataset.product_time` -/
  productTime : String → Except Err Int
  /-- `GLMDataset(fname)` -/
  openFile : String → Except Err GFile
  /-- order in which `subset_flashes` gets unique ids -/
  order : List Int → List Int
  mem : Nat → ChildRow
  pmem : Nat → ParentRow
  acceptsGenerators : Bool

/-- `data_for_time(t0)`, mimic_lma.py:1038-1056: events and flashes.  The chunk size is the default. -/
def dataForTime (env : CollectionEnv) (col : Collection) (t0 : Int) :
    Except Err (List ChildRow × List ParentRow) := do
  let fname ← match dictGet col.lookup t0 with
    | some f => pure f
    | none => .error .keyError
  let glm ← env.openFile fname
  let fake ← readFlashesPoints (fun _ _ => []) (fun _ _ _ => []) id (fun _ _ => []) env.mem env.pmem
    env.order glm col.criteria 20000 false col.baseDate
  let events ← hstackGenerator env.acceptsGenerators (fake.map fun d => d.flash.1)
  let flashes ← hstackGenerator env.acceptsGenerators (fake.map fun d => d.flash.2)
  pure (events, flashes)

/-- `for events, flashes in collection`, with `data_for_time` from mimic_lma.py:1038-1056. -/
def iterateCollection (env : CollectionEnv) (col : Collection) :
    Except Err (List (List ChildRow × List ParentRow)) := col.times.mapM (dataForTime env col)

/-- `TimeSeriesGLMFlashSubset(glm_filenames, t_start, t_end, dt, base_date, ...).lma`,
mimic_lma.py:1058-1067.  The base class is given `base_date=None`; `defaultBase t_start` is what it
uses then. -/
def timeSeriesCollection (env : CollectionEnv) (defaultBase : Int → Int) (filenames : List String)
    (tStart : Int) (_baseDate : Option Int) (criteria : Criteria) : Except Err Collection :=
  newCollection env.productTime filenames (some (defaultBase tStart)) criteria

/-- The loop body of `TimeSeriesGLMPolygonFlashSubset.gen_chopped_events_flashes`, mimic_lma.py:1094-1102.
`inside lon lat time` is the lasso of lmatools: positions and times of events for events, positions of
initiation and start times for flashes. -/
def lassoSeries (inside : Rat → Rat → Option Rat → Bool)
    (series : List (List ChildRow) × List (List ParentRow)) : List (List ChildRow) × List (List ParentRow) :=
  (series.1.map fun ch => ch.filter fun c => inside c.lon c.lat c.time,
   series.2.map fun ch => ch.filter fun p => inside p.initLon p.initLat p.start)

end Verif.Model
