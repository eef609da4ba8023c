import Verif.Model.Names
import Mathlib.Data.List.Sort

/-!
# Model of the grid statistics in `examples/glm-lasso-stats.py`

The second half of the program: for each product, one line of statistics for each gridded frame in the time range of
the lassos.  Figures are not modelled.
-/

namespace Verif.Model

open Verif.Py

/-! ### Times as text -/

/-- The last six digits of a number. -/
def six (n : Nat) : Text := three (n / 1000) ++ three n

/-- `t.isoformat(sep)`: microseconds are written if they are not zero. -/
def isoformat (sep : Char) (t : DateTime) : Text :=
  four t.year ++ '-' :: (two t.month ++ '-' :: (two t.day ++ sep :: (two t.hour ++ ':' :: (two t.minute ++ ':' ::
    (two t.second ++ if t.microsecond = 0 then [] else '.' :: six t.microsecond)))))

/-- `str(t)` is `t.isoformat(' ')`. -/
def strTime (t : DateTime) : Text := isoformat ' ' t

/-! ### Statistics of one frame -/

/-- What iterating over `LMAgridFileCollection` yields, `examples/glm-lasso-stats.py:540`: the time in microseconds,
the edges, and the data with y along the first dimension. -/
structure LassoFrame where
  t : Int
  xedge : List Rat
  yedge : List Rat
  data : List (List Rat)

/-- `(edge[1:]+edge[:-1])/2.0`, `examples/glm-lasso-stats.py:418-419`. -/
def gridCentres (edge : List Rat) : List Rat := List.zipWith (fun a b => (a + b) / 2) edge.tail edge

/-- A record of the array `a`, `examples/glm-lasso-stats.py:430`. -/
structure GridRecord where
  t : Rat
  lon : Rat
  lat : Rat
  value : Rat

/-- The array `a`, `examples/glm-lasso-stats.py:418-434`: the flattened grid with the centres of the cells.  `single`
is the conversion to four byte floats; `base` is the base date in microseconds.  The assertion is that of line 423. -/
def gridRecords (single : Rat → Rat) (base : Int) (f : LassoFrame) : Except Err (List GridRecord) :=
  let x := gridCentres f.xedge
  let y := gridCentres f.yedge
  if f.data.length = y.length ∧ ∀ row ∈ f.data, row.length = x.length then
    .ok ((f.data.zip y).flatMap fun ry => (ry.1.zip x).map fun vx =>
      ⟨single (((f.t - base : Int) : Rat) / 1000000 + 1), single vx.2, single ry.2, vx.1⟩)
  else .error .assertionError

/-- One score of `scipy.stats.scoreatpercentile(values, per)`: interpolation between the two neighbours in the sorted
values.  The caller has at least one value. -/
def scoreAtPercentile (values : List Rat) (per : Rat) : Rat :=
  let sorted := values.insertionSort (· ≤ ·)
  let idx := per / 100 * ((values.length - 1 : Nat) : Rat)
  let i := ⌊idx⌋.toNat
  if ((i : Nat) : Rat) = idx then sorted.getD i 0
  else sorted.getD i 0 * (((i + 1 : Nat) : Rat) - idx) + sorted.getD (i + 1) 0 * (idx - (i : Nat))

/-- `v.max()`: ValueError without elements. -/
def npMax : List Rat → Except Err Rat
  | [] => .error .valueError
  | a :: as => .ok (as.foldl max a)

/-- A line of the log, `examples/glm-lasso-stats.py:498-505`.  The numbers are not turned into text. -/
structure LogRow where
  time : Text
  max : Rat
  sum : Rat
  p5 : Rat
  p50 : Rat
  p95 : Rat
  deriving DecidableEq

/-- What `plot_lasso_grid_subset` writes to the log, `examples/glm-lasso-stats.py:408-505` with `slicer` None.
`inside t lon lat` is `grid_lassos.filter_mask` (lmatools) of one record; sums are exact. -/
def plotLassoGridSubset (calendar : Int → DateTime) (single : Rat → Rat) (inside : Rat → Rat → Rat → Bool) (base : Int)
    (f : LassoFrame) : Except Err LogRow := do
  let a ← gridRecords single base f
  let filtered := a.filter fun r => inside r.t r.lon r.lat
  let nonzeroFiltered := a.filter fun r => inside r.t r.lon r.lat && decide (r.value > 0)
  if nonzeroFiltered.length > 0 then
    let v := filtered.map GridRecord.value
    let vnz := nonzeroFiltered.map GridRecord.value
    let m ← npMax v
    pure ⟨isoformat 'T' (calendar f.t), m, v.sum, scoreAtPercentile vnz 5, scoreAtPercentile vnz 50,
      scoreAtPercentile vnz 95⟩
  else pure ⟨strTime (calendar f.t), 0, 0, 0, 0, 0⟩

/-- The log of one product, `examples/glm-lasso-stats.py:540-544`, after the header. -/
def lassoGridLog (calendar : Int → DateTime) (single : Rat → Rat) (inside : Rat → Rat → Rat → Bool) (base : Int)
    (tStart tEnd : Int) (frames : List LassoFrame) : Except Err (List LogRow) :=
  (frames.filter fun f => decide (f.t ≥ tStart) && decide (f.t ≤ tEnd)).mapM
    (plotLassoGridSubset calendar single inside base)

/-! ### The products -/

/-- `field_file`, `examples/glm-lasso-stats.py:374-382`. -/
def lassoFieldFile : List String :=
  ["flash_extent", "flash_init", "source", "footprint", "flashsize_std", "total_energy", "group_extent", "group_init",
   "group_area"]

/-- `field_names`, `examples/glm-lasso-stats.py:383-392`. -/
def lassoFieldNames : List String :=
  ["flash_extent_density", "flash_centroid_density", "event_density", "average_flash_area",
   "standard_deviation_flash_area", "total_energy", "group_extent_density", "group_centroid_density",
   "average_group_area"]

/-- `field_ids_to_run`, `examples/glm-lasso-stats.py:405`. -/
def lassoFieldIds : List Nat := [0, 1, 2, 3, 5, 6, 7, 8]

/-- The pairs of file tag and variable that the loop over `field_ids_to_run` looks for,
`examples/glm-lasso-stats.py:508-514`. -/
def lassoProducts : Except Err (List (String × String)) :=
  lassoFieldIds.mapM fun k =>
    match lassoFieldFile[k]?, lassoFieldNames[k]? with
    | some a, some b => .ok (a, b)
    | _, _ => .error .indexError

end Verif.Model
