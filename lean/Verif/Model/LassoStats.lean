import Verif.Model.Examples
import Verif.Model.LassoGrid

/-!
# Model of the flash statistics in `examples/glm-lasso-stats.py`

The first half of the program: one line of statistics and one spectrum for each interval of the time series.  Figures
other than the names of the spectra, and the calculations that need altitudes (`--skip3d` leaves them out), are not
modelled.
-/

namespace Verif.Model

open Verif.Py

/-- A row of the array that `flash_size_stats` (lmatools) returns: the fields by name, with the text that `format`
makes of them. -/
abbrev StatRow := List (String × Text)

/-- `gen_flash_summary_time_series`, `examples/glm-lasso-stats.py:223-234`, without `length_profiler`. -/
def flashSummarySeries (sizeStats : List ParentRow → StatRow) (events : List (List ChildRow))
    (flashes : List (List ParentRow)) : List StatRow :=
  (events.zip flashes).map fun ef => sizeStats ef.2

/-- `flashes_in_poly.t_edges_to_isoformat(as_start_end=True)` (lmatools), `examples/glm-lasso-stats.py:241`. -/
def edgesToIsoformat (tEdges : List DateTime) : List Text × List Text :=
  (tEdges.dropLast.map (isoformat 'T'), tEdges.tail.map (isoformat 'T'))

/-- `append_fields(size_stats, ('start_isoformat','end_isoformat'), data=(iso_start, iso_end), usemask=False)`,
`examples/glm-lasso-stats.py:244-245`.  Simplification: arrays of different lengths are cut, numpy would fill them. -/
def appendTimes (rows : List StatRow) (iso : List Text × List Text) : List StatRow :=
  List.zipWith (fun r t => r ++ [("start_isoformat", t.1), ("end_isoformat", t.2)]) rows (iso.1.zip iso.2)

/-- `stat_keys`, `examples/glm-lasso-stats.py:250-251`. -/
def statKeys : List String :=
  ["start_isoformat", "end_isoformat", "number", "mean", "variance", "skewness", "kurtosis", "energy",
   "energy_per_flash", "total_energy", "specific_energy"]

/-- `header`, `examples/glm-lasso-stats.py:252`. -/
def statHeader : Text :=
  ("# start_isoformat, end_isoformat, number, mean, variance, skewness, kurtosis, energy, energy_per_flash, " ++
    "total_energy, specific_energy\n").toList

/-- `line_template.format(*stat_vals)`, `examples/glm-lasso-stats.py:253, 259`: eleven places, separated by a comma and
a blank.  Simplification: the caller has eleven values. -/
def statLine : List Text → Text
  | [] => ['\n']
  | [v] => v ++ ['\n']
  | v :: w :: vs => v ++ ',' :: ' ' :: statLine (w :: vs)

/-- `stats[k]`: a name that is not there is a ValueError of numpy. -/
def statField (r : StatRow) (k : String) : Except Err Text :=
  match r.lookup k with
  | some v => .ok v
  | none => .error .valueError

/-- `write_size_stat_data`, `examples/glm-lasso-stats.py:249-261`: the contents of the file. -/
def writeSizeStatData (rows : List StatRow) : Except Err Text := do
  let lines ← rows.mapM fun stats => do
    let vals ← statKeys.mapM (statField stats)
    pure (statLine vals)
  pure (statHeader ++ lines.flatten)

/-- `flash_stats.csv`, `examples/glm-lasso-stats.py:164-165, 236-266`: filtering, statistics, times, file.
`zip(*series)` of nothing cannot be assigned to two names: ValueError. -/
def lassoStatsFile (sizeStats : List ParentRow → StatRow) (events : List (List ChildRow))
    (flashes : List (List ParentRow)) (bounds : List (String × Rat × Rat)) (tEdges : List DateTime) :
    Except Err Text :=
  let filtered := filteredTimeSeries events flashes bounds
  if filtered = [] then .error .valueError
  else
    let events := filtered.map Prod.fst
    let flashes := filtered.map Prod.snd
    writeSizeStatData (appendTimes (flashSummarySeries sizeStats events flashes) (edgesToIsoformat tEdges))

/-- `t.strftime('%y%m%d%H%M%S')`, `examples/glm-lasso-stats.py:319-320`. -/
def shortStamp (t : DateTime) : Text :=
  two t.year ++ two t.month ++ two t.day ++ two t.hour ++ two t.minute ++ two t.second

/-- The loop over the spectra, `examples/glm-lasso-stats.py:315-322`: for each interval the name of the file in `outdir`
and the areas from which the spectrum is made.  `flashes` is the filtered series. -/
def energySpectra (flashes : List (List ParentRow)) (tEdges : List DateTime) : List (Text × List Rat) :=
  (flashes.zip (tEdges.dropLast.zip tEdges.tail)).map fun ft =>
    ("energy_spectrum_".toList ++ shortStamp ft.2.1 ++ '_' :: shortStamp ft.2.2 ++ ".pdf".toList,
     ft.1.map fun p => p.area)

end Verif.Model
