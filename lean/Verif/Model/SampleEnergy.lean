import Verif.Model.Dataset

/-!
# The energy that the sample tests compare with an image

`examples/grid/grid_sample_data.py`.
-/

namespace Verif.Model

open Verif.Py

/-- `total_energy_in_L2(files, lon_range, lat_range)`, examples/grid/grid_sample_data.py:17-28.  Sums are exact; the
corrections of units that `GLMDataset` makes when it opens a file are those of `Verif.Model.Values` and left out here. -/
def totalEnergyInL2 (order : List Int → List Int) (nav : Rat → Rat → Rat × Rat) (lon lat : Rat × Rat)
    (files : List GFile) : Except Err Rat :=
  files.foldlM (fun energy sf => do
    let glm ← openDataset order nav true true sf
    let flashesSubset ← subsetFlashes order glm { lon := some lon, lat := some lat } true
    pure (energy + (flashesSubset.events.map fun e => e.val.energy).sum)) 0

end Verif.Model
