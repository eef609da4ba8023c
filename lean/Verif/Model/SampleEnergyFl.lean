import Verif.Model.SampleEnergy
import Verif.Model.ChunkFl

/-!
# The energy that the sample tests compare with an image, in floating point
-/

namespace Verif.Model

open Verif.Py

/-- `total_energy_in_L2(files, lon_range, lat_range)`, examples/grid/grid_sample_data.py:17-28, as `totalEnergyInL2` with every
result rounded. -/
def totalEnergyInL2Fl (A : Arith) (order : List Int → List Int) (nav : Rat → Rat → Rat × Rat) (lon lat : Rat × Rat)
    (files : List GFile) : Except Err Rat :=
  files.foldlM (fun energy sf => do
    let glm ← openDataset order nav true true sf
    let flashesSubset ← subsetFlashes order glm { lon := some lon, lat := some lat } true
    pure (A.fl (energy + A.sum (flashesSubset.events.map fun e => e.val.energy)))) 0

end Verif.Model
