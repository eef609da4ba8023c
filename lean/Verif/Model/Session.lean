import Verif.Model.Split
import Verif.Model.Accumulate

/-!
# From files to what the pipelines of the lookup table gridder receive

`read_flashes` with clipping (`glmtools/io/mimic_lma.py`) and the loop over the files of
`proc_each_grid` (`glmtools/grid/make_grids.py`).
-/

namespace Verif.Model

open Verif.Py

/-- `read_flashes` with `clip_events` a mesh, mimic_lma.py:73-113: what is sent to the targets, one
entry for every chunk that sends something. -/
def readFlashesLut (clip : Poly → Poly → List Poly) (query : List Pt → Pt → Nat → List Nat)
    (quads : List Pt → List Poly) (mesh : Mesh) (basedate : Int) (loc : Rat → Rat → Int)
    (order : List Int → List Int) (c : Criteria) (chunkSize : Nat) (productTime : Int) (d : GFile) :
    Except Err (List FakeLma) := do
  let chunks ← readFlashesChunks order d c chunkSize
  let sent ← chunks.mapM (fastFixedGridReadChunk clip query quads mesh productTime basedate loc)
  pure (sent.filterMap id)

/-- The loop over the opened files, make_grids.py:890-912, with `process_flashes`, 366-403: files without
events are skipped.  A file is the pair of its product time and its contents. -/
def readFiles (clip : Poly → Poly → List Poly) (query : List Pt → Pt → Nat → List Nat)
    (quads : List Pt → List Poly) (mesh : Mesh) (basedate : Int) (loc : Rat → Rat → Int)
    (order : List Int → List Int) (c : Criteria) (chunkSize : Nat) (files : List (Int × GFile)) :
    Except Err (List FakeLma) := do
  let sent ← files.mapM fun f =>
    if f.2.events.length > 0 then
      readFlashesLut clip query quads mesh basedate loc order c chunkSize f.1 f.2
    else pure []
  pure sent.flatten

end Verif.Model
