import Verif.Model.Session
import Verif.Model.ChunkFl
import Verif.Model.Single

/-!
# From files to the grids of the lookup table gridder, in floating point

`Verif.Model.Session` and the accumulators of `Verif.Model.Accumulate` with the result of every operation rounded.

Simplifications: as in `Verif.Model.ChunkFl` and `Verif.Model.Single`; the positions, energies and areas in the files
are given, as numbers, and so are the locations of `discretize_2d_location`.
-/

namespace Verif.Model

open Verif.Py

/-- The body of the loop of `event_lut_iter`, glm.py:676-709; the columns are doubles (glm.py:640-652), and the counts
whole numbers that 32 bit floats hold. -/
def lutRowFl (A : Arith) (productTime : Int) (flashGroups groupGroups : List (Int × List Nat)) (d : GFile)
    (xyId : Int) (evids : List Nat) : Except Err LutRow := do
  let evs := take d.events evids
  let flashIds := npUnique (evs.map fun e => e.val.flashOf)
  let groupIds := npUnique (evs.map Row.pid)
  let replicatedFlashes := (← groupsOf flashGroups flashIds).flatten
  let totalFlashArea := A.sum ((take d.flashes replicatedFlashes).map fun f => f.val.area)
  let replicatedGroups := (← groupsOf groupGroups groupIds).flatten
  let totalGroupArea := A.sum ((take d.groups replicatedGroups).map fun g => g.val.area)
  let perFlash ← (← groupsOf flashGroups flashIds).mapM fun idx =>
    listMin ((take d.flashes idx).map fun f => f.val.area)
  let minFlashArea ← listMin perFlash
  pure { id := xyId
         x := A.fl (A.sum (evs.map fun e => e.val.x) / evs.length)
         y := A.fl (A.sum (evs.map fun e => e.val.y) / evs.length)
         energy := A.sum (evs.map fun e => e.val.energy)
         count := evids.length
         flashCount := flashIds.length
         groupCount := groupIds.length
         totalFlashArea, totalGroupArea
         time := productTime
         minFlashArea }

/-- `get_lutevents`, glm.py:584-666. -/
def getLuteventsFl (A : Arith) (productTime : Int) (loc : Rat → Rat → Int) (d : GFile) : Except Err (List LutRow) :=
  if d.events = [] ∨ d.flashes = [] ∨ d.groups = [] then .error .valueError
  else
    (groups (d.events.map fun e => loc e.val.x e.val.y)).mapM fun kv =>
      lutRowFl A productTime (groups (d.flashes.map Row.id)) (groups (d.groups.map Row.id)) d kv.1 kv.2

/-- `read_flashes` with `clip_events` a mesh, mimic_lma.py:73-113: the children that are sent to the targets, one entry
for every chunk that sends something. -/
def readFlashesFl (A : Arith) (clip : Poly → Poly → List Poly) (query : List Pt → Pt → Nat → List Nat)
    (quads : List Pt → List Poly) (mesh : Mesh) (basedate : Int) (loc : Rat → Rat → Int)
    (order : List Int → List Int) (c : Criteria) (chunkSize : Nat) (productTime : Int) (d : GFile) :
    Except Err (List (List LmaEvent)) := do
  let chunks ← readFlashesChunks order d c chunkSize
  let sent ← chunks.mapM fun ch => do
    let rows ← getLuteventsFl A productTime loc ch
    readChunkFl A clip query quads mesh basedate rows
  pure (sent.filter fun evs => evs.length ≥ 1)

/-- The loop over the opened files, make_grids.py:890-912, with `process_flashes`, 366-403. -/
def readFilesFl (A : Arith) (clip : Poly → Poly → List Poly) (query : List Pt → Pt → Nat → List Nat)
    (quads : List Pt → List Poly) (mesh : Mesh) (basedate : Int) (loc : Rat → Rat → Int)
    (order : List Int → List Int) (c : Criteria) (chunkSize : Nat) (files : List (Int × GFile)) :
    Except Err (List (List LmaEvent)) := do
  let sent ← files.mapM fun f =>
    if f.2.events.length > 0 then
      readFlashesFl A clip query quads mesh basedate loc order c chunkSize f.1 f.2
    else pure []
  pure sent.flatten

/-- One frame arriving at a branch of the broadcast, accumulate.py:9-24, 55-59, 93-108, with a grid of 32 bit floats. -/
def Accum.receiveFl (A : Arith) (points : Grid → List LmaParent → Grid) (a : Accum) (g : Grid)
    (frame : List LmaEvent × List LmaParent) : Except Err Grid :=
  match a with
  | .points => .ok (points g frame.2)
  | .var name x y =>
    if frame.1.length > 0 then do accumulateVarSingle A.store g (← readRows name x y frame.1) else .ok g
  | .minvar name x y =>
    if frame.1.length > 0 then do accumulateMinvarSingle A.store g (← readRows name x y frame.1) else .ok g

/-- One frame of all grids: `gridFrame` with grids of 32 bit floats, make_grids.py:97, 169, 421, 475, 536. -/
def gridFrameFl (A : Arith) (points : Grid → List LmaParent → Grid) (nx ny : Nat) (outgrids : List (String × Accum))
    (frames : String → List (List LmaEvent × List LmaParent)) : Except Err (List Grid) :=
  outgrids.mapM fun ka => (frames ka.1).foldlM (ka.2.receiveFl A points) (Grid.zeros nx ny)

end Verif.Model
