import Verif.Model.Traversal
import Verif.Model.Meta

/-!
# The tests of the repository, run on the model

glmtools/test/common.py:6-56, test_traversal.py and test_goes_imagery.py.  These are tests of the model, not properties:
they show that it agrees with the code on the cases that the authors wrote down.
-/

namespace Verif.Replay

open Verif.Py Verif.Model

/-- Rows with ids and parents, glmtools/test/common.py:7-14. -/
def table (ids pids : List Int) : List (Row Unit) := List.zipWith (fun i p => ⟨i, p, ()⟩) ids pids

/-- `get_four_level_data`, glmtools/test/common.py:6-56. -/
def fourLevels : String → List (Row Unit)
  | "storm_id" => table [0, 1, 2] [0, 0, 0]
  | "flash_id" => table [1, 2, 3, 4, 5, 6, 7, 8] [0, 0, 0, 2, 2, 2, 2, 2]
  | "stroke_id" => table [4, 6, 7, 9, 13, 14, 15, 19, 20, 23, 46] [1, 1, 2, 3, 4, 4, 4, 6, 8, 8, 8]
  | "trig_id" => table [1, 3, 5, 8, 9, 10, 12, 16, 18, 19, 20, 22, 23, 25, 26, 30, 31, 32]
      [4, 4, 4, 4, 6, 7, 7, 9, 13, 13, 14, 14, 15, 19, 20, 20, 23, 46]
  | _ => []

def entityVars : List String := ["storm_id", "flash_id", "stroke_id", "trig_id"]

def parentVars : List String := ["flash_parent_storm_id", "stroke_parent_flash_id", "trig_parent_stroke_id"]

/-- `get_four_level_data_traversal`, test_traversal.py:8-17. -/
def fourTraversal : Except Err (List (Level Unit)) := mkTraversal fourLevels entityVars parentVars

/-- The ids of every level of a reduced dataset. -/
def idsOf (r : Except Err (List (Level Unit))) : Except Err (List (List Int)) := r.map fun t => t.map Level.ids

/-- `test_empty_traversal_init`, test_traversal.py:19-32. -/
example : (mkTraversal (fun _ => ([] : List (Row Unit))) entityVars parentVars).toOption.isSome = true := by decide

/-- `test_count_children`, test_traversal.py:34-61. -/
example : (fourTraversal >>= fun t => countChildren t "storm_id" none) = .ok [[3, 0, 5]] := by decide +kernel
example : (fourTraversal >>= fun t => countChildren t "flash_id" none) = .ok [[2, 1, 1, 3, 0, 1, 0, 3]] := by
  decide +kernel
example : (fourTraversal >>= fun t => countChildren t "stroke_id" none) = .ok [[4, 1, 2, 1, 2, 2, 1, 1, 2, 1, 1]] := by
  decide +kernel
example : (fourTraversal >>= fun t => countChildren t "storm_id" (some "trig_id")) =
    .ok [[3, 0, 5], [2, 1, 1, 3, 0, 1, 0, 3], [4, 1, 2, 1, 2, 2, 1, 1, 2, 1, 1]] := by decide +kernel

/-- `test_replicate_parent_ids`, test_traversal.py:63-74. -/
example : (fourTraversal >>= fun t => replicateParentIds t "storm_id" "trig_parent_stroke_id") =
    .ok [0, 0, 0, 0, 0, 0, 0, 0, 2, 2, 2, 2, 2, 2, 2, 2, 2, 2] := by decide +kernel
example : (fourTraversal >>= fun t => replicateParentIds t "flash_id" "trig_parent_stroke_id") =
    .ok [1, 1, 1, 1, 1, 2, 2, 3, 4, 4, 4, 4, 4, 6, 8, 8, 8, 8] := by decide +kernel
example : (fourTraversal >>= fun t => replicateParentIds t "stroke_id" "trig_parent_stroke_id") =
    .ok [4, 4, 4, 4, 6, 7, 7, 9, 13, 13, 14, 14, 15, 19, 20, 20, 23, 46] := by decide +kernel

/-- `test_prune_from_middle`, test_traversal.py:77-88. -/
example : idsOf (fourTraversal >>= fun t => reduceToEntities t "stroke_id" [13, 15, 23]) =
    .ok [[2], [4, 8], [13, 15, 23], [18, 19, 23, 31]] := by decide +kernel

/-- `test_prune_from_bottom`, test_traversal.py:90-103: the triggers at positions 7 to 9. -/
example : idsOf (fourTraversal >>= fun t => reduceToEntities t "trig_id" [16, 18, 19]) =
    .ok [[0, 2], [3, 4], [9, 13], [16, 18, 19]] := by decide +kernel

/-- `test_prune_from_top`, test_traversal.py:105-121. -/
example : idsOf (fourTraversal >>= fun t => reduceToEntities t "storm_id" [1]) = .ok [[1], [], [], []] := by
  decide +kernel
example : idsOf (fourTraversal >>= fun t => reduceToEntities t "storm_id" [2]) =
    .ok [[2], [4, 5, 6, 7, 8], [13, 14, 15, 19, 20, 23, 46], [18, 19, 20, 22, 23, 25, 26, 30, 31, 32]] := by
  decide +kernel

/-- `test_get_parts`, test_goes_imagery.py:11-55: the scene, the shapes, the flags and the projection. -/
example : (globalAttrs ⟨2018, 7, 2, 4, 33, 0, 0⟩ ⟨2018, 7, 2, 4, 34, 0, 0⟩ ⟨2018, 7, 2, 4, 35, 0, 0⟩
      ⟨"G16".toList, "GOES-East".toList, "GLM-1".toList⟩ .conus "2km at nadir".toList "ABI Mode 3" "DE" "Postprocessed"
      "TTU").toOption.bind (fun d => (d.lookup "scene_id").map String.ofList) = some "CONUS" := by decide +kernel
example : ((imageVar ⟨20, 10, fun r c => (c : Rat) * (((r : Rat) - 10) * 100)⟩ "Total Energy" "GLM Total Energy" "J"
    ["y", "x"]).data.rows, (dqfVar ["y", "x"] 20 10).data.rows, (dqfVar ["y", "x"] 20 10).data.cols) = (20, 20, 10) := rfl
example (r c : Nat) : (dqfVar ["y", "x"] 20 10).data.val r c = 0 := rfl
example : (projVar (-75)).attrs.lookup "longitude_of_projection_origin" = some (.num (-75)) := by decide +kernel

end Verif.Replay
