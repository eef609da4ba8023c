import Verif.Model.EventArea
import Mathlib.Tactic.FieldSimp
import Mathlib.Algebra.Order.Ring.Rat
import Mathlib.Data.Rat.Cast.Order

/-!
# The areas of events (C121)
-/

namespace Verif.Props

open Verif.Model

/-- What the documentation of `event_areas` promises: an area for every event, which is the area of its group divided by
the number of events of the group.  `parents` are the groups of the events. -/
def AreasOfEvents (groups : List AreaGroup) (parents : List Int) (areas : List Rat) : Prop :=
  areas.length = parents.length ∧
    ∀ (i : Nat) (g : AreaGroup), g ∈ groups → parents[i]? = some g.id →
      areas[i]? = some (g.area / (parents.count g.id : Nat))

/-- A file with right counts. -/
def CountsRight (groups : List AreaGroup) (parents : List Int) : Prop :=
  (groups.map AreaGroup.id).Nodup ∧ (∀ p ∈ parents, p ∈ groups.map AreaGroup.id) ∧
    ∀ g ∈ groups, g.childEventCount = parents.count g.id

/-- The property C121: the areas of the events are returned. -/
def C121_full : Prop :=
  ∀ groups parents, CountsRight groups parents →
    ∃ areas, (eventAreas groups).2 = some areas ∧ AreasOfEvents groups parents areas

/-- A group of 200 square kilometres with two events. -/
theorem C121_full_false : ¬ C121_full := by
  intro h
  obtain ⟨areas, h1, -⟩ := h [⟨7, 200, 2⟩] [7, 7] (by unfold CountsRight; decide)
  cases h1

/-- Whatever the file, nothing is returned; and what is computed on the way is, for each group, the reciprocal of the
area of one of its events. -/
theorem C121_exact (groups : List AreaGroup) :
    (eventAreas groups).2 = none ∧
    (eventAreas groups).1 = groups.map fun g => 1 / (g.area / (g.childEventCount : Rat)) := by
  refine ⟨rfl, ?_⟩
  unfold eventAreas
  apply List.map_congr_left
  intro g _
  rw [one_div_div]

/-- For a group of 200 square kilometres with two events the number is 1/100, not 100. -/
example : (eventAreas [⟨7, 200, 2⟩]).1 = [1/100] ∧ AreasOfEvents [⟨7, 200, 2⟩] [7, 7] [100, 100] := by
  refine ⟨by decide +kernel, rfl, ?_⟩
  intro i g hg hp
  simp only [List.mem_singleton] at hg
  subst hg
  match i, hp with
  | 0, _ => decide +kernel
  | 1, _ => decide +kernel

end Verif.Props
