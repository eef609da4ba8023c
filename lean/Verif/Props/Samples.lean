import Verif.Spec.Tree

/-! Concrete datasets used to show that the hypotheses of theorems can be met. -/

namespace Verif.Samples

open Verif.Model Verif.Spec

/-- Two flashes (ids not sorted), four groups and five events (not in order), consistent. -/
def flashes : Level Nat :=
  ⟨"flash_id", none, [⟨5, 0, 1⟩, ⟨3, 0, 2⟩]⟩
def groups : Level Nat :=
  ⟨"group_id", some "group_parent_flash_id", [⟨11, 5, 3⟩, ⟨12, 3, 4⟩, ⟨13, 5, 5⟩, ⟨14, 3, 6⟩]⟩
def events : Level Nat :=
  ⟨"event_id", some "event_parent_group_id",
    [⟨100, 13, 7⟩, ⟨101, 11, 8⟩, ⟨102, 12, 9⟩, ⟨103, 11, 10⟩, ⟨104, 14, 11⟩]⟩
def good : List (Level Nat) := [flashes, groups, events]

/-- The same with a group whose flash is missing (15 of 99), an event whose group is missing
(105 of 98), a flash without groups (7) and a group without events (16). -/
def badFlashes : Level Nat := { flashes with rows := flashes.rows ++ [⟨7, 0, 12⟩] }
def badGroups : Level Nat := { groups with rows := groups.rows ++ [⟨15, 99, 13⟩, ⟨16, 5, 14⟩] }
def badEvents : Level Nat :=
  { events with rows := events.rows ++ [⟨105, 98, 15⟩, ⟨106, 15, 16⟩] }
def bad : List (Level Nat) := [badFlashes, badGroups, badEvents]

theorem good_wf : WellFormed good := by
  constructor <;> decide

theorem bad_wf : WellFormed bad := by
  constructor <;> decide

theorem good_nonempty : NoEmptyLevel good := by unfold NoEmptyLevel; decide
theorem bad_nonempty : NoEmptyLevel bad := by unfold NoEmptyLevel; decide

/-- Adjacent pairs of a three-level dataset. -/
theorem adjacent_three {α : Type} {a b c p q : Level α} (h : Adjacent [a, b, c] p q) :
    (p = a ∧ q = b) ∨ (p = b ∧ q = c) := by
  obtain ⟨above, below, h⟩ := h
  match above with
  | [] => simp at h; exact Or.inl ⟨h.1.symm, h.2.1.symm⟩
  | [x] => simp at h; exact Or.inr ⟨h.2.1.symm, h.2.2.1.symm⟩
  | [x, y] => simp at h
  | x :: y :: z :: w =>
    have := congrArg List.length h
    simp at this

theorem good_noOrphans : NoOrphans good := by
  intro p c h
  rcases adjacent_three h with ⟨rfl, rfl⟩ | ⟨rfl, rfl⟩ <;> decide

theorem good_noChildless : NoChildless good := by
  intro p c h
  rcases adjacent_three h with ⟨rfl, rfl⟩ | ⟨rfl, rfl⟩ <;> decide

end Verif.Samples
