import Verif.Model.Dataset
import Verif.Spec.Tree

/-!
# Specification of an open dataset and of flash selection
-/

namespace Verif.Spec

open Verif.Model (Row Level GVal GFile Criteria)

/-- Every group has its flash, every event its group, every flash a group, every group an event. -/
structure Consistent (d : GFile) : Prop where
  groupHasFlash : ∀ g ∈ d.groups, ∃ f ∈ d.flashes, f.id = g.pid
  eventHasGroup : ∀ e ∈ d.events, ∃ g ∈ d.groups, g.id = e.pid
  flashHasGroup : ∀ f ∈ d.flashes, ∃ g ∈ d.groups, g.pid = f.id
  groupHasEvent : ∀ g ∈ d.groups, ∃ e ∈ d.events, e.pid = g.id

instance (d : GFile) : Decidable (Consistent d) :=
  decidable_of_iff
    ((∀ g ∈ d.groups, ∃ f ∈ d.flashes, f.id = g.pid) ∧
     (∀ e ∈ d.events, ∃ g ∈ d.groups, g.id = e.pid) ∧
     (∀ f ∈ d.flashes, ∃ g ∈ d.groups, g.pid = f.id) ∧
     (∀ g ∈ d.groups, ∃ e ∈ d.events, e.pid = g.id))
    ⟨fun h => ⟨h.1, h.2.1, h.2.2.1, h.2.2.2⟩, fun h => ⟨h.1, h.2, h.3, h.4⟩⟩

/-- There is at least one flash, group and event. -/
def HasData (d : GFile) : Prop := d.flashes ≠ [] ∧ d.groups ≠ [] ∧ d.events ≠ []

/-- Event `e` belongs, through its group, to the flash with id `i`. -/
def EventOfFlash (d : GFile) (i : Int) (e : Row GVal) : Prop :=
  ∃ g ∈ d.groups, g.id = e.pid ∧ g.pid = i

instance (d : GFile) (i : Int) (e : Row GVal) : Decidable (EventOfFlash d i e) :=
  inferInstanceAs (Decidable (∃ g ∈ d.groups, g.id = e.pid ∧ g.pid = i))

/-- The derived variables say what the tree says. -/
structure Derived (d : GFile) : Prop where
  flashOf : ∀ e ∈ d.events, EventOfFlash d e.val.flashOf e
  nGroups : ∀ f ∈ d.flashes, f.val.nGroups = (d.groups.filter fun g => g.pid = f.id).length
  nEventsGroup : ∀ g ∈ d.groups, g.val.nEvents = (d.events.filter fun e => e.pid = g.id).length
  nEventsFlash : ∀ f ∈ d.flashes, f.val.nEvents =
    (d.events.filter fun e => EventOfFlash d f.id e).length

/-- Everything in a row that opening a file must not change. -/
structure SameContent (r s : Row GVal) : Prop where
  id : r.id = s.id
  pid : r.pid = s.pid
  lon : r.val.lon = s.val.lon
  lat : r.val.lat = s.val.lat
  energy : r.val.energy = s.val.energy
  area : r.val.area = s.val.area
  times : r.val.times = s.val.times

/-- `v` lies strictly inside the range, if there is one. -/
def Inside (range : Option (Rat × Rat)) (v : Rat) : Prop :=
  ∀ r, range = some r → r.1 < v ∧ v < r.2

/-- `n` reaches the minimum, if there is one. -/
def AtLeast (least : Option Int) (n : Nat) : Prop := ∀ m, least = some m → m ≤ n

/-- The criteria on the flash itself. -/
structure Meets (c : Criteria) (f : Row GVal) : Prop where
  lon : Inside c.lon f.val.lon
  lat : Inside c.lat f.val.lat
  x : Inside c.x f.val.x
  y : Inside c.y f.val.y
  minEvents : AtLeast c.minEvents f.val.nEvents
  minGroups : AtLeast c.minGroups f.val.nGroups

/-- The event is strictly inside the field of view, 0.1349 radians in each direction, and inside
the x and y ranges asked for. -/
structure InView (c : Criteria) (e : Row GVal) : Prop where
  x : -(1349 / 10000 : Rat) < e.val.x ∧ e.val.x < 1349 / 10000
  y : -(1349 / 10000 : Rat) < e.val.y ∧ e.val.y < 1349 / 10000
  xr : Inside c.x e.val.x
  yr : Inside c.y e.val.y

/-- `g` is the earliest group of the flash with id `i`: of the groups at the earliest frame time (the second time
variable of a group) the first in the file. -/
def EarliestGroup (d : GFile) (i : Int) (g : Row GVal) : Prop :=
  ∃ before after, d.groups.filter (fun h => h.pid = i) = before ++ g :: after ∧
    (∀ h ∈ before, g.val.times.getD 1 0 < h.val.times.getD 1 0) ∧
    ∀ h ∈ after, g.val.times.getD 1 0 ≤ h.val.times.getD 1 0

end Verif.Spec
