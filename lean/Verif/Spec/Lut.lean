import Verif.Model.Lut
import Verif.Spec.Dataset

/-!
# Specification of the event lookup table
-/

namespace Verif.Spec

open Verif.Model (Row GVal GFile LutRow)

/-- The events at location `k`. -/
def eventsAt (loc : Rat → Rat → Int) (d : GFile) (k : Int) : List (Row GVal) :=
  d.events.filter fun e => loc e.val.x e.val.y = k

/-- The flashes with an event at location `k`. -/
def flashesAt (loc : Rat → Rat → Int) (d : GFile) (k : Int) : List (Row GVal) :=
  d.flashes.filter fun f => ∃ e ∈ eventsAt loc d k, EventOfFlash d f.id e

/-- The groups with an event at location `k`. -/
def groupsAt (loc : Rat → Rat → Int) (d : GFile) (k : Int) : List (Row GVal) :=
  d.groups.filter fun g => ∃ e ∈ eventsAt loc d k, e.pid = g.id

/-- What a row says about the events at its location. -/
structure EventStats (loc : Rat → Rat → Int) (d : GFile) (r : LutRow) : Prop where
  occupied : eventsAt loc d r.id ≠ []
  energy : r.energy = ((eventsAt loc d r.id).map fun e => e.val.energy).sum
  count : r.count = (eventsAt loc d r.id).length
  x : r.x * (eventsAt loc d r.id).length = ((eventsAt loc d r.id).map fun e => e.val.x).sum
  y : r.y * (eventsAt loc d r.id).length = ((eventsAt loc d r.id).map fun e => e.val.y).sum

/-- What a row says about the flashes and groups at its location. -/
structure ParentStats (loc : Rat → Rat → Int) (d : GFile) (r : LutRow) : Prop where
  flashCount : r.flashCount = (flashesAt loc d r.id).length
  groupCount : r.groupCount = (groupsAt loc d r.id).length
  totalFlashArea : r.totalFlashArea = ((flashesAt loc d r.id).map fun f => f.val.area).sum
  totalGroupArea : r.totalGroupArea = ((groupsAt loc d r.id).map fun g => g.val.area).sum
  minMem : ∃ f ∈ flashesAt loc d r.id, r.minFlashArea = f.val.area
  minLe : ∀ f ∈ flashesAt loc d r.id, r.minFlashArea ≤ f.val.area

/-- The tree part of a dataset that the table needs: every group has its flash, and every event
knows the flash it belongs to. -/
structure Rooted (d : GFile) : Prop where
  groupHasFlash : ∀ g ∈ d.groups, ∃ f ∈ d.flashes, f.id = g.pid
  flashOf : ∀ e ∈ d.events, EventOfFlash d e.val.flashOf e

/-- Total of a statistic over the rows of location `k`. -/
def totalAt (q : LutRow → Rat) (rows : List LutRow) (k : Int) : Rat :=
  ((rows.filter fun r => r.id = k).map q).sum

end Verif.Spec
