import Verif.Model.Lcfa

/-!
# The LCFA text format

As shown by the example in convert_lcfa.py:16-28 and in the docstrings of the generators.
-/

namespace Verif.Spec

open Verif.Model

/-- The numbers of a flash, as they are written. -/
structure FlashText where
  (id start stop lat lon energy footprint childCount : Text)

/-- The numbers of a group. -/
structure GroupText where
  (id child start stop lat lon energy footprint parentId childCount : Text)

/-- The numbers of an event. -/
structure EventText where
  (id child time xPixel yPixel lat lon energy parentId : Text)

/-- What a line of a file is about. -/
inductive Line
  | flash (f : FlashText)
  | group (g : GroupText)
  | event (e : EventText)
  | other (text : Text)

/-- The line of a flash. -/
def FlashText.text (f : FlashText) : Text :=
  "D Flash #".toList ++ f.id ++ " Start Time:".toList ++ f.start ++ " End Time:".toList ++ f.stop ++
  " Centroid Lat:".toList ++ f.lat ++ " Centroid Lon:".toList ++ f.lon ++ " Energy:".toList ++ f.energy ++
  " Footprint:".toList ++ f.footprint ++ " Child_Count:".toList ++ f.childCount

/-- The line of a group. -/
def GroupText.text (g : GroupText) : Text :=
  "\tD Group #".toList ++ g.id ++ " Child #".toList ++ g.child ++ " Start Time:".toList ++ g.start ++
  " End Time:".toList ++ g.stop ++ " Centroid Lat:".toList ++ g.lat ++ " Centroid Lon:".toList ++ g.lon ++
  " Energy:".toList ++ g.energy ++ " Footprint:".toList ++ g.footprint ++ " Parent_ID:".toList ++ g.parentId ++
  " Child_Count:".toList ++ g.childCount

/-- The line of an event. -/
def EventText.text (e : EventText) : Text :=
  "\t\tEvent #".toList ++ e.id ++ " Child #".toList ++ e.child ++ " Time:".toList ++ e.time ++
  " X_Pixel:".toList ++ e.xPixel ++ " Y_Pixel:".toList ++ e.yPixel ++ " Lat:".toList ++ e.lat ++
  " Lon:".toList ++ e.lon ++ " Energy:".toList ++ e.energy ++ " Parent_ID:".toList ++ e.parentId

def Line.text : Line → Text
  | .flash f => f.text
  | .group g => g.text
  | .event e => e.text
  | .other t => t

/-- The text of a number: visible characters without a colon. -/
def IsNumberText (w : Text) : Prop := ∀ c ∈ w, c ≠ ':' ∧ 0x21 ≤ c.toNat ∧ c.toNat ≤ 0x7e

/-- Numbers are written without colons and white space; other lines do not look like flashes, groups
or events. -/
def Line.WellFormed : Line → Prop
  | .flash f => ∀ w ∈ [f.id, f.start, f.stop, f.lat, f.lon, f.energy, f.footprint, f.childCount],
      IsNumberText w
  | .group g => ∀ w ∈ [g.id, g.child, g.start, g.stop, g.lat, g.lon, g.energy, g.footprint, g.parentId,
      g.childCount], IsNumberText w
  | .event e => ∀ w ∈ [e.id, e.child, e.time, e.xPixel, e.yPixel, e.lat, e.lon, e.energy, e.parentId],
      IsNumberText w
  | .other t => '\n' ∉ t ∧ '\r' ∉ t ∧ ¬ "D Flash".toList <+: t ∧ ¬ "\tD Group".toList <+: t ∧
      ¬ "\t\tEvent".toList <+: t

def Line.flash? : Line → Option FlashText
  | .flash f => some f
  | _ => none

def Line.group? : Line → Option GroupText
  | .group g => some g
  | _ => none

def Line.event? : Line → Option EventText
  | .event e => some e
  | _ => none

/-- A file: lines that end with `\n` or (if the flag is set) with `\r\n`, and perhaps a last line
that does not end. -/
def document (lines : List (Line × Bool)) (last : Option Line) : Text :=
  lines.flatMap (fun l => l.1.text ++ (if l.2 then ['\r', '\n'] else ['\n'])) ++
    (last.map Line.text).getD []

/-- The documented meaning of the columns. -/
def flashColumns : List (String × Bool × (FlashText → Text)) :=
  [("flash_id", true, FlashText.id),
   ("flash_time_offset_of_first_event", false, FlashText.start),
   ("flash_time_offset_of_last_event", false, FlashText.stop),
   ("flash_lat", false, FlashText.lat),
   ("flash_lon", false, FlashText.lon),
   ("flash_energy", false, FlashText.energy),
   ("flash_area", false, FlashText.footprint),
   ("flash_child_group_count", true, FlashText.childCount)]

def groupColumns : List (String × Bool × (GroupText → Text)) :=
  [("group_id", true, GroupText.id),
   ("group_time_offset", false, GroupText.start),
   ("group_lat", false, GroupText.lat),
   ("group_lon", false, GroupText.lon),
   ("group_energy", false, GroupText.energy),
   ("group_area", false, GroupText.footprint),
   ("group_parent_flash_id", true, GroupText.parentId),
   ("group_child_event_count", true, GroupText.childCount)]

def eventColumns : List (String × Bool × (EventText → Text)) :=
  [("event_id", true, EventText.id),
   ("event_time_offset", false, EventText.time),
   ("x_pixel", true, EventText.xPixel),
   ("y_pixel", true, EventText.yPixel),
   ("event_lat", false, EventText.lat),
   ("event_lon", false, EventText.lon),
   ("event_energy", false, EventText.energy),
   ("event_parent_group_id", true, EventText.parentId)]

/-- The number that a text stands for: an integer or a floating point number. -/
def Reads {F : Type} (N : Numbers F) (isInt : Bool) (w : Text) (c : Cell F) : Prop :=
  if isInt then ∃ n, N.int w = .ok n ∧ c = .int n else ∃ x, N.float w = .ok x ∧ c = .float x

/-- A data frame has exactly the documented columns, with one row per record, in order. -/
def FrameOf {F R : Type} (N : Numbers F) (columns : List (String × Bool × (R → Text))) (records : List R)
    (frame : DataFrame F) : Prop :=
  List.Forall₂ (fun col out => out.1 = col.1 ∧
    List.Forall₂ (fun r c => Reads N col.2.1 (col.2.2 r) c) records out.2) columns frame

end Verif.Spec
