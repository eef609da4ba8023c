import Verif.Model.Names

/-!
# glmtools/io/convert_lcfa.py: reading LCFA text files

`int` and `float` of texts are parameters.  White space is that of ASCII.
-/

namespace Verif.Model

open Verif.Py

/-- `int(text)` and `float(text)`. -/
structure Numbers (F : Type) where
  int : Text → Except Err Int
  float : Text → Except Err F

/-- A value in a record. -/
inductive Cell (F : Type)
  | int (n : Int)
  | float (x : F)
  deriving DecidableEq, Repr

/-! ## Text -/

/-- Reading a file in text mode: `\r\n` and `\r` become `\n`. -/
def universalNewlines : Text → Text
  | '\r' :: '\n' :: rest => '\n' :: universalNewlines rest
  | '\r' :: rest => '\n' :: universalNewlines rest
  | c :: rest => c :: universalNewlines rest
  | [] => []

/-- `for line in f`: the lines with their newlines; the last one may lack it.  `line` is the line that
is being read. -/
def linesOf (line : Text) : Text → List Text
  | [] => if line = [] then [] else [line]
  | c :: rest =>
    if c = '\n' then (line ++ [c]) :: linesOf [] rest
    else linesOf (line ++ [c]) rest

/-- `line.startswith(prefix)`. -/
def startsWith (start line : Text) : Bool := start.isPrefixOf line

/-- White space for `str.split`. -/
def isWhite (c : Char) : Bool :=
  c = ' ' || c = '\t' || c = '\n' || c = '\r' || c = '\x0b' || c = '\x0c' ||
    (0x1c ≤ c.toNat && c.toNat ≤ 0x1f)

/-- `line.split()`; `word` is the word that is being read. -/
def splitWords (word : Text) : Text → List Text
  | [] => if word = [] then [] else [word]
  | c :: rest =>
    if isWhite c then (if word = [] then splitWords [] rest else word :: splitWords [] rest)
    else splitWords (word ++ [c]) rest

/-- `s.split(':')`. -/
def splitColon : Text → List Text
  | [] => [[]]
  | c :: rest =>
    if c = ':' then [] :: splitColon rest
    else match splitColon rest with
      | [] => [[c]]
      | w :: ws => (c :: w) :: ws

/-- `list[i]` for a list of texts. -/
def textAt (l : List Text) (i : Nat) : Except Err Text :=
  match l[i]? with
  | some w => .ok w
  | none => .error .indexError

/-- `cols[i].split(':')[1]`. -/
def afterColon (cols : List Text) (i : Nat) : Except Err Text := do
  textAt (splitColon (← textAt cols i)) 1

variable {F : Type}

/-- `float(cols[i].split(':')[1])`. -/
def floatField (N : Numbers F) (cols : List Text) (i : Nat) : Except Err (Cell F) := do
  pure (.float (← N.float (← afterColon cols i)))

/-- `int(cols[i].split(':')[1])`. -/
def intField (N : Numbers F) (cols : List Text) (i : Nat) : Except Err (Cell F) := do
  pure (.int (← N.int (← afterColon cols i)))

/-- `int(cols[i][1:])`. -/
def idField (N : Numbers F) (cols : List Text) (i : Nat) : Except Err (Cell F) := do
  pure (.int (← N.int ((← textAt cols i).drop 1)))

/-! ## Records -/

/-- One line of a flash, convert_lcfa.py:75-84. -/
def flashRecord (N : Numbers F) (line : Text) : Except Err (List (Cell F)) := do
  let cols := splitWords [] line
  let c0 ← idField N cols 2
  let c1 ← floatField N cols 4
  let c2 ← floatField N cols 6
  let c3 ← floatField N cols 8
  let c4 ← floatField N cols 10
  let c5 ← floatField N cols 11
  let c6 ← floatField N cols 12
  let c7 ← intField N cols 13
  pure [c0, c1, c2, c3, c4, c5, c6, c7]

/-- One line of a group, convert_lcfa.py:95-104. -/
def groupRecord (N : Numbers F) (line : Text) : Except Err (List (Cell F)) := do
  let cols := splitWords [] line
  let c0 ← idField N cols 2
  let c1 ← floatField N cols 6
  let c2 ← floatField N cols 10
  let c3 ← floatField N cols 12
  let c4 ← floatField N cols 13
  let c5 ← floatField N cols 14
  let c6 ← intField N cols 15
  let c7 ← intField N cols 16
  pure [c0, c1, c2, c3, c4, c5, c6, c7]

/-- One line of an event, convert_lcfa.py:115-124. -/
def eventRecord (N : Numbers F) (line : Text) : Except Err (List (Cell F)) := do
  let cols := splitWords [] line
  let c0 ← idField N cols 1
  let c1 ← floatField N cols 4
  let c2 ← intField N cols 5
  let c3 ← intField N cols 6
  let c4 ← floatField N cols 7
  let c5 ← floatField N cols 8
  let c6 ← floatField N cols 9
  let c7 ← intField N cols 10
  pure [c0, c1, c2, c3, c4, c5, c6, c7]

/-- The generators, convert_lcfa.py:67-125, run to their end: all records, or the first exception. -/
def genRecords (start : Text) (record : Text → Except Err (List (Cell F))) (text : Text) :
    Except Err (List (List (Cell F))) :=
  ((linesOf [] (universalNewlines text)).filter (startsWith start)).mapM record

/-! ## Data frames -/

/-- Columns by name. -/
abbrev DataFrame (F : Type) := List (String × List (Cell F))

/-- `pd.DataFrame.from_records(records, columns=names)`. -/
def fromRecords (records : List (List (Cell F))) (names : List String) : DataFrame F :=
  names.zipIdx.map fun n => (n.1, records.filterMap fun r => r[n.2]?)

/-- convert_lcfa.py:31-34 -/
def flashColNames : List String :=
  ["flash_id", "flash_time_offset_of_first_event", "flash_time_offset_of_last_event",
   "flash_lat", "flash_lon", "flash_energy", "flash_area", "flash_child_group_count"]

/-- convert_lcfa.py:36-39 -/
def groupColNames : List String :=
  ["group_id", "group_time_offset", "group_lat", "group_lon", "group_energy", "group_area",
   "group_parent_flash_id", "group_child_event_count"]

/-- convert_lcfa.py:42-45 -/
def eventColNames : List String :=
  ["event_id", "event_time_offset", "x_pixel", "y_pixel", "event_lat", "event_lon", "event_energy",
   "event_parent_group_id"]

/-- `parse_LCFA_ASCII`, convert_lcfa.py:128-145: flashes, groups, events. -/
def parseLcfa (N : Numbers F) (text : Text) : Except Err (DataFrame F × DataFrame F × DataFrame F) := do
  let flashes ← genRecords "D Flash".toList (flashRecord N) text
  let groups ← genRecords "\tD Group".toList (groupRecord N) text
  let events ← genRecords "\t\tEvent".toList (eventRecord N) text
  pure (fromRecords flashes flashColNames, fromRecords groups groupColNames,
    fromRecords events eventColNames)

end Verif.Model
