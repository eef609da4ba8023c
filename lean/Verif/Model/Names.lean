import Verif.Py.Basic
import Verif.Model.Imagery

/-!
# glmtools/io/glm.py, glmtools/io/imagery.py: file names and the times in them

Strings are lists of characters.  Only ASCII digits count as digits.
-/

namespace Verif.Model

open Verif.Py

abbrev Text := List Char

/-! ## Calendar (the part of `datetime` that is used) -/

/-- `datetime.datetime`. -/
structure DateTime where
  year : Nat
  month : Nat
  day : Nat
  hour : Nat
  minute : Nat
  second : Nat
  microsecond : Nat
  deriving DecidableEq, Repr

/-- `calendar.isleap`. -/
def isLeap (y : Nat) : Bool := y % 4 = 0 ∧ (y % 100 ≠ 0 ∨ y % 400 = 0)

/-- The lengths of the months of a year. -/
def monthLengths (y : Nat) : List Nat :=
  [31, if isLeap y then 29 else 28, 31, 30, 31, 30, 31, 31, 30, 31, 30, 31]

/-- `timetuple().tm_yday`. -/
def dayOfYear (y m d : Nat) : Nat := ((monthLengths y).take (m - 1)).sum + d

/-- Month and day of a day that is counted from 0, going through the months. -/
def walkMonths : List Nat → Nat → Nat → Option (Nat × Nat)
  | [], _, _ => none
  | len :: rest, m, n => if n < len then some (m, n + 1) else walkMonths rest (m + 1) (n - len)

/-- `date.fromordinal(yday - 1 + date(year, 1, 1).toordinal())`: a day after the last one of the year
is in the next year.  Years outside of 1..9999 are a ValueError. -/
def fromYday (year yday : Nat) : Except Err (Nat × Nat × Nat) :=
  if year = 0 then .error .valueError
  else match walkMonths (monthLengths year) 1 (yday - 1) with
    | some (m, d) => .ok (year, m, d)
    | none =>
      if year + 1 ≤ 9999 then
        match walkMonths (monthLengths (year + 1)) 1 (yday - 1 - (monthLengths year).sum) with
        | some (m, d) => .ok (year + 1, m, d)
        | none => .error .valueError
      else .error .valueError

/-! ## Formatting -/

/-- A digit. -/
def digit (n : Nat) : Char := Char.ofNat (48 + n % 10)

/-- The last two, three and four digits of a number, with leading zeros.  For years of four digits
this is what `strftime` writes for `%Y`. -/
def two (n : Nat) : Text := [digit (n / 10), digit n]
def three (n : Nat) : Text := [digit (n / 100), digit (n / 10), digit n]
def four (n : Nat) : Text := [digit (n / 1000), digit (n / 100), digit (n / 10), digit n]

/-- `%Y` of `strftime`: the C library of Linux does not pad years before 1000. -/
def strftimeYear (year : Nat) : Text :=
  if 1000 ≤ year then four year
  else if 100 ≤ year then three year
  else if 10 ≤ year then two year
  else [digit year]

/-- `t.strftime('%Y%j%H%M%S0')`, imagery.py:273-274. -/
def strftimeStamp (t : DateTime) : Text :=
  strftimeYear t.year ++ three (dayOfYear t.year t.month t.day) ++ two t.hour ++ two t.minute ++ two t.second
    ++ ['0']

/-- The name of the data set in `get_glm_global_attrs`, imagery.py:272-276, with the only known
timeline, "ABI Mode 3". -/
def datasetName (sceneLetter : Text) (platform : Text) (start stop created : DateTime) : Text :=
  "OR_GLM-L2-GLM".toList ++ sceneLetter ++ "-M3_".toList ++ platform ++ "_s".toList ++
    strftimeStamp start ++ "_e".toList ++ strftimeStamp stop ++ "_c".toList ++ strftimeStamp created ++
    ".nc".toList

/-! ## Parsing -/

/-- One alternative of a regular expression for a number: a range of digits for each character. -/
abbrev Alternative := List (Nat × Nat)

/-- The value of a digit in a range. -/
def digitIn (r : Nat × Nat) (c : Char) : Option Nat :=
  if 48 + r.1 ≤ c.toNat ∧ c.toNat ≤ 48 + r.2 then some (c.toNat - 48) else none

/-- The number matched by one alternative at the start of a text. -/
def matchAlternative : Alternative → Nat → Text → Option Nat
  | [], acc, _ => some acc
  | _ :: _, _, [] => none
  | r :: rs, acc, c :: cs =>
    match digitIn r c with
    | some v => matchAlternative rs (acc * 10 + v) cs
    | none => none

/-- The matches at the start of a text, in order of preference: the value and the number of
characters. -/
def matches_ (alts : List Alternative) (s : Text) : List (Nat × Nat) :=
  alts.filterMap fun a => (matchAlternative a 0 s).map fun v => (v, a.length)

/-- `%Y`, `%j`, `%H`, `%M` and `%S` in CPython's `_strptime.TimeRE`. -/
def altY : List Alternative := [[(0, 9), (0, 9), (0, 9), (0, 9)]]
def altJ : List Alternative :=
  [[(3, 3), (6, 6), (0, 6)], [(3, 3), (0, 5), (0, 9)], [(1, 2), (0, 9), (0, 9)],
   [(0, 0), (1, 9), (0, 9)], [(0, 0), (0, 0), (1, 9)], [(1, 9), (0, 9)], [(0, 0), (1, 9)], [(1, 9)]]
def altH : List Alternative := [[(2, 2), (0, 3)], [(0, 1), (0, 9)], [(0, 9)]]
def altM : List Alternative := [[(0, 5), (0, 9)], [(0, 9)]]
def altS : List Alternative := [[(6, 6), (0, 1)], [(0, 5), (0, 9)], [(0, 9)]]

/-- A match of a sequence of numbers, with backtracking: all matches in order of preference, with the
text that remains. -/
def matchSeq : List (List Alternative) → Text → List (List Nat × Text)
  | [], s => [([], s)]
  | alts :: rest, s =>
    (matches_ alts s).flatMap fun p => (matchSeq rest (s.drop p.2)).map fun q => (p.1 :: q.1, q.2)

/-- `datetime.strptime(s, '%Y%j%H%M%S')`: the first match of the regular expression, which must use
all of the text; seconds 60 and 61 are matched but are no time. -/
def strptime (s : Text) : Except Err DateTime :=
  match (matchSeq [altY, altJ, altH, altM, altS] s).head? with
  | some ([y, j, h, m, sec], []) => do
    let ymd ← fromYday y j
    if sec > 59 then .error .valueError
    pure ⟨ymd.1, ymd.2.1, ymd.2.2, h, m, sec, 0⟩
  | _ => .error .valueError

/-- `int(c)` for one character. -/
def intOfChar (c : Char) : Except Err Nat :=
  match digitIn (0, 9) c with
  | some v => .ok v
  | none => .error .valueError

/-- `parse_glm_filename_time`, glm.py:16-29.  The time from `strptime` has no microseconds, so that
adding tenths of a second never carries. -/
def parseGlmFilenameTime (timeStr : Text) : Except Err DateTime := do
  let start ← strptime ((timeStr.drop 1).dropLast)
  let tenths ← match timeStr.getLast? with
    | some c => intOfChar c
    | none => .error .indexError
  pure { start with microsecond := start.microsecond + tenths * 100000 }

/-- `s.replace('.nc', '')`. -/
def removeNc : Text → Text
  | '.' :: 'n' :: 'c' :: rest => removeNc rest
  | c :: rest => c :: removeNc rest
  | [] => []

/-- `s.split('_')`. -/
def splitUnderscore : Text → List Text
  | [] => [[]]
  | c :: rest =>
    if c = '_' then [] :: splitUnderscore rest
    else match splitUnderscore rest with
      | [] => [[c]]
      | w :: ws => (c :: w) :: ws

/-- The result of `parse_glm_filename`. -/
structure ParsedName where
  opsEnvironment : Text
  algorithm : Text
  platform : Text
  start : DateTime
  stop : DateTime
  created : DateTime
  deriving DecidableEq, Repr

/-- `parse_glm_filename`, glm.py:31-46. -/
def parseGlmFilename (filename : Text) : Except Err ParsedName := do
  let parts := splitUnderscore (removeNc filename)
  let part := fun (i : Nat) => match parts[i]? with
    | some w => Except.ok w
    | none => Except.error Err.indexError
  let ops ← part 0
  let alg ← part 1
  let plat ← part 2
  let start ← (part 3).bind parseGlmFilenameTime
  let stop ← (part 4).bind parseGlmFilenameTime
  let created ← (part 5).bind parseGlmFilenameTime
  pure ⟨ops, alg, plat, start, stop, created⟩

/-! ## Paths -/

/-- `outpath.format(...)` for the default template `'./{dataset_name}'`, imagery.py:457, 522-523.  The
prefix that `subdivided_fixed_grid` makes for each tile (make_grids.py:694-698) is an argument of
`GLMlutGridder.write_grids` (make_grids.py:599-609) that is not used. -/
def defaultOutfile (scene : Scene) (platform : Text) (start stop created : DateTime) :
    Except Err Text :=
  match sceneLetters.lookup scene with
  | some letter => .ok ("./".toList ++ datasetName letter.toList platform start stop created)
  | none => .error .keyError

/-- `os.path.dirname`. -/
def dirname (path : Text) : Text :=
  let head := (path.reverse.dropWhile (· ≠ '/')).reverse
  if head.all (· = '/') then head else (head.reverse.dropWhile (· = '/')).reverse

/-- The directory of an output file, imagery.py:524-526: `os.makedirs('')` is a FileNotFoundError, and
nothing has the empty name.  Other failures of the file system are left out. -/
def makeDirectory (existing : List Text) (outfile : Text) : Except Err (List Text) :=
  let enclosing := dirname outfile
  if enclosing ≠ [] ∧ enclosing ∈ existing then .ok existing
  else if enclosing = [] then .error .fileNotFoundError
  else .ok (enclosing :: existing)

end Verif.Model
