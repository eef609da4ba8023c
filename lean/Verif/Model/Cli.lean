import Verif.Model.Setup
import Verif.Model.Lcfa

/-!
# The command lines of the programs

examples/grid/make_GLM_grids.py:23-104, examples/plot/plot_glm_file.py:4-9, examples/glm-lasso-stats.py:21-54, and what
`argparse` of the standard library does with them.

Simplified: the token `--`, which ends the options, is refused like an ambiguous abbreviation; a cluster of single letter
options is refused; digits are those of ASCII; numbers that are not finite do not occur (`Numbers` gives rational numbers).
-/

namespace Verif.Model

open Verif.Py

/-- A value of the namespace. -/
inductive Value
  | none
  | text (t : Text)
  | float (q : Rat)
  | int (n : Int)
  | bool (b : Bool)
  deriving DecidableEq

/-- `type=` of an option. -/
inductive Convert
  | text
  | float
  | int
  deriving DecidableEq

/-- `action=` of an option. -/
inductive Action
  | store (c : Convert)
  | flag (b : Bool)
  | help
  deriving DecidableEq

/-- An option: `add_argument`. -/
structure Opt where
  names : List Text
  dest : String
  action : Action
  required : Bool
  default : Value
  deriving DecidableEq

/-- How a program ends without starting. -/
inductive Exit
  | usage
  | help
  deriving DecidableEq

/-- What a token of the command line is. -/
inductive Token
  | argument
  | option (o : Opt) (explicit : Option Text)
  | unknown
  | ambiguous
  deriving DecidableEq

/-- The option with exactly this name. -/
def exactOption (opts : List Opt) (t : Text) : Option Opt := opts.find? fun o => o.names.contains t

/-- The parts of a token before and after its first `=`. -/
def splitEquals : Text → Option (Text × Text)
  | [] => none
  | c :: rest => if c = '=' then some ([], rest) else (splitEquals rest).map fun p => (c :: p.1, p.2)

/-- Options that a token may abbreviate, with the value that is attached to it. -/
def abbreviated (opts : List Opt) (t : Text) : List (Opt × Option Text) :=
  if startsWith "--".toList t then
    let p := (splitEquals t).elim (t, none) fun p => (p.1, some p.2)
    opts.flatMap fun o => (o.names.filter fun n => startsWith p.1 n).map fun _ => (o, p.2)
  else
    opts.flatMap fun o => o.names.filterMap fun n =>
      if n = t.take 2 then some (o, some (t.drop 2)) else if startsWith t n then some (o, none) else none

/-- `^-\d+$|^-\d*\.\d+$` -/
def isNegativeNumber : Text → Bool
  | '-' :: rest =>
    match rest.dropWhile Char.isDigit with
    | [] => rest ≠ []
    | '.' :: frac => frac ≠ [] && frac.all Char.isDigit
    | _ => false
  | _ => false

/-- `ArgumentParser._parse_optional` -/
def classify (opts : List Opt) (t : Text) : Token :=
  if t.head? ≠ some '-' then .argument
  else match exactOption opts t with
    | some o => .option o none
    | none =>
      if t.length = 1 then .argument
      else match (splitEquals t).bind fun p => (exactOption opts p.1).map fun o => (o, p.2) with
        | some (o, v) => .option o (some v)
        | none =>
          match abbreviated opts t with
          | [(o, v)] => .option o v
          | _ :: _ :: _ => .ambiguous
          | [] => if isNegativeNumber t || t.contains ' ' then .argument else .unknown

/-- The file names: not yet begun, being read, complete. -/
inductive Files
  | none
  | reading (l : List Text)
  | done (l : List Text)
  deriving DecidableEq

def Files.get : Files → List Text
  | .none => []
  | .reading l => l
  | .done l => l

def Files.close : Files → Files
  | .reading l => .done l
  | f => f

/-- The state of the parser; `seen` are the options that were given. -/
structure Parsed where
  ns : String → Value
  files : Files
  extras : Bool
  seen : List String

/-- An argument that belongs to no option: one run of them are the file names. -/
def Parsed.file (s : Parsed) (t : Text) : Parsed :=
  match s.files with
  | .none => { s with files := .reading [t] }
  | .reading l => { s with files := .reading (l ++ [t]) }
  | .done _ => { s with extras := true }

/-- `setattr(namespace, dest, value)` -/
def Parsed.set (s : Parsed) (o : Opt) (v : Value) : Parsed :=
  { s with ns := fun k => if k = o.dest then v else s.ns k, files := s.files.close, seen := o.dest :: s.seen }

/-- The value of a text. -/
def convert (N : Numbers Rat) : Convert → Text → Except Exit Value
  | .text, t => .ok (.text t)
  | .float, t => match N.float t with
    | .ok q => .ok (.float q)
    | .error _ => .error .usage
  | .int, t => match N.int t with
    | .ok n => .ok (.int n)
    | .error _ => .error .usage

/-- `ArgumentParser._parse_known_args` -/
def parseTokens (opts : List Opt) (N : Numbers Rat) : Parsed → List Text → Except Exit Parsed
  | s, [] => .ok s
  | s, t :: rest =>
    match classify opts t with
    | .argument => parseTokens opts N (s.file t) rest
    | .unknown => parseTokens opts N { s with extras := true, files := s.files.close } rest
    | .ambiguous => .error .usage
    | .option o explicit =>
      match o.action, explicit with
      | .help, none => .error .help
      | .help, some _ => .error .usage
      | .flag b, none => parseTokens opts N (s.set o (.bool b)) rest
      | .flag _, some _ => .error .usage
      | .store c, some v =>
        match convert N c v with
        | .ok w => parseTokens opts N (s.set o w) rest
        | .error e => .error e
      | .store c, none =>
        match rest with
        | [] => .error .usage
        | v :: rest =>
          if classify opts v = .argument then
            match convert N c v with
            | .ok w => parseTokens opts N (s.set o w) rest
            | .error e => .error e
          else .error .usage

/-- The default of each option. -/
def defaultsOf (opts : List Opt) (k : String) : Value :=
  ((opts.find? fun o => o.dest = k).map Opt.default).getD .none

/-- `parser.parse_args()`: the namespace and the file names. -/
def parseArgs (opts : List Opt) (N : Numbers Rat) (tokens : List Text) : Except Exit ((String → Value) × List Text) := do
  let s ← parseTokens opts N ⟨defaultsOf opts, .none, false, []⟩ tokens
  if opts.any fun o => o.required && !s.seen.contains o.dest then .error .usage
  else if s.extras then .error .usage
  else pure (s.ns, s.files.get)

/-! ## The options of the programs -/

/-- An option with a value. -/
def storeOpt (names : List String) (dest : String) (c : Convert) (default : Value) (required : Bool := false) : Opt :=
  ⟨names.map String.toList, dest, .store c, required, default⟩

/-- A flag: `store_true` or `store_false`. -/
def flagOpt (name dest : String) (b : Bool) : Opt := ⟨[name.toList], dest, .flag b, false, .bool !b⟩

/-- Added by argparse itself. -/
def helpOpt : Opt := ⟨["-h".toList, "--help".toList], "help", .help, false, .none⟩

/-- `create_parser`, make_GLM_grids.py:23-104. -/
def gridOptions : List Opt :=
  [helpOpt,
   storeOpt ["-o", "--output_path"] "outdir" .text (.text "./{dataset_name}".toList),
   storeOpt ["--ctr_lat"] "ctr_lat" .float .none,
   storeOpt ["--ctr_lon"] "ctr_lon" .float .none,
   storeOpt ["--start"] "start" .text .none,
   storeOpt ["--end"] "end" .text .none,
   storeOpt ["--dx"] "dx" .float (.float 10),
   storeOpt ["--dy"] "dy" .float (.float 10),
   storeOpt ["--dt"] "dt" .float (.float 60),
   storeOpt ["--width"] "width" .float (.float 400),
   storeOpt ["--height"] "height" .float (.float 400),
   storeOpt ["--nevents"] "min_events" .int (.int 1),
   storeOpt ["--ngroups"] "min_groups" .int (.int 1),
   flagOpt "--fixed_grid" "fixed_grid" true,
   storeOpt ["--subdivide_grid"] "subdivide_grid" .int (.int 1),
   storeOpt ["--goes_position"] "goes_position" .text (.text "none".toList),
   storeOpt ["--goes_sector"] "goes_sector" .text (.text "none".toList),
   storeOpt ["--corner_points"] "corner_points" .text .none,
   flagOpt "--split_events" "split_events" true,
   storeOpt ["--ellipse"] "ellipse_rev" .int (.int (-1)),
   flagOpt "--float_output" "output_scale_and_offset" false,
   flagOpt "--lma" "is_lma" true]

/-- plot_glm_file.py:4-9 -/
def plotOptions : List Opt :=
  [helpOpt, storeOpt ["-o", "--output_dir"] "outdir" .text .none true]

/-- glm-lasso-stats.py:21-54; the two default limits are powers of ten. -/
def lassoOptions : List Opt :=
  [helpOpt,
   storeOpt ["-s"] "path_to_sort_results" .text .none,
   flagOpt "--stdpath" "use_standard_path" true,
   storeOpt ["-o", "--output_dir"] "outdir" .text .none true,
   storeOpt ["-l", "--lasso"] "lasso_log" .text .none true,
   storeOpt ["--minalt"] "min_alt" .float (.float (-1)),
   storeOpt ["--maxalt"] "max_alt" .float (.float 100),
   storeOpt ["--minenergy"] "min_energy" .float (.float 0),
   storeOpt ["--maxenergy"] "max_energy" .float (.float (10 ^ 38)),
   storeOpt ["-a", "--minarea"] "min_area" .float (.float 0),
   storeOpt ["-A", "--maxarea"] "max_area" .float (.float (10 ^ 10)),
   storeOpt ["--nevents"] "min_events" .int (.int 1),
   storeOpt ["--ngroups"] "min_groups" .int (.int 1),
   flagOpt "--skip3d" "do_3d" false,
   flagOpt "--skipspectra" "do_energy_spectra" false]

/-! ## From the namespace to the program -/

/-- An attribute with a number; the parser stores nothing else in such an attribute. -/
def Value.asRat : Value → Rat
  | .float q => q
  | _ => 0

def Value.asRat? : Value → Option Rat
  | .float q => some q
  | _ => Option.none

def Value.asInt : Value → Int
  | .int n => n
  | _ => 0

def Value.asBool : Value → Bool
  | .bool b => b
  | _ => false

def Value.asText? : Value → Option Text
  | .text t => some t
  | _ => Option.none

def Value.asString (v : Value) : String := String.ofList (v.asText?.getD [])

/-- The attributes that `grid_setup` uses, make_GLM_grids.py:148-320.  A negative number of tiles is taken for none. -/
def namespaceArgs (ns : String → Value) (files : List Text) : Args where
  filenames := files
  outdir := (ns "outdir").asString
  ctrLat := (ns "ctr_lat").asRat?
  ctrLon := (ns "ctr_lon").asRat?
  start := (ns "start").asText?
  stop := (ns "end").asText?
  dx := (ns "dx").asRat
  dy := (ns "dy").asRat
  dt := (ns "dt").asRat
  width := (ns "width").asRat
  height := (ns "height").asRat
  minEvents := (ns "min_events").asInt
  minGroups := (ns "min_groups").asInt
  fixedGrid := (ns "fixed_grid").asBool
  subdivide := (ns "subdivide_grid").asInt.toNat
  goesPosition := (ns "goes_position").asString
  goesSector := (ns "goes_sector").asString
  splitEvents := (ns "split_events").asBool
  ellipseRev := (ns "ellipse_rev").asInt
  scaleAndOffset := (ns "output_scale_and_offset").asBool

/-- What a run of the program does: it ends before it starts, hands the files to lmatools, or grids. -/
inductive GridRun (σ ι : Type)
  | exit (e : Exit)
  | lma (files : List Text)
  | glm (result : Except Err (List (TileRun σ ι) × Dict))

/-- `make_GLM_grids.py` with the tokens of its command line, make_GLM_grids.py:322-329. -/
def gridProgram {σ ι : Type} (lib : Lmatools) (G : DateTime → DateTime → Gridder σ ι) (read : Text → GFile) (N : Numbers Rat)
    (tokens : List Text) : GridRun σ ι :=
  match parseArgs gridOptions N tokens with
  | .error e => .exit e
  | .ok (ns, files) =>
    if (ns "is_lma").asBool then .lma files else .glm (mainProgram lib G read (namespaceArgs ns files))

end Verif.Model
