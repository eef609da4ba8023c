import Verif.Model.Ellipse
import Verif.Model.Driver

/-!
# examples/grid/make_GLM_grids.py: the command line program

For GLM files; gridding LMA files (`--lma`) is done by `lmatools` and left out.
-/

namespace Verif.Model

open Verif.Py

/-! ## Resolutions -/

/-- `goes_resln_options`, make_GLM_grids.py:142, with the texts that line 145 makes of them. -/
def reslnOptions : List (Rat × String) :=
  [(1 / 2, "0.5km"), (1, "1.0km"), (2, "2.0km"), (4, "4.0km"), (8, "8.0km"), (10, "10.0km")]

/-- `np.argmin(np.abs(options - dx))`: the first of the nearest ones. -/
def nearestOf (dx : Rat) : List (Rat × String) → Option (Rat × String)
  | [] => none
  | o :: rest =>
    match nearestOf dx rest with
    | none => some o
    | some p => if |p.1 - dx| < |o.1 - dx| then some p else some o

/-- `nearest_resolution`, make_GLM_grids.py:137-146. -/
def nearestResolution (dx : Rat) : String := ((nearestOf dx reslnOptions).map Prod.snd).getD ""

/-! ## Times -/

/-- A part of a format of `strptime`. -/
inductive FormatPart
  | number (alts : List Alternative)
  | literal (c : Char)

/-- All matches in order of preference, with the text that remains.  Case is ignored. -/
def matchFormat : List FormatPart → Text → List (List Nat × Text)
  | [], s => [([], s)]
  | .number alts :: rest, s =>
    (matches_ alts s).flatMap fun p => (matchFormat rest (s.drop p.2)).map fun q => (p.1 :: q.1, q.2)
  | .literal c :: rest, s =>
    match s with
    | c' :: s' => if c.toLower = c'.toLower then matchFormat rest s' else []
    | [] => []

/-- `%m` and `%d` in CPython's `_strptime.TimeRE`; the alternative of a blank and a digit for `%d` is
left out. -/
def altMonth : List Alternative := [[(1, 1), (0, 2)], [(0, 0), (1, 9)], [(1, 9)]]
def altDay : List Alternative := [[(3, 3), (0, 1)], [(1, 2), (0, 9)], [(0, 0), (1, 9)], [(1, 9)]]

/-- `'%Y-%m-%dT%H:%M:%S'` -/
def isoFormat : List FormatPart :=
  [.number altY, .literal '-', .number altMonth, .literal '-', .number altDay, .literal 'T',
   .number altH, .literal ':', .number altM, .literal ':', .number altS]

/-- The last day of a month. -/
def monthLength (y m : Nat) : Nat := ((monthLengths y)[m - 1]?).getD 0

/-- `datetime.strptime(s, '%Y-%m-%dT%H:%M:%S')`: as `strptime`. -/
def strptimeIso (s : Text) : Except Err DateTime :=
  match (matchFormat isoFormat s).head? with
  | some ([y, mo, d, h, m, sec], []) =>
    if sec > 59 then .error .valueError
    else if y = 0 then .error .valueError
    else if d ≤ monthLength y mo then .ok ⟨y, mo, d, h, m, sec, 0⟩
    else .error .valueError
  | _ => .error .valueError

/-- The day after a day. -/
def nextDay (t : DateTime) : Except Err DateTime :=
  if t.day < monthLength t.year t.month then .ok { t with day := t.day + 1 }
  else if t.month < 12 then .ok { t with month := t.month + 1, day := 1 }
  else if t.year < 9999 then .ok { t with year := t.year + 1, month := 1, day := 1 }
  else .error .overflowError

/-- `t + timedelta(0, seconds)`, for less than a day. -/
def addSeconds (t : DateTime) (seconds : Nat) : Except Err DateTime :=
  let n := t.hour * 3600 + t.minute * 60 + t.second + seconds
  let at_ := fun (t : DateTime) (n : Nat) =>
    { t with hour := n / 3600, minute := n / 60 % 60, second := n % 60 }
  if n < 86400 then .ok (at_ t n)
  else match nextDay t with
    | .ok t => .ok (at_ t (n - 86400))
    | .error e => .error e

/-- `min(times)` -/
def minTime : List DateTime → Except Err DateTime
  | [] => .error .valueError
  | t :: ts => .ok (ts.foldl (fun a b => if b.before a then b else a) t)

/-- `max(times)` -/
def maxTime : List DateTime → Except Err DateTime
  | [] => .error .valueError
  | t :: ts => .ok (ts.foldl (fun a b => if a.before b then b else a) t)

/-- `os.path.basename` -/
def basename (path : Text) : Text := (path.reverse.takeWhile (· ≠ '/')).reverse

/-- The starts in the names of the files, make_GLM_grids.py:174-183: `none` if the name was not
assigned because of a ValueError, which is only logged. -/
def filenameStarts (filenames : List Text) : Except Err (Option (List DateTime)) :=
  match filenames.mapM fun f => parseGlmFilename (basename f) with
  | .ok infos => .ok (some (infos.map ParsedName.start))
  | .error .valueError => .ok none
  | .error e => .error e

/-- `start_time` and `end_time`, make_GLM_grids.py:174-201. -/
def timeSpan (filenames : List Text) (start stop : Option Text) : Except Err (DateTime × DateTime) := do
  let starts ← filenameStarts filenames
  let startTime ← match start, starts with
    | some s, _ => strptimeIso (s.take 19)
    | none, some l => minTime l
    | none, none => .error .unboundLocalError
  let endTime ← match stop, starts with
    | some s, _ => strptimeIso (s.take 19)
    | none, some l => do addSeconds (← maxTime l) 20
    | none, none => .error .unboundLocalError
  pure (startTime, endTime)

/-! ## Grid -/

/-- The result of `get_GOESR_grid` of `lmatools`. -/
structure View where
  nadirLon : Rat
  resolution : Rat
  pixelsEW : Int
  pixelsNS : Int
  center : Option (Rat × Rat)
  deriving DecidableEq

/-- What is used of `lmatools`. -/
structure Lmatools where
  /-- `get_GOESR_grid(position, view, resolution)` -/
  grid : String → String → String → Except Err View
  /-- fixed grid coordinates of a longitude and latitude for a satellite longitude -/
  toFixedGrid : Rat → Rat → Rat → Rat × Rat
  /-- longitude and latitude of fixed grid coordinates for a satellite longitude -/
  toLonLat : Rat → Rat → Rat → Rat × Rat
  /-- `dlonlat_at_grid_center(ctr_lat, ctr_lon, dx, dy, x_bnd, y_bnd)` -/
  dlonlat : Rat → Rat → Rat → Rat → Rat × Rat → Rat × Rat → Rat × Rat × (Rat × Rat) × (Rat × Rat)

/-- The arguments of the program. -/
structure Args where
  filenames : List Text
  outdir : String
  ctrLat : Option Rat
  ctrLon : Option Rat
  start : Option Text
  stop : Option Text
  dx : Rat
  dy : Rat
  dt : Rat
  width : Rat
  height : Rat
  minEvents : Int
  minGroups : Int
  fixedGrid : Bool
  subdivide : Nat
  goesPosition : String
  goesSector : String
  splitEvents : Bool
  ellipseRev : Int
  scaleAndOffset : Bool

/-- A value that has to be a number, not `None`: `args.ctr_lon` and `args.ctr_lat`, make_GLM_grids.py:225, 236, 270-271.
Simplification: on the fixed grid (225, 236) the numbers go to lmatools, what it does with `None` is not modelled, it counts
as an error, and no theorem uses this case. -/
def needNumber : Option Rat → Except Err Rat
  | some q => .ok q
  | none => .error .typeError

/-- `int(width/dx)`, make_GLM_grids.py:242. -/
def cellCount (width dx : Rat) : Except Err Int :=
  if dx = 0 then .error .zeroDivisionError else .ok (pyInt (width / dx))

/-- The bounds of one axis, make_GLM_grids.py:250-257. -/
def axisBounds (n : Int) (d ctr : Rat) : Except Err (Rat × Rat) :=
  let n := n + 1
  let edges := (List.range n.toNat).map fun i : Nat => ((i : Rat) - (n : Rat) / 2) * d + ctr + 1 / 2 * d
  match edges with
  | [] => .error .valueError
  | e :: es => .ok (es.foldl min e, es.foldl max e)

/-- A target grid. -/
structure Target where
  dx : Rat
  dy : Rat
  xBnd : Rat × Rat
  yBnd : Rat × Rat
  ctrLon : Rat
  ctrLat : Rat
  nadirLon : Option Rat

/-- Nadir, spacing, centre and numbers of boxes on the fixed grid, make_GLM_grids.py:210-247. -/
def fixedGridSpec (lib : Lmatools) (a : Args) : Except Err (Rat × (Rat × Rat) × (Rat × Rat) × Int × Int) :=
  if a.goesPosition ≠ "none" ∧ a.goesSector ≠ "none" then do
    let view ← lib.grid a.goesPosition a.goesSector (nearestResolution a.dx)
    let ctr ← match view.center with
      | some c => pure c
      | none =>
        if a.goesSector = "meso" then do
          let lon ← needNumber a.ctrLon
          let lat ← needNumber a.ctrLat
          pure (lib.toFixedGrid view.nadirLon lon lat)
        else .error .unboundLocalError
    pure (view.nadirLon, (view.resolution, view.resolution), ctr, view.pixelsEW, view.pixelsNS)
  else if a.goesPosition ≠ "none" ∧ a.goesSector = "none" then do
    let view ← lib.grid a.goesPosition "full" "1.0km"
    let lon ← needNumber a.ctrLon
    let lat ← needNumber a.ctrLat
    let nx ← cellCount a.width a.dx
    let ny ← cellCount a.height a.dy
    pure (view.nadirLon, (a.dx * view.resolution, a.dy * view.resolution),
      lib.toFixedGrid view.nadirLon lon lat, nx, ny)
  else .error .valueError

/-- The target grid, make_GLM_grids.py:207-279. -/
def targetGrid (lib : Lmatools) (a : Args) : Except Err Target :=
  if a.fixedGrid then do
    let (nadir, d, ctr, nx, ny) ← fixedGridSpec lib a
    let xBnd ← axisBounds nx d.1 ctr.1
    let yBnd ← axisBounds ny d.2 ctr.2
    let lonLat := lib.toLonLat nadir ctr.1 ctr.2
    pure { dx := d.1, dy := d.2, xBnd, yBnd, ctrLon := lonLat.1, ctrLat := lonLat.2,
           nadirLon := some nadir }
  else do
    let lat ← needNumber a.ctrLat
    let lon ← needNumber a.ctrLon
    let (dx, dy, xBnd, yBnd) := lib.dlonlat lat lon (a.dx * 1000) (a.dy * 1000)
      (-(1000 * a.width) / 2, 1000 * a.width / 2) (-(1000 * a.height) / 2, 1000 * a.height / 2)
    pure { dx, dy, xBnd, yBnd, ctrLon := lon, ctrLat := lat, nadirLon := none }

/-! ## The call -/

/-- `min_events` and `min_groups`, make_GLM_grids.py:158-163. -/
def threshold (n : Int) : Option Int := if n ≤ 1 then none else some n

/-- A threshold as the value of an option. -/
def thresholdVal (n : Int) : Val :=
  match threshold n with
  | some n => .nat n.toNat
  | none => .none

/-- `grid_kwargs`, make_GLM_grids.py:293-317. -/
def gridKwargs (a : Args) (date : DateTime) (t : Target) : Dict :=
  [("proj_name", .str (if a.fixedGrid then "geos" else "latlong")),
   ("base_date", .obj (toString (repr date))), ("do_3d", .bool false),
   ("dx", .num t.dx), ("dy", .num t.dy), ("frame_interval", .num a.dt),
   ("x_bnd", .bnd t.xBnd.1 t.xBnd.2), ("y_bnd", .bnd t.yBnd.1 t.yBnd.2),
   ("ctr_lat", .num t.ctrLat), ("ctr_lon", .num t.ctrLon), ("outpath", .str a.outdir),
   ("min_points_per_flash", thresholdVal a.minEvents),
   ("output_writer", .function (if a.fixedGrid then "write_cf_netcdf_fixedgrid" else "write_cf_netcdf_latlon")),
   ("subdivide", .nat a.subdivide), ("output_filename_prefix", .str "GLM"), ("output_kwargs", .shared),
   ("spatial_scale_factor", .num 1)] ++
  (match t.nadirLon with
   | some nadir => [("fixed_grid", .bool true), ("nadir_lon", .num nadir)]
   | none => []) ++
  (if a.splitEvents then [("clip_events", .bool true)] else []) ++
  (if (threshold a.minGroups).isSome then [("min_groups_per_flash", thresholdVal a.minGroups)] else []) ++
  [("energy_grids", .obj "('total_energy',)")] ++
  (if a.fixedGrid then [("pixel_coords", .obj "fixed grid")] else []) ++
  [("ellipse_rev", .num a.ellipseRev)]

/-- The result of `grid_setup`. -/
structure Setup where
  filenames : List Text
  startTime : DateTime
  endTime : DateTime
  kwargs : Dict
  /-- the dictionary `output_kwargs` -/
  shared : Dict

/-- `grid_setup`, make_GLM_grids.py:148-320. -/
def gridSetup (lib : Lmatools) (a : Args) : Except Err Setup := do
  let (startTime, endTime) ← timeSpan a.filenames a.start a.stop
  let date : DateTime := ⟨startTime.year, startTime.month, startTime.day, 0, 0, 0, 0⟩
  let target ← targetGrid lib a
  pure { filenames := a.filenames, startTime, endTime, kwargs := gridKwargs a date target,
         shared := [("scale_and_offset", .bool a.scaleAndOffset)] }

/-- The program, make_GLM_grids.py:322-329; `read` gives the files of the names, `G start end` is a gridder for the frames
between two times. -/
def mainProgram {σ ι : Type} (lib : Lmatools) (G : DateTime → DateTime → Gridder σ ι) (read : Text → GFile) (a : Args) :
    Except Err (List (TileRun σ ι) × Dict) := do
  let s ← gridSetup lib a
  gridGlmFlashes (G s.startTime s.endTime) (s.filenames.map read) s.kwargs s.shared

end Verif.Model
