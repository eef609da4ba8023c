import Verif.Model.LassoGrid
import Verif.Model.Aggregate

/-!
# glmtools/io/imagery.py: the metadata of an image file

The attributes and variables that go into a file besides the images themselves.  Encodings (compression, storage
types) are not repeated here.
-/

namespace Verif.Model

open Verif.Py

/-! ## Times -/

/-- One day in microseconds. -/
def microDay : Nat := 86400000000

/-- The microseconds since midnight. -/
def microOfDay (t : DateTime) : Nat :=
  ((t.hour * 60 + t.minute) * 60 + t.second) * 1000000 + t.microsecond

/-- The days before a year, counted from the year 1. -/
def daysBefore : Nat → Nat
  | 0 => 0
  | y + 1 => daysBefore y + if y = 0 then 0 else (monthLengths y).sum

/-- The microseconds since the start of the year 1. -/
def microOf (t : DateTime) : Nat :=
  (daysBefore t.year + dayOfYear t.year t.month t.day - 1) * microDay + microOfDay t

/-- The year and the day in it (from 0) of a day that is counted from the first of a year. -/
def findYear : Nat → Nat → Nat → Option (Nat × Nat)
  | 0, _, _ => none
  | fuel + 1, y, n =>
    if n < (monthLengths y).sum then some (y, n) else findYear fuel (y + 1) (n - (monthLengths y).sum)

/-- The time that is a number of microseconds after the start of the year 1.  Years outside of 1 to 9999 are an
OverflowError. -/
def ofMicro (n : Int) : Except Err DateTime :=
  if n < 0 then .error .overflowError
  else
    let days := n.toNat / microDay
    let rest := n.toNat % microDay
    match findYear 9999 1 days with
    | none => .error .overflowError
    | some (y, k) => do
      let ymd ← fromYday y (k + 1)
      let s := rest / 1000000
      pure ⟨ymd.1, ymd.2.1, ymd.2.2, s / 3600, s / 60 % 60, s % 60, rest % 1000000⟩

/-- `t_ref + timedelta(0, seconds)`, imagery.py:499-500: rounded to the nearest microsecond, ties to even. -/
def addTimedelta (tRef : DateTime) (seconds : Rat) : Except Err DateTime :=
  ofMicro ((microOf tRef : Int) + npAround (seconds * 1000000))

/-! ## Variables -/

/-- The value of an attribute of a variable. -/
inductive Attr
  | text (s : String)
  | num (r : Rat)
  | nums (l : List Int)
  deriving DecidableEq

/-- A variable of a file.  A scalar has no dimensions and is represented by an image of one pixel. -/
structure NcVar where
  dims : List String
  data : Image
  attrs : List (String × Attr)

/-- A number as data. -/
def scalar (v : Rat) : Image := ⟨1, 1, fun _ _ => v⟩

/-- `get_goes_imager_subpoint_vars`, imagery.py:88-114: longitude and latitude. -/
def subpointVars (nadirLon : Rat) : NcVar × NcVar :=
  (⟨[], scalar nadirLon,
    [("long_name", .text "nominal satellite subpoint longitude (platform longitude)"),
     ("standard_name", .text "longitude"), ("units", .text "degrees_east")]⟩,
   ⟨[], scalar 0,
    [("long_name", .text "nominal satellite subpoint latitude (platform latitude)"),
     ("standard_name", .text "latitude"), ("units", .text "degrees_north")]⟩)

/-- `get_goes_imager_proj`, imagery.py:116-136. -/
def projVar (nadirLon : Rat) : NcVar :=
  ⟨[], scalar (-2147483647),
    [("long_name", .text "GOES-R ABI fixed grid projection"), ("grid_mapping_name", .text "geostationary"),
     ("perspective_point_height", .num 35786023), ("semi_major_axis", .num 6378137),
     ("semi_minor_axis", .num (635675231414 / 100000)), ("inverse_flattening", .num (2982572221 / 10000000)),
     ("latitude_of_projection_origin", .num 0), ("longitude_of_projection_origin", .num nadirLon),
     ("sweep_angle_axis", .text "x")]⟩

/-- `get_goes_imager_all_valid_dqf`, imagery.py:138-164. -/
def dqfVar (dims : List String) (rows cols : Nat) : NcVar :=
  ⟨dims, ⟨rows, cols, fun _ _ => 0⟩,
    [("grid_mapping", .text "goes_imager_projection"), ("number_of_qf_values", .nums [6]), ("units", .text "1"),
     ("standard_name", .text "status_flag"), ("long_name", .text "GLM data quality flags"),
     ("flag_values", .nums [0, 1]), ("flag_meanings", .text "valid, invalid")]⟩

/-- The variable made by `glm_image_to_var`, imagery.py:354-360; the change of the data is in `writeField`. -/
def imageVar (data : Image) (name longName units : String) (dims : List String) : NcVar :=
  ⟨dims, data, [("standard_name", .text name), ("long_name", .text longName), ("units", .text units),
    ("grid_mapping", .text "goes_imager_projection")]⟩

/-- `d[name] = value` of a dictionary. -/
def assign {α : Type} (d : List (String × α)) (name : String) (v : α) : List (String × α) :=
  if d.any (·.1 = name) then d.map fun e => if e.1 = name then (name, v) else e else d ++ [(name, v)]

/-- The variables of `new_goes_imagery_dataset`, imagery.py:379-394, without the coordinates. -/
def newDataset (rows cols : Nat) (nadirLon : Rat) : List (String × NcVar) :=
  [("goes_imager_projection", projVar nadirLon), ("DQF", dqfVar ["y", "x"] rows cols),
   ("nominal_satellite_subpoint_lat", (subpointVars nadirLon).2),
   ("nominal_satellite_subpoint_lon", (subpointVars nadirLon).1)]

/-! ## Attributes of the file -/

/-- The attributes of the first level 2 file that are copied, `gridder.first_file_attrs`, imagery.py:511-515. -/
structure FirstFile where
  platform : Text
  slot : Text
  instrument : Text

/-- The decimal digits of a number: `'{:d}'.format(n)`. -/
def decimal (n : Int) : Text := (toString n).toList

/-- `s.replace('.0', '')`. -/
def removePointZero : Text → Text
  | '.' :: '0' :: rest => removePointZero rest
  | c :: rest => c :: removePointZero rest
  | [] => []

/-- The text of a resolution, imagery.py:432-435. -/
def resolutionText : Resolution → Text
  | .known km => removePointZero km.toList ++ " at nadir".toList
  | .microradians n => decimal n ++ "microradian at nadir".toList

/-- `modes`, imagery.py:257. -/
def modes : List (String × String) := [("ABI Mode 3", "M3")]

/-- `get_glm_global_attrs`, imagery.py:234-313. -/
def globalAttrs (start stop created : DateTime) (first : FirstFile) (scene : Scene) (resolution : Text)
    (timeline prodEnv prodSrc prodSite : String) : Except Err (List (String × Text)) := do
  -- the only mode is M3, which is part of `datasetName`
  if modes.lookup timeline = none then throw .keyError
  let names ← sceneAttrs scene
  pure
    [("cdm_data_type", "Image".toList),
     ("Conventions", "CF-1.7".toList),
     ("id", "93cb84a3-31ef-4823-89f5-c09d88fc89e8".toList),
     ("institution", "DOC/NOAA/NESDIS > U.S. Department of Commerce, National Oceanic and Atmospheric Administration, National Environmental Satellite, Data, and Information Services".toList),
     ("instrument_type", "GOES R Series Geostationary Lightning Mapper".toList),
     ("iso_series_metadata_id", "f5816f53-fd6d-11e3-a3ac-0800200c9a66".toList),
     ("keywords", "ATMOSPHERE > ATMOSPHERIC ELECTRICITY > LIGHTNING, ATMOSPHERE > ATMOSPHERIC PHENOMENA > LIGHTNING".toList),
     ("keywords_vocabulary", "NASA Global Change Master Directory (GCMD) Earth Science Keywords, Version 7.0.0.0.0".toList),
     ("license", "Unclassified data.  Access is restricted to approved users only.".toList),
     ("Metadata_Conventions", "Unidata Dataset Discovery v1.0".toList),
     ("naming_authority", "gov.nesdis.noaa".toList),
     ("processing_level", "National Aeronautics and Space Administration (NASA) L2".toList),
     ("project", "GOES".toList),
     ("standard_name_vocabulary", "CF Standard Name Table (v25, 05 July 2013)".toList),
     ("summary", "The Lightning Detection Gridded product generates fields starting from the GLM Lightning Detection Events, Groups, Flashes product.  It consists of flash extent density, event density, average flash area, average group area, total energy, flash centroid density, and group centroid density.".toList),
     ("title", "GLM L2 Lightning Detection Gridded Product".toList),
     ("dataset_name", datasetName names.1.toList first.platform start stop created),
     ("date_created", isoformat 'T' created ++ ['Z']),
     ("instrument_ID", first.instrument),
     ("orbital_slot", first.slot),
     ("platform_ID", first.platform),
     ("production_data_source", prodSrc.toList),
     ("production_environment", prodEnv.toList),
     ("production_site", prodSite.toList),
     ("scene_id", names.2.toList),
     ("spatial_resolution", resolution),
     ("time_coverage_end", isoformat 'T' stop ++ ['Z']),
     ("time_coverage_start", isoformat 'T' start ++ ['Z']),
     ("timeline_id", timeline.toList)]

/-! ## The file -/

/-- A file with its metadata. -/
structure NcFile where
  path : Text
  x : List Rat
  y : List Rat
  attrs : List (String × Text)
  vars : List (String × NcVar)

/-- What `write_goes_imagery` knows besides the grids: the time to which the frames refer, the time of the call, the
longitude of the satellite, the first file, and the tables of `output_setup`. -/
structure MetaSetup where
  tRef : DateTime
  nadirLon : Rat
  first : FirstFile
  descriptions : List String
  units : List String

/-- One turn of the loop over the fields, imagery.py:543-552.  An image whose size does not match the coordinates is a
ValueError. -/
def addField (rows cols : Nat) (d : List (String × NcVar)) (f : (String × Image) × String × String) :
    Except Err (List (String × NcVar)) :=
  if f.1.2.rows = rows ∧ f.1.2.cols = cols then
    .ok (assign d f.1.1 (imageVar f.1.2 f.1.1 f.2.1 f.2.2 ["y", "x"]))
  else .error .valueError

/-- The metadata of one file, imagery.py:500-567, given its images; `created` is the time of the call and the path is
that of the default template. -/
def describeFile (s : MetaSetup) (created : DateTime) (f : ImageFile) : Except Err NcFile := do
  let start ← addTimedelta s.tRef f.start
  let stop ← addTimedelta s.tRef f.stop
  let attrs ← globalAttrs start stop created s.first f.scene (resolutionText f.resolution) "ABI Mode 3" "DE"
    "Postprocessed" "TTU"
  let name ← match attrs.lookup "dataset_name" with
    | some n => Except.ok n
    | none => .error .keyError
  let vars ← (f.fields.zip (s.descriptions.zip s.units)).foldlM (addField f.y.length f.x.length)
    (newDataset f.y.length f.x.length s.nadirLon)
  pure ⟨"./".toList ++ name, f.x, f.y, attrs, vars⟩

/-- `d.attrs[name]` -/
def NcFile.attr (f : NcFile) (name : String) : Except Err Text :=
  match f.attrs.lookup name with
  | some t => .ok t
  | none => .error .keyError

/-- The times of a file in `gen_file_times`, imagery.py:663-668, for both attributes; `stamp` stands for
`pd.Timestamp(text).tz_localize(None)`, in nanoseconds.  `value` are the values that are read from the file. -/
def openFile (stamp : Text → Except Err Int) (value : NcFile → String → FrameValues) (f : NcFile) :
    Except Err ImageData := do
  let start ← stamp (← f.attr "time_coverage_start")
  let stop ← stamp (← f.attr "time_coverage_end")
  pure ⟨start, stop, value f⟩

end Verif.Model
