import Verif.Model.Ccd

/-!
# Model of `glmtools/io/ccd.py`: files with the positions of pixels, pickled tables, queries

The nearest neighbour search of scikit-learn and pickle are parameters.
-/

namespace Verif.Model

open Verif.Py

/-- `read_pixel_location_mat_file(filename, lat_var, lon_var)`, ccd.py:152-170: longitudes and latitudes as masked
arrays.  `nav` is the content of the file; `none` is NaN, the value below the mask does not matter.  A missing name is
an AttributeError (`NoSuchNodeError` of pytables). -/
def readPixelLocationMatFile (nav : String → Option (List (List (Option Rat)))) (latVar lonVar : String) :
    Except Err (MaskedArr × MaskedArr) := do
  let get := fun name => match nav name with
    | some a => Except.ok a
    | none => Except.error Err.attributeError
  let lats ← get latVar
  let lons ← get lonVar
  let isnan := fun (a : List (List (Option Rat))) => a.map (List.map Option.isNone)
  pure (⟨lons.map (List.map fun v => v.getD 0 - 360), some (isnan lons)⟩,
    ⟨lats.map (List.map fun v => v.getD 0), some (isnan lats)⟩)

/-- The query of the docstring of `create_pixel_lookup`, ccd.py:189-192: `test_events` holds pairs
(latitude, longitude); the result is the pair of pixel ids for each.  `query` is `KDTree.query` for one
point: the number of a point of the tree. -/
def documentedQuery (query : List Pt → Pt → Nat) (l : PixelLookup) (testEvents : List (Rat × Rat)) :
    List (Nat × Nat) :=
  testEvents.map fun e => (l.xIdx.getD (query l.points e) 0, l.yIdx.getD (query l.points e) 0)

/-! ## Pickles -/

/-- What is pickled in ccd.py:220-268. -/
inductive Saved
  | array (a : List (List Rat))
  | masked (a : MaskedArr)
  | corners (c : List (List (List Pt)))
  | tree (points : List Pt)
  | index (l : List Nat)

/-- `if filename: ... pickle.dump(obj, f) else: return pickle.dumps(obj)`, ccd.py:226-230, 253-257: the files
afterwards, and what is returned.  A file is a pickle of type `β`; paths that cannot be written are not considered. -/
def savePickle {β : Type} (dumps : List Saved → β) (obj : List Saved) (filename : Option String)
    (files : String → Option β) : (String → Option β) × Option β :=
  match filename with
  | none => (files, some (dumps obj))
  | some f =>
    if f = "" then (files, some (dumps obj))
    else ((fun g => if g = f then some (dumps obj) else files g), none)

/-- `with open(filename, 'rb') as f: obj = pickle.load(f)`, ccd.py:238-240, 264-266. -/
def loadPickle {β : Type} (loads : β → List Saved) (files : String → Option β) (filename : String) :
    Except Err (List Saved) :=
  match files filename with
  | some b => .ok (loads b)
  | none => .error .fileNotFoundError

/-- `save_pixel_corner_lookup(lons, lats, corners, filename)`, ccd.py:220-230. -/
def savePixelCornerLookup {β : Type} (dumps : List Saved → β) (lons lats : List (List Rat))
    (corners : List (List (List Pt))) (filename : Option String) (files : String → Option β) :
    (String → Option β) × Option β :=
  savePickle dumps [.array lons, .array lats, .corners corners] filename files

/-- `load_pixel_corner_lookup(filename)`, ccd.py:232-240. -/
def loadPixelCornerLookup {β : Type} (loads : β → List Saved) (files : String → Option β) (filename : String) :
    Except Err (List Saved) := loadPickle loads files filename

/-- `save_pixel_lookup(lookup, X, Y, lons, lats, filename)`, ccd.py:245-257. -/
def savePixelLookup {β : Type} (dumps : List Saved → β) (l : PixelLookup) (lons lats : MaskedArr)
    (filename : Option String) (files : String → Option β) : (String → Option β) × Option β :=
  savePickle dumps [.tree l.points, .index l.xIdx, .index l.yIdx, .masked lons, .masked lats] filename files

/-- `load_pixel_lookup(filename)`, ccd.py:259-267. -/
def loadPixelLookup {β : Type} (loads : β → List Saved) (files : String → Option β) (filename : String) :
    Except Err (List Saved) := loadPickle loads files filename

/-- Assignment of a tuple to three names, as for the result of `create_pixel_lookup` (ccd.py:218) and as in
mimic_lma.py:167. -/
def unpack3 {β : Type} : List β → Except Err (β × β × β)
  | [a, b, c] => .ok (a, b, c)
  | _ => .error .valueError

end Verif.Model
