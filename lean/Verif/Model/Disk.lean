import Verif.Model.Template
import Verif.Model.Writing

/-!
# From the images of a call to the files on the disk

`write_goes_imagery` (`glmtools/io/imagery.py`) put together from its parts: metadata, path and file system.
-/

namespace Verif.Model

open Verif.Py

/-- The images of a call in the order in which they are written: tile after tile, make_grids.py:838. -/
def imagesOf {σ : Type} (runs : List (TileRun σ ImageFile)) : List ImageFile :=
  runs.flatMap fun r => r.written.map Prod.snd

/-- The template of the paths of a call: its option `outpath` or the default, make_grids.py:599-607, 809-812.
Simplification: an option that is not a text, which has no `format`, counts as the default. -/
def outpathOf (kwargs : Dict) : Text :=
  match kwargs.get "outpath" with
  | .ok (.str t) => t.toList
  | _ => "./{dataset_name}".toList

/-- The data set of an image with its path, imagery.py:500-567; `template` is `outpath`.  Simplification: the path is made
after the fields (imagery.py:522-523 come before), which makes a difference only to the exception that is raised if both
fail. -/
def describeAt (o : FormatOthers) (template : Text) (m : MetaSetup) (created : DateTime) (f : ImageFile) :
    Except Err NcFile := do
  let start ← addTimedelta m.tRef f.start
  let stop ← addTimedelta m.tRef f.stop
  let nc ← describeFile m created f
  let path ← formatTemplate o template start stop (← nc.attr "dataset_name")
  pure { nc with path }

/-- The data sets of a call with their paths, imagery.py:500-567.  `clock k` is `datetime.now()` for image `k`,
imagery.py:256. -/
def datasetJobs (o : FormatOthers) (template : Text) (m : MetaSetup) (clock : Nat → DateTime) (images : List ImageFile) :
    Except Err (List (Text × NcFile)) :=
  images.zipIdx.mapM fun q => do
    let nc ← describeAt o template m (clock q.2) q.1
    pure (nc.path, nc)

/-- The file system after the images of a call have been written, imagery.py:521-566; four steps are enough for a file
(`writerStep`).  Gridding does not look at image files, so it makes no difference that here all images are made before the
first is written; what is on the disk when a call fails is the subject of `callTrace`. -/
def writeDatasets (o : FormatOthers) (template : Text) (m : MetaSetup) (clock : Nat → DateTime) (fs : FileSystem NcFile)
    (images : List ImageFile) : Except Err (FileSystem NcFile) := do
  let jobs ← datasetJobs o template m clock images
  let out := writerRun (4 * jobs.length) fs (startWriter jobs)
  match out.2.failed with
  | some e => .error e
  | none => .ok out.1

end Verif.Model
