import Verif.Model.Names
import Verif.Model.Driver

/-!
# Writing image files, one step at a time

`write_goes_imagery` (`glmtools/io/imagery.py`) as the sequence of its effects on the file system, so that
it can be stopped between any two of them, and so that several programs can take turns.  And
`grid_GLM_flashes` (`glmtools/grid/make_grids.py`) with the files that are there when it raises an exception.
-/

namespace Verif.Model

open Verif.Py

/-- A file: one that has been opened for writing and not been closed, or one that holds an image. -/
inductive Stored (ι : Type)
  | broken
  | whole (image : ι)
  deriving DecidableEq, Repr

/-- The file system, as far as the writer of images looks at it: the directories, and the files by their paths.
Paths are compared as texts. -/
structure FileSystem (ι : Type) where
  dirs : List Text
  file : Text → Option (Stored ι)

/-- The file system after something was stored under a path. -/
def FileSystem.store {ι : Type} (fs : FileSystem ι) (path : Text) (s : Stored ι) : FileSystem ι where
  dirs := fs.dirs
  file := fun p => if p = path then some s else fs.file p

/-- A directory with the directories above it, the ones that `os.makedirs` makes if they are missing.  At most
`fuel` of them. -/
def upward : Nat → Text → List Text
  | 0, _ => []
  | fuel + 1, d => if d = [] then [] else d :: upward fuel (dirname d)

/-- Where the writer of one file is, imagery.py:521-566: before `os.path.exists(enclosing_dir)`, before
`os.makedirs(enclosing_dir)`, before `dataset.to_netcdf(outfile)` opens the file, before it closes it. -/
inductive Point
  | look
  | make
  | openIt
  | closeIt
  deriving DecidableEq, Repr

/-- A program that writes image files: where it is, the files it has still to write (path and image; the first is the one at
work) and the exception that ended it. -/
structure Writer (ι : Type) where
  point : Point
  jobs : List (Text × ι)
  failed : Option Err

/-- The loop of `write_goes_imagery` over the frames, imagery.py:498-567, before its first turn.  The tiles of a call
are written one after the other (make_grids.py:838), so the jobs of a call are those of its tiles, in order. -/
def startWriter {ι : Type} (jobs : List (Text × ι)) : Writer ι := ⟨.look, jobs, none⟩

/-- The next effect of a program that writes image files, imagery.py:521-566.  Nothing more happens after the last
file or an exception.  `os.path.exists('')` is False and `os.makedirs('')` is a FileNotFoundError; `os.makedirs` of a
directory that is there is a FileExistsError (an intermediate directory that comes into being meanwhile is not).  What
is computed in between has no effect on the file system.  A file takes its final path as soon as it is opened, and
what was there is lost.  Simplification: paths that are directories, such as those that end with a slash, can be opened. -/
def writerStep {ι : Type} (fs : FileSystem ι) (w : Writer ι) : FileSystem ι × Writer ι :=
  match w.failed, w.jobs with
  | none, (path, image) :: rest =>
    let enclosing := dirname path
    match w.point with
    | .look =>
      if enclosing ≠ [] ∧ enclosing ∈ fs.dirs then (fs, ⟨.openIt, w.jobs, none⟩) else (fs, ⟨.make, w.jobs, none⟩)
    | .make =>
      if enclosing = [] then (fs, ⟨.make, w.jobs, some .fileNotFoundError⟩)
      else if enclosing ∈ fs.dirs then (fs, ⟨.make, w.jobs, some .fileExistsError⟩)
      else (⟨upward enclosing.length enclosing ++ fs.dirs, fs.file⟩, ⟨.openIt, w.jobs, none⟩)
    | .openIt =>
      if enclosing ∈ fs.dirs then (fs.store path .broken, ⟨.closeIt, w.jobs, none⟩)
      else (fs, ⟨.openIt, w.jobs, some .fileNotFoundError⟩)
    | .closeIt => (fs.store path (.whole image), ⟨.look, rest, none⟩)
  | _, _ => (fs, w)

/-- The program after `n` effects. -/
def writerRun {ι : Type} : Nat → FileSystem ι → Writer ι → FileSystem ι × Writer ι
  | 0, fs, w => (fs, w)
  | n + 1, fs, w => writerRun n (writerStep fs w).1 (writerStep fs w).2

/-- Several programs that take turns: the schedule says whose effect is next. -/
def takeTurns {ι : Type} : List Nat → FileSystem ι → List (Writer ι) → FileSystem ι × List (Writer ι)
  | [], fs, ws => (fs, ws)
  | i :: schedule, fs, ws =>
    match ws[i]? with
    | some w => takeTurns schedule (writerStep fs w).1 (ws.set i (writerStep fs w).2)
    | none => takeTurns schedule fs ws

/-- `list(map(proc_each_grid, subgrids))`, make_grids.py:838, with what has been written when it ends, and the
exception that ended it.  A tile is written when all files have been read for it. -/
def procTrace {σ ι : Type} (G : Gridder σ ι) (files : List GFile) :
    Dict → List Subgrid → List (String × ι) × Option Err
  | _, [] => ([], none)
  | shared, g :: rest =>
    match procEachGrid G files shared g with
    | .error e => ([], some e)
    | .ok (run, shared) =>
      let after := procTrace G files shared rest
      (run.written ++ after.1, after.2)

/-- `grid_GLM_flashes`, make_grids.py:761-842, with what has been written when it ends, and the exception that ended
it. -/
def callTrace {σ ι : Type} (G : Gridder σ ι) (files : List GFile) (kwargs shared : Dict) :
    List (String × ι) × Option Err :=
  match subgridsFor (splitKwargs kwargs) with
  | .error e => ([], some e)
  | .ok subgrids => procTrace G files shared subgrids

end Verif.Model
