import Verif.Model.Tiles

/-!
# `GridOutputPreprocess` of glmtools/grid/make_grids.py

The object that stands between a gridder and its output writer.  Model/Tiles has the trimming of one call; here are
the calls with all their arguments, the store, and `write_all`.
-/

namespace Verif.Model

open Verif.Py

/-- A positional argument of an output writer: something that can be sliced along one axis, along two, or not. -/
inductive WriterArg (α : Type) where
  | axis (l : List Rat)
  | grid (g : Grid)
  | other (a : α)

/-- A call of an output writer, `writer(*args, **kwargs)`. -/
structure WriterCall (α κ : Type) where
  args : List (WriterArg α)
  kwargs : κ

/-- `GridOutputPreprocess.__init__`, make_grids.py:720-724.  The lists `outargs` and `outkwargs` are one list, because
only `capture_write_call` changes them and it appends to both. -/
structure Capture (α κ : Type) where
  pads : Pads
  calls : List (WriterCall α κ) := []

/-- `args[k]` of a tuple. -/
def argAt {α : Type} (args : List (WriterArg α)) (k : Nat) : Except Err (WriterArg α) :=
  match args[k]? with
  | some a => .ok a
  | none => .error .indexError

/-- `coord[s]`.  Slicing anything else is taken to be a TypeError. -/
def WriterArg.sliceAxis {α : Type} (a : WriterArg α) (s : PySlice) : Except Err (WriterArg α) :=
  match a with
  | .axis l => .ok (.axis (s.apply l))
  | _ => .error .typeError

/-- `grid[xs, ys]`. -/
def WriterArg.sliceGrid {α : Type} (a : WriterArg α) (xs ys : PySlice) : Except Err (WriterArg α) :=
  match a with
  | .grid g => .ok (.grid (g.slice xs ys))
  | _ => .error .typeError

/-- `GridOutputPreprocess.capture_write_call`, make_grids.py:738-749. -/
def Capture.captureWriteCall {α κ : Type} (c : Capture α κ) (call : WriterCall α κ) : Except Err (Capture α κ) := do
  let xCoord ← argAt call.args 3
  let yCoord ← argAt call.args 4
  let grid ← argAt call.args 9
  let (xSlice, ySlice) := getPadSlices c.pads
  let x ← xCoord.sliceAxis xSlice
  let y ← yCoord.sliceAxis ySlice
  let g ← grid.sliceGrid xSlice ySlice
  let args := call.args.take 3 ++ x :: y :: (slice call.args 5 9 ++ g :: call.args.drop 10)
  pure { c with calls := c.calls ++ [⟨args, call.kwargs⟩] }

/-- The loop of `write_all`, make_grids.py:754-756.  A writer changes the state of the world and may raise; `outargs[0]`
of a call without arguments is an IndexError, after the call. -/
def writeCalls {α κ σ : Type} (writer : WriterCall α κ → σ → σ × Option Err) :
    List (WriterCall α κ) → σ → List (WriterArg α) → σ × Except Err (List (WriterArg α))
  | [], w, outfiles => (w, .ok outfiles)
  | call :: rest, w, outfiles =>
    match writer call w with
    | (w', some e) => (w', .error e)
    | (w', none) =>
      match argAt call.args 0 with
      | .error e => (w', .error e)
      | .ok name => writeCalls writer rest w' (outfiles ++ [name])

/-- `GridOutputPreprocess.write_all`, make_grids.py:751-757. -/
def Capture.writeAll {α κ σ : Type} (c : Capture α κ) (writer : Option (WriterCall α κ → σ → σ × Option Err)) (w : σ) :
    σ × Except Err (List (WriterArg α)) :=
  match writer with
  | some f => writeCalls f c.calls w []
  | none => (w, .ok [])

end Verif.Model
