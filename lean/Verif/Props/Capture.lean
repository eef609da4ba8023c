import Verif.Model.Capture
import Verif.Props.Tiles
import Mathlib.Tactic.Linarith

/-!
# The writer calls of a tile (C120)

The object that takes the place of the output writer keeps the calls of the gridder and makes them later: all of them,
once, in order, with the arguments of the gridder except for the two axes and the grid, from which the padding is
removed.
-/

namespace Verif.Props

open Verif.Model Verif.Py

/-- The middle of an axis, without `p` points on each side. -/
def middle {β : Type} (p : Nat) (l : List β) : List β := (l.drop p).take (l.length - 2 * p)

/-- A call as the gridders of lmatools make it: three arguments, the axes, four arguments, the grid, and possibly more. -/
structure GridCall (α κ : Type) where
  a0 : WriterArg α
  a1 : WriterArg α
  a2 : WriterArg α
  x : List Rat
  y : List Rat
  b0 : WriterArg α
  b1 : WriterArg α
  b2 : WriterArg α
  b3 : WriterArg α
  grid : Grid
  more : List (WriterArg α)
  kwargs : κ

/-- The call with its arguments in their places. -/
def GridCall.call {α κ : Type} (c : GridCall α κ) : WriterCall α κ :=
  ⟨[c.a0, c.a1, c.a2, .axis c.x, .axis c.y, c.b0, c.b1, c.b2, c.b3, .grid c.grid] ++ c.more, c.kwargs⟩

/-- The same call without the padding of `p` columns and `q` rows on each side. -/
def GridCall.trimmed {α κ : Type} (p q : Nat) (c : GridCall α κ) : GridCall α κ :=
  { c with
    x := middle p c.x
    y := middle q c.y
    grid := ⟨c.grid.n0 - 2 * p, c.grid.n1 - 2 * q, fun i j => c.grid.val (p + i) (q + j)⟩ }

/-- What the gridder does: it calls what it believes to be the writer, call by call. -/
def captureAll {α κ : Type} : List (WriterCall α κ) → Capture α κ → Except Err (Capture α κ)
  | [], c => .ok c
  | x :: xs, c => c.captureWriteCall x >>= captureAll xs

/-- What a writer that does not raise makes of a list of calls. -/
def runWriter {α κ σ : Type} (f : WriterCall α κ → σ → σ) (cs : List (WriterCall α κ)) (w : σ) : σ :=
  cs.foldl (fun w c => f c w) w

theorem padSlice_pos (p n : Nat) :
    (if (p : Int) = 0 then (⟨none, none⟩ : PySlice) else ⟨some p, some (-(p : Int))⟩).bounds n =
      (min n p, n - p) := by
  by_cases h : (p : Int) = 0
  · rw [if_pos h]
    have : p = 0 := by omega
    subst this
    simp [PySlice.bounds]
  · rw [if_neg h]
    unfold PySlice.bounds clampIndex
    simp only [Option.map_some, Option.getD_some]
    rw [if_neg (by omega), if_pos (by omega)]
    congr 1 <;> omega

theorem apply_middle {β : Type} (p : Nat) (l : List β) :
    (if (p : Int) = 0 then (⟨none, none⟩ : PySlice) else ⟨some p, some (-(p : Int))⟩).apply l = middle p l := by
  unfold PySlice.apply middle slice
  rw [padSlice_pos]
  simp only
  by_cases h : p ≤ l.length
  · rw [min_eq_right h]
    congr 1
    omega
  · have h1 : l.length - p - min l.length p = 0 := by omega
    have h2 : l.length - 2 * p = 0 := by omega
    rw [h1, h2]
    simp

/-- One call.  The grid has to be at least as large as the padding that was added to it. -/
theorem capture_one {α κ : Type} (c : Capture α κ) (p q : Nat) (hx : c.pads.nx = p) (hy : c.pads.ny = q)
    (g : GridCall α κ) (h0 : 2 * p ≤ g.grid.n0) (h1 : 2 * q ≤ g.grid.n1) :
    c.captureWriteCall g.call = .ok { c with calls := c.calls ++ [(g.trimmed p q).call] } := by
  have hs : g.grid.slice (getPadSlices c.pads).1 (getPadSlices c.pads).2 =
      ⟨g.grid.n0 - 2 * p, g.grid.n1 - 2 * q, fun i j => g.grid.val (p + i) (q + j)⟩ := by
    unfold Grid.slice getPadSlices
    simp only [hx, hy, padSlice_pos]
    congr 1
    · omega
    · omega
    · funext i j
      rw [min_eq_right (by omega), min_eq_right (by omega)]
  have hxs : (getPadSlices c.pads).1.apply g.x = middle p g.x := by
    unfold getPadSlices; simp only [hx]; exact apply_middle p g.x
  have hys : (getPadSlices c.pads).2.apply g.y = middle q g.y := by
    unfold getPadSlices; simp only [hy]; exact apply_middle q g.y
  unfold Capture.captureWriteCall GridCall.call GridCall.trimmed
  simp [argAt, WriterArg.sliceAxis, WriterArg.sliceGrid, slice, bind, Except.bind, pure, Except.pure, hxs, hys, hs]

theorem captureAll_ok {α κ : Type} (p q : Nat) : ∀ (gs : List (GridCall α κ)) (c : Capture α κ),
    c.pads.nx = p → c.pads.ny = q → (∀ g ∈ gs, 2 * p ≤ g.grid.n0 ∧ 2 * q ≤ g.grid.n1) →
    captureAll (gs.map GridCall.call) c =
      .ok { c with calls := c.calls ++ gs.map fun g => (g.trimmed p q).call }
  | [], c, _, _, _ => by simp [captureAll]
  | g :: gs, c, hx, hy, h => by
    simp only [List.map_cons, captureAll]
    rw [capture_one c p q hx hy g (h g (by simp)).1 (h g (by simp)).2]
    show captureAll _ _ = _
    rw [captureAll_ok p q gs _ (by exact hx) (by exact hy) (fun g' hg => h g' (by simp [hg]))]
    simp

theorem writeCalls_ok {α κ σ : Type} (f : WriterCall α κ → σ → σ) : ∀ (gs : List (GridCall α κ)) (w : σ)
    (out : List (WriterArg α)),
    writeCalls (fun c w => (f c w, none)) (gs.map GridCall.call) w out =
      (runWriter f (gs.map GridCall.call) w, .ok (out ++ gs.map fun g => g.a0))
  | [], w, out => by simp [writeCalls, runWriter]
  | g :: gs, w, out => by
    simp only [List.map_cons, writeCalls]
    have : argAt g.call.args 0 = .ok g.a0 := rfl
    rw [this]
    simp only
    rw [writeCalls_ok f gs]
    simp [runWriter]

/-- C120: whatever calls the gridder makes of the writer it was given, nothing is written until `write_all`; then the
real writer is called once for each of them, in order, with the same arguments, keywords included, except that the
axes and the grid have lost the padding; and the names are returned in order. -/
theorem C120_writes {α κ σ : Type} (f : WriterCall α κ → σ → σ) (pads : Pads) (p q : Nat) (hx : pads.nx = p)
    (hy : pads.ny = q) (gs : List (GridCall α κ)) (hg : ∀ g ∈ gs, 2 * p ≤ g.grid.n0 ∧ 2 * q ≤ g.grid.n1) (w : σ) :
    ∃ c, captureAll (gs.map GridCall.call) ⟨pads, []⟩ = .ok c ∧
      c.writeAll (some fun call w => (f call w, none)) w =
        (runWriter f (gs.map fun g => (g.trimmed p q).call) w, .ok (gs.map fun g => g.a0)) ∧
      c.writeAll (none : Option (WriterCall α κ → σ → σ × Option Err)) w = (w, .ok []) := by
  refine ⟨_, captureAll_ok p q gs _ hx hy hg, ?_, rfl⟩
  unfold Capture.writeAll
  simp only [List.nil_append]
  have := writeCalls_ok f (gs.map (GridCall.trimmed p q)) w []
  rw [List.map_map, List.map_map] at this
  simpa [Function.comp_def, GridCall.trimmed] using this

/-- If the writer raises at a call, the calls before it have been made, it has been made, and none after it. -/
theorem C120_raises {α κ σ : Type} (f : WriterCall α κ → σ → σ × Option Err) (pads : Pads)
    (before after : List (GridCall α κ)) (bad : GridCall α κ) (e : Err)
    (hb : ∀ g ∈ before, ∀ w, (f g.call w).2 = none) (hbad : ∀ w, (f bad.call w).2 = some e) (w : σ) :
    (⟨pads, (before ++ bad :: after).map GridCall.call⟩ : Capture α κ).writeAll (some f) w =
      (runWriter (fun c w => (f c w).1) ((before ++ [bad]).map GridCall.call) w, .error e) := by
  unfold Capture.writeAll
  have key : ∀ (l : List (GridCall α κ)) (w : σ) (out : List (WriterArg α)),
      (∀ g ∈ l, ∀ w, (f g.call w).2 = none) →
      writeCalls f ((l ++ bad :: after).map GridCall.call) w out =
        (runWriter (fun c w => (f c w).1) ((l ++ [bad]).map GridCall.call) w, .error e) := by
    intro l
    induction l with
    | nil =>
      intro w out _
      simp only [List.nil_append, List.map_cons, List.map_nil, writeCalls, runWriter, List.foldl_cons, List.foldl_nil]
      have := hbad w
      rcases hf : f bad.call w with ⟨w', o⟩
      rw [hf] at this
      simp only at this
      subst this
      rfl
    | cons g l ih =>
      intro w out h
      simp only [List.cons_append, List.map_cons, writeCalls]
      have h1 := h g (by simp) w
      rcases hf : f g.call w with ⟨w', o⟩
      rw [hf] at h1
      simp only at h1
      subst h1
      have h2 : argAt g.call.args 0 = .ok g.a0 := rfl
      simp only [h2]
      rw [ih w' _ (fun g' hg => h g' (by simp [hg]))]
      simp [runWriter, hf]
  exact key before w [] hb

/-- The call that the gridder makes for an image of 4 by 3 boxes, one of them padding on each side of x. -/
def exCall (name : String) : GridCall String Nat :=
  ⟨.other name, .other "extent", .other "2018-07-02", [0, 1, 2, 3], [5, 6, 7], .other "lon", .other "lat", .other "alt",
    .other "units", ⟨4, 3, fun i j => 10 * i + j⟩, [.other "description"], 7⟩

/-- Two such calls meet the hypotheses of `C120_writes`; the axes that reach the writer are those of the tile. -/
example : (∀ g ∈ [exCall "a.nc", exCall "b.nc"], 2 * 1 ≤ g.grid.n0 ∧ 2 * 0 ≤ g.grid.n1) ∧
    ((exCall "a.nc").trimmed 1 0).x = [1, 2] ∧ ((exCall "a.nc").trimmed 1 0).y = [5, 6, 7] ∧
    ((exCall "a.nc").trimmed 1 0).grid.n0 = 2 ∧ ((exCall "a.nc").trimmed 1 0).grid.val 1 2 = 22 := by
  refine ⟨?_, by decide +kernel, by decide +kernel, rfl, by decide +kernel⟩
  intro g hg
  simp only [List.mem_cons, List.not_mem_nil, or_false] at hg
  rcases hg with rfl | rfl <;> decide

/-- A writer that fails for one file: the files before it are written. -/
example :
    ((⟨⟨0, 0, 0, 0⟩, [exCall "a.nc", exCall "b.nc", exCall "c.nc"].map GridCall.call⟩ : Capture String Nat).writeAll
      (some fun call (w : List String) =>
        match call.args.head? with
        | some (.other "b.nc") => (w, some .valueError)
        | some (.other s) => (w ++ [s], none)
        | _ => (w, none)) []).1 = ["a.nc"] := by decide

end Verif.Props
