import Verif.Model.LonLat2D

/-!
# C144: longitudes and latitudes of the pixels of an image
-/

namespace Verif.Props

open Verif.Py Verif.Model

/-- The longitudes and latitudes of an image: those of its pixel at `x`, `y` in row `i` and column `j`. -/
def PixelLonLats (convert : Rat × Rat → Rat × Rat) (xs ys : List Rat) (out : List (List (Rat × Rat))) : Prop :=
  out.length = xs.length ∧ ∀ (i : Nat) x, xs[i]? = some x → ∃ row : List (Rat × Rat), out[i]? = some row ∧ row.length = ys.length ∧
    ∀ (j : Nat) y, ys[j]? = some y → row[j]? = some (convert (x, y))

/-- C144: the function returns the longitude and latitude of every pixel. -/
def C144_full : Prop := ∀ (asserts : Bool) (convert : Rat × Rat → Rat × Rat) (xs ys : List Rat),
  ∃ out, xyTo2DLonLat asserts {} convert xs ys = .ok (some out) ∧ PixelLonLats convert xs ys out

/-- C144, what happens: a NameError for every input, or None when Python runs without assertions. -/
theorem C144_exact (asserts : Bool) (convert : Rat × Rat → Rat × Rat) (xs ys : List Rat) :
    xyTo2DLonLat asserts {} convert xs ys = if asserts then .error .nameError else .ok none := by
  cases asserts <;> rfl

/-- C144: the function never returns longitudes and latitudes, whatever names are put into the module. -/
theorem C144_never (asserts : Bool) (globals : ImageryGlobals) (convert : Rat × Rat → Rat × Rat) (xs ys : List Rat)
    (out : List (List (Rat × Rat))) : xyTo2DLonLat asserts globals convert xs ys ≠ .ok (some out) := by
  unfold xyTo2DLonLat
  intro h
  simp only [bind, Except.bind, pure, Except.pure] at h
  split at h
  · cases h
  · split at h <;> cases h

theorem C144_full_false : ¬ C144_full := by
  intro h
  obtain ⟨out, h1, -⟩ := h true id [1, 2] [3]
  rw [C144_exact] at h1
  cases h1

/-- C144, the part that holds: the mesh that is converted has every pixel once, in its row and column. -/
theorem C144_mesh_partial (convert : Rat × Rat → Rat × Rat) (xs ys : List Rat) :
    PixelLonLats convert xs ys ((meshRows xs ys).map fun r => r.map convert) := by
  refine ⟨by simp [meshRows], fun i x hx => ⟨ys.map fun y => convert (x, y), ?_, by simp, fun j y hy => ?_⟩⟩
  · simp [meshRows, hx, Function.comp_def]
  · simp [hy]

example : PixelLonLats (fun p => (p.1 + 1, p.2)) [1, 2] [3] [[(2, 3)], [(3, 3)]] :=
  (show ((meshRows [1, 2] [3]).map fun r => r.map fun p : Rat × Rat => (p.1 + 1, p.2)) = [[(2, 3)], [(3, 3)]] by decide +kernel) ▸
    C144_mesh_partial (fun p => (p.1 + 1, p.2)) [1, 2] [3]

end Verif.Props
