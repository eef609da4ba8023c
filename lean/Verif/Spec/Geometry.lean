import Mathlib.Data.Rat.Floor

/-!
# Specification vocabulary: polygons and meshes

Independent of the model.
-/

namespace Verif.Spec

/-- The cross product of two position vectors. -/
def cross (p q : Rat × Rat) : Rat := p.1 * q.2 - q.1 * p.2

/-- Signed area of a closed polygon: half the sum, over all edges including the closing one, of
the cross product of the end points. -/
def signedArea (p : List (Rat × Rat)) : Rat :=
  ((List.range p.length).map fun k =>
    cross (p.getD k (0, 0)) (p.getD ((k + 1) % p.length) (0, 0))).sum / 2

/-- A two dimensional array with `m` rows and `n` columns. -/
def HasShape {β : Type} (a : List (List β)) (m n : Nat) : Prop :=
  a.length = m ∧ ∀ r ∈ a, r.length = n

/-- Element (i, j) of a two dimensional array. -/
def entry (a : List (List (Rat × Rat))) (i j : Nat) : Rat × Rat := (a.getD i []).getD j (0, 0)

/-- The quadrilateral of cell (i, j) of a mesh of vertices, starting with vertex (i, j) and going on
along the row. -/
def quadAt (v : List (List (Rat × Rat))) (i j : Nat) : List (Rat × Rat) :=
  [entry v i j, entry v i (j + 1), entry v (i + 1) (j + 1), entry v (i + 1) j]

/-- Element (i, j) of a two dimensional array of any kind of values. -/
def get2 {β : Type} [Inhabited β] (a : List (List β)) (i j : Nat) : β :=
  (a.getD i []).getD j default

/-- The outline of a mesh with vertices (0..m, 0..n): along the first row, down the last column,
back along the last row and up the first column; each outline vertex once. -/
def outline (v : List (List (Rat × Rat))) (m n : Nat) : List (Rat × Rat) :=
  ((List.range n).map fun j => entry v 0 j) ++
  ((List.range m).map fun i => entry v i n) ++
  ((List.range n).map fun j => entry v m (n - j)) ++
  ((List.range m).map fun i => entry v (m - i) 0)

/-- The cells of an axis with increasing edges: cell `a` is between edge `a` and edge `a+1`. -/
def cellHas (edge : List Rat) (a : Nat) (v : Rat) : Prop :=
  a + 1 < edge.length ∧ edge.getD a 0 ≤ v ∧ v ≤ edge.getD (a + 1) 0

/-- Edges in strictly increasing order. -/
def Increasing (edge : List Rat) : Prop := edge.Pairwise (· < ·)

end Verif.Spec
