import Verif.Props.Convex
import Verif.Props.DoubleArea
import Verif.Model.ChunkFl
import Mathlib.Data.List.Sort

/-!
# The search for cells from a rounded mean

`QuadMeshSubset.quads_nearest` on a regular grid, from points that are near each other.
-/

namespace Verif.Props

open Verif.Py Verif.Model Verif.Proofs

/-- The order of the cells that are found: by row, then by column. -/
def cellLt (a b : Nat × Nat) : Prop := a.1 < b.1 ∨ a.1 = b.1 ∧ a.2 < b.2

instance : DecidableRel cellLt := fun a b => by unfold cellLt; infer_instance

theorem cellLt_asymm {a b : Nat × Nat} (h : cellLt a b) (h' : cellLt b a) : False := by
  unfold cellLt at h h'
  omega

theorem cellLt_irrefl (a : Nat × Nat) : ¬ cellLt a a := fun h => cellLt_asymm h h

theorem product_sorted {l l' : List Nat} (h : l.Pairwise (· < ·)) (h' : l'.Pairwise (· < ·)) :
    (l ×ˢ l').Pairwise cellLt := by
  induction l with
  | nil => exact List.Pairwise.nil
  | cons a l ih =>
    rw [List.product_cons, List.pairwise_append]
    rw [List.pairwise_cons] at h
    refine ⟨?_, ih h.2, ?_⟩
    · rw [List.pairwise_map]
      exact h'.imp fun hab => Or.inr ⟨rfl, hab⟩
    · intro u hu v hv
      obtain ⟨b, -, rfl⟩ := List.mem_map.mp hu
      obtain ⟨v1, v2⟩ := v
      rw [List.mem_product] at hv
      exact Or.inl (h.1 _ hv.1)

theorem axisCells_sorted (n pad : Nat) (idx : List Int) : (axisCells n pad idx).Pairwise (· < ·) := by
  unfold axisCells
  cases idx with
  | nil => exact List.Pairwise.nil
  | cons k ks =>
    simp only [slice]
    exact List.Pairwise.sublist ((List.take_sublist _ _).trans (List.drop_sublist _ _)) List.pairwise_lt_range

theorem fast_sorted {ax : Axes} {b : Box} {pad : Nat} {is js : List Nat}
    (h : quadsInBboxFast ax b pad = .ok (is, js)) : (is.zip js).Pairwise cellLt := by
  unfold quadsInBboxFast at h
  simp only [bind, Except.bind] at h
  cases hx : limitCells ax.xEdge b.xmin b.xmax with
  | error e => rw [hx] at h; cases h
  | ok ix =>
    rw [hx] at h
    simp only at h
    cases hy : limitCells ax.yEdge b.ymin b.ymax with
    | error e => rw [hy] at h; cases h
    | ok iy =>
      rw [hy] at h
      simp only [pure, Except.pure] at h
      injection h with h
      rw [Prod.mk.injEq] at h
      rw [← h.1, ← h.2, zip_product]
      apply product_sorted
      · split
        · split <;> exact axisCells_sorted _ _ _
        · exact List.Pairwise.nil
      · split
        · split <;> exact axisCells_sorted _ _ _
        · exact List.Pairwise.nil

/-- The cells that are found from a point of a regular grid are in order. -/
theorem nearest_sorted {query : List Pt → Pt → Nat → List Nat} {x y : List Rat} {p : Pt} {c : Candidates}
    (h : (gridMesh x y).quadsNearest query p = .ok c) : (c.xi.zip c.yi).Pairwise cellLt := by
  unfold Mesh.quadsNearest at h
  rw [show (gridMesh x y).regular = true from rfl, if_pos rfl] at h
  simp only [bind, Except.bind] at h
  cases hf : quadsInBboxFast (gridMesh x y).axes ⟨p.1, p.1, p.2, p.2⟩ 2 with
  | error e => rw [hf] at h; cases h
  | ok v =>
    rw [hf] at h
    simp only at h
    split at h
    · cases h
    · cases h
      exact fast_sorted hf

/-- Two lists in order that have the same members of a kind have the same sublist of that kind. -/
theorem sorted_filter_eq {l l' : List (Nat × Nat)} (h : l.Pairwise cellLt) (h' : l'.Pairwise cellLt)
    (keep : Nat × Nat → Bool) (hm : ∀ z, keep z = true → (z ∈ l ↔ z ∈ l')) : l.filter keep = l'.filter keep := by
  have nd : ∀ {l : List (Nat × Nat)}, l.Pairwise cellLt → l.Nodup := by
    intro l hl
    refine hl.imp ?_
    rintro a b hab rfl
    exact cellLt_irrefl _ hab
  have n1 := nd (h.filter keep)
  have n2 := nd (h'.filter keep)
  refine List.Perm.eq_of_pairwise (fun a b _ _ h1 h2 => (cellLt_asymm h1 h2).elim) (h.filter _) (h'.filter _) ?_
  rw [List.perm_ext_iff_of_nodup n1 n2]
  intro z
  rw [List.mem_filter, List.mem_filter]
  constructor
  · rintro ⟨a, b⟩; exact ⟨(hm z b).mp a, b⟩
  · rintro ⟨a, b⟩; exact ⟨(hm z b).mpr a, b⟩

theorem flatMap_filter_nil {α β : Type} (l : List α) (f : α → List β) (keep : α → Bool)
    (h : ∀ a, keep a = false → f a = []) : l.flatMap f = (l.filter keep).flatMap f := by
  induction l with
  | nil => rfl
  | cons a l ih =>
    rw [List.flatMap_cons, List.filter_cons, ih]
    cases hk : keep a with
    | false => rw [h a hk]; simp
    | true => simp

/-- The search from the point `m` looks at the cell in column `i` and row `j`: it is at most two columns and two rows away
from the cell of the point. -/
def Searched (x y : List Rat) (m : Pt) (i j : Nat) : Prop :=
  ∃ col row, inCell x col m.1 ∧ inCell y row m.2 ∧ i ≤ col + 2 ∧ col ≤ i + 2 ∧ j ≤ row + 2 ∧ row ≤ j + 2

/-- Of the cells in which the clipper finds a piece of the footprint, the search looks at the same ones from every point
that is at most `δ` away from the mean of the vertices. -/
def SearchStable (δ : Rat) (clip : Poly → Poly → List Poly) (x y : List Rat) (p : Poly) : Prop :=
  ∀ m : Pt, |m.1 - (meanPoint p).1| ≤ δ → |m.2 - (meanPoint p).2| ≤ δ →
    ∀ i j, i + 1 < x.length → j + 1 < y.length → clip p (cellRect x y j i) ≠ [] →
      (Searched x y m i j ↔ Searched x y (meanPoint p) i j)

theorem stable_zero (clip : Poly → Poly → List Poly) (x y : List Rat) (p : Poly) : SearchStable 0 clip x y p := by
  intro m h1 h2 i j _ _ _
  have e : m = meanPoint p := by
    refine Prod.ext ?_ ?_
    · exact sub_eq_zero.mp (abs_nonpos_iff.mp h1)
    · exact sub_eq_zero.mp (abs_nonpos_iff.mp h2)
  rw [e]

/-- The cells that are found from a point. -/
theorem grid_nearest (query : List Pt → Pt → Nat → List Nat) {x y : List Rat} (hx : AxisOk x) (hy : AxisOk y)
    (hsz : 2 < x.length ∨ 2 < y.length) (m : Pt) :
    ∃ c, (gridMesh x y).quadsNearest query m = .ok c ∧ WellFormed x y c ∧ c.quads.length ≠ 1 ∧
      ∀ r k, (r, k) ∈ c.xi.zip c.yi ↔ r + 1 < y.length ∧ k + 1 < x.length ∧ Searched x y m k r := by
  obtain ⟨xi, yi, h1, ⟨quads, h2, h3⟩, h4⟩ := gridMesh_lookup hx hy ⟨m.1, m.1, m.2, m.2⟩
  have hmem : ∀ r k, (r, k) ∈ xi.zip yi ↔ r + 1 < y.length ∧ k + 1 < x.length ∧ Searched x y m k r := by
    intro r k
    rw [h4, mem_axisResult hx.1, mem_axisResult hy.1]
    simp only [or_self]
    constructor
    · rintro ⟨⟨a1, ⟨v, a, rfl, ha, ha'⟩, ⟨v', b, rfl, hb, hb'⟩⟩,
        ⟨a2, ⟨w, c, rfl, hc, hc'⟩, ⟨w', d, rfl, hd, hd'⟩⟩⟩
      have e1 := inCell_unique hx.1 ha hb
      have e2 := inCell_unique hy.1 hc hd
      exact ⟨a2, a1, a, c, ha, hc, by omega, by omega, by omega, by omega⟩
    · rintro ⟨b1, b2, col, row, hcol, hrow, b3, b4, b5, b6⟩
      exact ⟨⟨b2, ⟨_, col, rfl, hcol, b4⟩, ⟨_, col, rfl, hcol, b3⟩⟩,
        ⟨b1, ⟨_, row, rfl, hrow, b6⟩, ⟨_, row, rfl, hrow, b5⟩⟩⟩
  refine ⟨⟨quads, xi, yi⟩, ?_, h3, ?_, hmem⟩
  · unfold Mesh.quadsNearest
    rw [show (gridMesh x y).regular = true from rfl, if_pos rfl, h1]
    simp only [bind, Except.bind, pure, Except.pure, h2]
  · intro hone
    simp only at hone
    have hq : quads = (xi.zip yi).map fun rk => cellRect x y rk.1 rk.2 := h3.2.2.2
    rw [hq, List.length_map] at hone
    obtain ⟨rk, hrk⟩ := List.length_eq_one_iff.mp hone
    obtain ⟨r, k⟩ := rk
    have m1 : (r, k) ∈ xi.zip yi := by rw [hrk]; simp
    obtain ⟨b1, b2, col, row, hcol, hrow, b3, b4, b5, b6⟩ := (hmem r k).mp m1
    have hc1 := hcol.1
    have hr1 := hrow.1
    have m0 : (row, col) ∈ xi.zip yi :=
      (hmem row col).mpr ⟨hr1, hc1, col, row, hcol, hrow, by omega, by omega, by omega, by omega⟩
    have m2 : ∃ r' k', (r', k') ∈ xi.zip yi ∧ (r' ≠ row ∨ k' ≠ col) := by
      rcases hsz with h | h
      · by_cases h0 : col = 0
        · exact ⟨row, col + 1, (hmem _ _).mpr ⟨hr1, by omega, col, row, hcol, hrow, by omega, by omega, by omega,
            by omega⟩, by omega⟩
        · exact ⟨row, col - 1, (hmem _ _).mpr ⟨hr1, by omega, col, row, hcol, hrow, by omega, by omega, by omega,
            by omega⟩, by omega⟩
      · by_cases h0 : row = 0
        · exact ⟨row + 1, col, (hmem _ _).mpr ⟨by omega, hc1, col, row, hcol, hrow, by omega, by omega, by omega,
            by omega⟩, by omega⟩
        · exact ⟨row - 1, col, (hmem _ _).mpr ⟨by omega, hc1, col, row, hcol, hrow, by omega, by omega, by omega,
            by omega⟩, by omega⟩
    obtain ⟨r', k', hm', hne'⟩ := m2
    rw [hrk, List.mem_singleton, Prod.mk.injEq] at m0 hm'
    omega

theorem candidatesFl_ok (A : Arith) (query : List Pt → Pt → Nat → List Nat) {x y : List Rat} (hx : AxisOk x)
    (hy : AxisOk y) (hsz : 2 < x.length ∨ 2 < y.length) (p : Poly) :
    ∃ c, candidatesForFl A query (gridMesh x y) .none p = .ok c ∧ WellFormed x y c ∧
      (c.xi.zip c.yi).Pairwise cellLt ∧
      ∀ r k, (r, k) ∈ c.xi.zip c.yi ↔ r + 1 < y.length ∧ k + 1 < x.length ∧ Searched x y (meanPointFl A p) k r := by
  obtain ⟨c, h1, h2, h3, h4⟩ := grid_nearest query hx hy hsz (meanPointFl A p)
  refine ⟨c, ?_, h2, nearest_sorted h1, h4⟩
  unfold candidatesForFl
  simp only [h1, bind, Except.bind]
  rw [if_neg h3]
  rfl

theorem candidatesFl_exact (query : List Pt → Pt → Nat → List Nat) (m : Mesh) (bbox : BBoxArg) (p : Poly) :
    candidatesForFl Arith.exact query m bbox p = candidatesFor query m bbox p := by
  cases bbox <;> rfl

/-- The computed mean is near the mean. -/
def MeanNear (A : Arith) (δ : Rat) (p : Poly) : Prop :=
  |(meanPointFl A p).1 - (meanPoint p).1| ≤ δ ∧ |(meanPointFl A p).2 - (meanPoint p).2| ≤ δ

theorem mean_exact (p : Poly) : MeanNear Arith.exact 0 p := by
  have : meanPointFl Arith.exact p = meanPoint p := rfl
  unfold MeanNear
  rw [this]
  simp

/-- Searching from the computed mean gives the same pieces as searching from the mean. -/
theorem pieces_same {A : Arith} {δ : Rat} {clip : Poly → Poly → List Poly} {query : List Pt → Pt → Nat → List Nat}
    {x y : List Rat} (hx : AxisOk x) (hy : AxisOk y) (hsz : 2 < x.length ∨ 2 < y.length) {p : Poly}
    (hm : MeanNear A δ p) (hs : SearchStable δ clip x y p) {c c' : Candidates}
    (h : candidatesFor query (gridMesh x y) .none p = .ok c)
    (h' : candidatesForFl A query (gridMesh x y) .none p = .ok c') {β : Type} (f : Nat × Nat → Poly → β) :
    ((c'.xi.zip c'.yi).flatMap fun z => (clip p (cellRect x y z.1 z.2)).map (f z)) =
      (c.xi.zip c.yi).flatMap fun z => (clip p (cellRect x y z.1 z.2)).map (f z) := by
  obtain ⟨c0, e0, w0, s0, m0⟩ := candidatesFl_ok Arith.exact query hx hy hsz p
  obtain ⟨c1, e1, w1, s1, m1⟩ := candidatesFl_ok A query hx hy hsz p
  rw [candidatesFl_exact, h] at e0
  rw [h'] at e1
  injection e0 with e0
  injection e1 with e1
  subst e0 e1
  have hnil : ∀ z : Nat × Nat, (decide (clip p (cellRect x y z.1 z.2) ≠ [])) = false →
      (clip p (cellRect x y z.1 z.2)).map (f z) = [] := by
    intro z hz
    simp only [ne_eq, decide_eq_false_iff_not, not_not] at hz
    rw [hz]
    rfl
  rw [flatMap_filter_nil _ _ _ hnil, flatMap_filter_nil (c.xi.zip c.yi) _ _ hnil]
  congr 1
  refine sorted_filter_eq s1 s0 _ ?_
  rintro ⟨r, k⟩ hz
  rw [m0, m1]
  simp only [ne_eq, decide_eq_true_eq] at hz
  have e : meanPointFl Arith.exact p = meanPoint p := rfl
  rw [e]
  constructor
  · rintro ⟨a, b, hh⟩
    exact ⟨a, b, (hs _ hm.1 hm.2 k r b a hz).mp hh⟩
  · rintro ⟨a, b, hh⟩
    exact ⟨a, b, (hs _ hm.1 hm.2 k r b a hz).mpr hh⟩

/-- A footprint that leaves room for a search from points up to `δ` away from its mean: its mean is on the grid and its
vertices are within two cells of the mean, both by a margin of `δ`. -/
structure RoomToSearch (δ : Rat) (x y : List Rat) (dx dy : Rat) (p : Poly) : Prop where
  west : x.getD 0 0 + δ < (meanPoint p).1
  east : (meanPoint p).1 + δ ≤ x.getD (x.length - 1) 0
  south : y.getD 0 0 + δ < (meanPoint p).2
  north : (meanPoint p).2 + δ ≤ y.getD (y.length - 1) 0
  narrow : ∀ v ∈ p, |v.1 - (meanPoint p).1| + δ ≤ 2 * dx ∧ |v.2 - (meanPoint p).2| + δ ≤ 2 * dy

theorem near_cell {edge : List Rat} {s : Rat} (h : AxisOk edge) (hu : Spaced edge s) {m δ M v w : Rat}
    (hm : |m - M| ≤ δ) (h0 : edge.getD 0 0 + δ < M) (h1 : M + δ ≤ edge.getD (edge.length - 1) 0)
    (hv : |v - M| + δ ≤ 2 * s) (hw : |w - M| + δ ≤ 2 * s) {k : Nat} (hk : k + 1 < edge.length) (hv' : edge.getD k 0 < v)
    (hw' : w < edge.getD (k + 1) 0) : ∃ col, inCell edge col m ∧ k ≤ col + 2 ∧ col ≤ k + 2 := by
  have m1 := abs_le.mp hm
  obtain ⟨col, hcol⟩ := exists_inCell h.1 h.2 (show edge.getD 0 0 < m by linarith [m1.1])
    (show m ≤ edge.getD (edge.length - 1) 0 by linarith [m1.2])
  refine ⟨col, hcol, ?_, ?_⟩
  · by_contra hn
    have := hu.two h (i := col + 1) (j := k) (by omega) (by omega)
    have := le_abs_self (v - M)
    linarith [hcol.2.2, m1.1]
  · by_contra hn
    have := hu.two h (i := k + 1) (j := col) (by omega) (by have := hcol.1; omega)
    have := neg_abs_le (w - M)
    linarith [hcol.2.1, m1.2]

/-- With room to search, and a clipper that finds nothing in cells that the footprint lies beside, all pieces are found
from everywhere near the mean. -/
theorem room_stable {δ : Rat} {clip : Poly → Poly → List Poly} {x y : List Rat} {dx dy : Rat} {p : Poly}
    (hx : AxisOk x) (hy : AxisOk y) (ux : Spaced x dx) (uy : Spaced y dy) (h : RoomToSearch δ x y dx dy p) (hδ : 0 ≤ δ)
    (hb : ∀ i j, Beside x y p i j → clip p (cellRect x y j i) = []) : SearchStable δ clip x y p := by
  intro m h1 h2 i j hi hj hne
  have hnb : ¬ Beside x y p i j := fun hbs => hne (hb i j hbs)
  unfold Beside at hnb
  push Not at hnb
  obtain ⟨⟨v1, k1, b1⟩, ⟨v2, k2, b2⟩, ⟨v3, k3, b3⟩, ⟨v4, k4, b4⟩⟩ := hnb
  have key : ∀ m : Pt, |m.1 - (meanPoint p).1| ≤ δ → |m.2 - (meanPoint p).2| ≤ δ → Searched x y m i j := by
    intro m h1 h2
    obtain ⟨col, hc, c1, c2⟩ := near_cell hx ux h1 h.west h.east (h.narrow v1 k1).1 (h.narrow v2 k2).1 hi b1 b2
    obtain ⟨row, hr, r1, r2⟩ := near_cell hy uy h2 h.south h.north (h.narrow v3 k3).2 (h.narrow v4 k4).2 hj b3 b4
    exact ⟨col, row, hc, hr, c1, c2, r1, r2⟩
  exact ⟨fun _ => key _ (by simpa using hδ) (by simpa using hδ), fun _ => key m h1 h2⟩

/-- What the rounding can do to the mean of at most `n` vertices within `R` of the origin. -/
def meanError (n : Nat) (R : Rat) : Rat := (n + 2) * ulp1 * R

theorem meanFl_near {n : Nat} {R : Rat} (hn : n ≤ 1000000) {l : List Rat} (hl : l ≠ []) (hln : l.length ≤ n)
    (hR : ∀ v ∈ l, |v| ≤ R) {S : Rat} (hS : AddsUp (l.map double) S) :
    |double (S / l.length) - l.sum / l.length| ≤ meanError n R := by
  have hu := ulp1_pos
  have hlen : (0 : Rat) < l.length := by exact_mod_cast List.length_pos_iff.mpr hl
  have hR0 : 0 ≤ R := by
    obtain ⟨v, hv⟩ := List.exists_mem_of_ne_nil _ hl
    exact (abs_nonneg v).trans (hR v hv)
  have h1 : |(l.map double).sum - l.sum| ≤ l.length * (ulp1 * R) ∧
      ((l.map double).map abs).sum ≤ l.length * ((1 + ulp1) * R) ∧ |l.sum| ≤ l.length * R := by
    clear hS hln hl hlen
    induction l with
    | nil => simp
    | cons v l ih =>
      obtain ⟨i1, i2, i3⟩ := ih fun w hw => hR w (List.mem_cons_of_mem _ hw)
      have hv := hR v List.mem_cons_self
      have hd := double_near' v
      have hd' : ulp1 * |v| ≤ ulp1 * R := mul_le_mul_of_nonneg_left hv hu.le
      have hab : |double v| ≤ |v| + |double v - v| := by
        have := abs_sub_abs_le_abs_sub (double v) v
        linarith
      simp only [List.map_cons, List.sum_cons, List.length_cons, Nat.cast_succ]
      refine ⟨?_, ?_, ?_⟩
      · rw [abs_le] at *
        constructor <;> linarith [i1.1, i1.2, hd.1, hd.2]
      · linarith
      · have := abs_add_le v l.sum
        linarith
  obtain ⟨i1, i2, i3⟩ := h1
  have h2 := addsUp_near hS
  rw [List.length_map] at h2
  have hp := one_le_pow (l.length - 1)
  have h3 : |S - l.sum| ≤ ((1 + ulp1) ^ l.length - 1) * (l.length * R) := by
    have e : (1 + ulp1) ^ l.length = (1 + ulp1) ^ (l.length - 1) * (1 + ulp1) := by
      rw [← pow_succ]
      congr 1
      have := List.length_pos_iff.mpr hl
      omega
    have h4 := mul_le_mul_of_nonneg_left i2 (show 0 ≤ (1 + ulp1) ^ (l.length - 1) - 1 by linarith)
    have h5 := abs_sub_le S (l.map double).sum l.sum
    rw [e]
    generalize (1 + ulp1) ^ (l.length - 1) = M at *
    nlinarith
  have h6 : |S / l.length - l.sum / l.length| ≤ ((1 + ulp1) ^ l.length - 1) * R := by
    rw [← sub_div, abs_div, abs_of_pos hlen, div_le_iff₀ hlen]
    linarith
  have h7 : |l.sum / l.length| ≤ R := by
    rw [abs_div, abs_of_pos hlen, div_le_iff₀ hlen]
    linarith
  have h8 := round_step (one_le_pow l.length) h6 h7
  rw [← pow_succ] at h8
  refine h8.trans ?_
  unfold meanError
  refine mul_le_mul_of_nonneg_right ?_ hR0
  refine (pow_bound (by omega)).trans ?_
  refine mul_le_mul_of_nonneg_right ?_ hu.le
  have : (l.length : Rat) ≤ n := by exact_mod_cast hln
  push_cast
  linarith

end Verif.Props
