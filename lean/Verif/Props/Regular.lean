import Verif.Model.Regular
import Verif.Props.Clipping

/-!
# C118 and C119: lookup on an evenly spaced grid, lines of a mesh
-/

namespace Verif.Props

open Verif.Py Verif.Model Verif.Spec Verif.Proofs

/-! ### C118 -/

/-- The edges of `n` cells of width `d` from `a` on. -/
def evenEdges (a d : Rat) (n : Nat) : List Rat := (List.range (n + 1)).map fun (k : Nat) => a + k * d

theorem evenEdges_getD (a d : Rat) {n k : Nat} (h : k ≤ n) : (evenEdges a d n).getD k 0 = a + k * d := by
  unfold evenEdges
  rw [List.getD_eq_getElem?_getD, List.getElem?_map, List.getElem?_range (by omega)]
  rfl

theorem evenEdges_length (a d : Rat) (n : Nat) : (evenEdges a d n).length = n + 1 := by simp [evenEdges]

theorem evenEdges_ok {a d : Rat} {n : Nat} (hd : 0 < d) (hn : 1 ≤ n) : AxisOk (evenEdges a d n) := by
  refine ⟨?_, by rw [evenEdges_length]; omega⟩
  unfold Increasing evenEdges
  rw [List.pairwise_map]
  refine List.Pairwise.imp ?_ List.pairwise_lt_range
  intro i j h
  have : (i : Rat) < j := by exact_mod_cast h
  nlinarith

/-- The means of neighbours. -/
def means (l : List Rat) : List Rat := List.zipWith (fun a b : Rat => (a + b) / 2) l.dropLast l.tail

theorem zip_means : ∀ a b : List Rat,
    (List.zipWith (· + · : Rat → Rat → Rat) (List.zipWith (· + ·) (List.zipWith (· + ·) a b) b) a).map (· / 4) =
      List.zipWith (fun x y : Rat => (x + y) / 2) a b ∧
    (List.zipWith (· + · : Rat → Rat → Rat) (List.zipWith (· + ·) (List.zipWith (· + ·) a b) a) b).map (· / 4) =
      List.zipWith (fun x y : Rat => (x + y) / 2) a b := by
  intro a
  induction a with
  | nil => intro b; simp
  | cons x a ih =>
    intro b
    cases b with
    | nil => simp
    | cons y b =>
      simp only [List.zipWith_cons_cons, List.map_cons, List.cons.injEq]
      exact ⟨⟨by ring, (ih b).1⟩, by ring, (ih b).2⟩

theorem centres_rows (x : List Rat) (m : Nat) :
    centres (List.replicate (m + 1) x) = List.replicate m (means x) := by
  unfold centres means
  simp only [List.dropLast_replicate, List.tail_replicate, List.map_replicate, Nat.add_sub_cancel,
    List.zipWith_replicate', (zip_means x.dropLast x.tail).2]

theorem centres_columns (y : List Rat) (m : Nat) :
    centres (y.map (List.replicate (m + 1))) = (means y).map (List.replicate m) := by
  unfold centres means
  have e : ∀ l : List Rat, (l.map (List.replicate (m + 1))).map List.dropLast = l.map (List.replicate m) ∧
      (l.map (List.replicate (m + 1))).map List.tail = l.map (List.replicate m) := by
    intro l
    constructor <;> (rw [List.map_map]; apply List.map_congr_left; intro v _; simp)
  have e2 : ∀ a b : List Rat, List.zipWith (List.zipWith (· + · : Rat → Rat → Rat)) (a.map (List.replicate m))
      (b.map (List.replicate m)) = (List.zipWith (· + ·) a b).map (List.replicate m) := by
    intro a
    induction a with
    | nil => intro b; simp
    | cons x a ih =>
      intro b
      cases b with
      | nil => simp
      | cons y b => simp [ih b, List.zipWith_replicate']
  simp only [← List.map_dropLast, ← List.map_tail, (e _).1, (e _).2, e2]
  rw [List.map_map]
  rw [← (zip_means y.dropLast y.tail).1, List.map_map]
  apply List.map_congr_left
  intro v _
  simp

theorem means_even (a d : Rat) (n : Nat) :
    means (evenEdges a d n) = (List.range n).map fun (k : Nat) => a + d / 2 + k * d := by
  apply List.ext_getElem
  · simp [means, evenEdges]
  · intro i h1 h2
    simp only [means, evenEdges, List.getElem_zipWith, List.getElem_dropLast, List.getElem_map, List.getElem_range,
      List.getElem_tail]
    push_cast
    ring

theorem grid_centres {x y : List Rat} (hx : 2 ≤ x.length) (hy : 2 ≤ y.length) :
    (gridMesh x y).axes = ⟨x, y, false⟩ ∧ (gridMesh x y).xCtr1d = means x ∧ (gridMesh x y).yCtr1d = means y := by
  have hax : (gridMesh x y).axes = ⟨x, y, false⟩ :=
    meshgrid_axes (by rintro rfl; exact absurd hy (by simp)) (by rintro rfl; exact absurd hx (by simp))
  obtain ⟨m, hm⟩ : ∃ m, y.length = m + 1 + 1 := ⟨y.length - 2, by omega⟩
  obtain ⟨k, hk⟩ : ∃ k, x.length = k + 1 + 1 := ⟨x.length - 2, by omega⟩
  refine ⟨hax, ?_, ?_⟩
  · unfold Mesh.xCtr1d
    rw [hax]
    simp only [Bool.false_eq_true, if_false]
    show (centres (List.replicate y.length x)).headD [] = _
    rw [hm, centres_rows]
    rfl
  · unfold Mesh.yCtr1d
    rw [hax]
    simp only [Bool.false_eq_true, if_false]
    show column0 (centres (y.map (List.replicate x.length))) = _
    rw [hk, centres_columns]
    unfold column0
    rw [List.map_map]
    conv_rhs => rw [← List.map_id (means y)]
    apply List.map_congr_left
    intro v _
    simp [List.replicate_succ]

theorem mem_axisCellsRegular (a d : Rat) (n : Nat) (hn : 2 ≤ n) (lo hi : Rat) (pad : Nat) :
    ∃ l, axisCellsRegular (means (evenEdges a d n)) lo hi pad = .ok l ∧ l.Nodup ∧
      ∀ k, k ∈ l ↔ k < n ∧ ⌊(lo - (a + d / 2)) / d⌋ ≤ (k : Int) + pad ∧ (k : Int) < ⌊(hi - (a + d / 2)) / d⌋ + pad := by
  rw [means_even]
  obtain ⟨m, rfl⟩ : ∃ m, n = m + 1 + 1 := ⟨n - 2, by omega⟩
  have hlen : ((List.range (m + 1 + 1)).map fun (k : Nat) => a + d / 2 + (k : Rat) * d).length = m + 1 + 1 := by simp
  have hform : ∃ rest, ((List.range (m + 1 + 1)).map fun (k : Nat) => a + d / 2 + (k : Rat) * d) =
      (a + d / 2) :: (a + d / 2 + d) :: rest := by
    rw [List.range_succ_eq_map, List.range_succ_eq_map]
    simp
  obtain ⟨rest, hr⟩ := hform
  rw [hr] at hlen ⊢
  unfold axisCellsRegular
  simp only [hlen, add_sub_cancel_left, PySlice.apply, PySlice.bounds, Option.map_some, Option.getD_some,
    List.length_range]
  refine ⟨_, rfl, slice_range_nodup _ _ _, ?_⟩
  intro k
  rw [mem_slice_range]
  simp only [clampCell, clampIndex]
  constructor
  · rintro ⟨h1, h2, h3⟩
    refine ⟨h3, ?_, ?_⟩
    · split_ifs at h1 <;> omega
    · split_ifs at h2 <;> omega
  · rintro ⟨h1, h2, h3⟩
    refine ⟨?_, ?_, h1⟩
    · split_ifs <;> omega
    · split_ifs <;> omega

/-- C118: on a grid with even spacing the lookup returns, for every box (also one that reaches over the edges of the
grid), every cell that has a point in common with the box, each once; and no cell of which the centre is `pad + 1`
cells or more below the box, or more than `pad - 1` cells above it.  The padding has to be two cells, as it is by
default (see `C118_pad_needed`). -/
theorem C118_lookup (a b dx dy : Rat) (nx ny pad : Nat) (box : Box) (hdx : 0 < dx) (hdy : 0 < dy) (hnx : 2 ≤ nx)
    (hny : 2 ≤ ny) (hpad : 2 ≤ pad) :
    ∃ is js, (gridMesh (evenEdges a dx nx) (evenEdges b dy ny)).quadsInBboxRegular box pad = .ok (is, js) ∧
      is.length = js.length ∧ (is.zip js).Nodup ∧
      (∀ r k, meets (evenEdges a dx nx) k box.xmin box.xmax → meets (evenEdges b dy ny) r box.ymin box.ymax →
        (r, k) ∈ is.zip js) ∧
      ∀ r k, (r, k) ∈ is.zip js → r < ny ∧ k < nx ∧
        box.xmin - (pad + 1) * dx < a + (k + 1 / 2) * dx ∧ a + (k + 1 / 2) * dx ≤ box.xmax + (pad - 1) * dx ∧
        box.ymin - (pad + 1) * dy < b + (r + 1 / 2) * dy ∧ b + (r + 1 / 2) * dy ≤ box.ymax + (pad - 1) * dy := by
  obtain ⟨hax, hcx, hcy⟩ := grid_centres (x := evenEdges a dx nx) (y := evenEdges b dy ny)
    (by rw [evenEdges_length]; omega) (by rw [evenEdges_length]; omega)
  obtain ⟨lx, hlx, ndx, mx⟩ := mem_axisCellsRegular a dx nx hnx box.xmin box.xmax pad
  obtain ⟨ly, hly, ndy, my⟩ := mem_axisCellsRegular b dy ny hny box.ymin box.ymax pad
  unfold Mesh.quadsInBboxRegular
  rw [hcx, hcy, hlx, hly, hax]
  simp only [bind, Except.bind, pure, Except.pure, Bool.false_eq_true, if_false]
  refine ⟨_, _, rfl, flatMap_lengths _ _, ?_⟩
  rw [zip_product]
  -- one axis
  have touch : ∀ (a d lo hi : Rat) (n k : Nat), 0 < d → meets (evenEdges a d n) k lo hi →
      k < n ∧ ⌊(lo - (a + d / 2)) / d⌋ ≤ (k : Int) + pad ∧ (k : Int) < ⌊(hi - (a + d / 2)) / d⌋ + pad := by
    rintro a d lo hi n k hd ⟨v, ⟨h1, h2, h3⟩, h4, h5⟩
    rw [evenEdges_length] at h1
    rw [evenEdges_getD a d (by omega)] at h2 h3
    push_cast at h3
    have hp : (2 : Rat) ≤ pad := by exact_mod_cast hpad
    refine ⟨by omega, ?_, ?_⟩
    · have : ⌊(lo - (a + d / 2)) / d⌋ < (k : Int) + pad + 1 := by
        rw [Int.floor_lt]
        rw [div_lt_iff₀ hd]
        push_cast
        nlinarith
      omega
    · have : (k : Int) + 1 - pad ≤ ⌊(hi - (a + d / 2)) / d⌋ := by
        rw [Int.le_floor, le_div_iff₀ hd]
        push_cast
        nlinarith
      omega
  have near : ∀ (a d lo hi : Rat) (k : Nat), 0 < d →
      ⌊(lo - (a + d / 2)) / d⌋ ≤ (k : Int) + pad → (k : Int) < ⌊(hi - (a + d / 2)) / d⌋ + pad →
      lo - (pad + 1) * d < a + (k + 1 / 2) * d ∧ a + (k + 1 / 2) * d ≤ hi + (pad - 1) * d := by
    intro a d lo hi k hd h1 h2
    constructor
    · have h3 : (lo - (a + d / 2)) / d < (k : Int) + pad + 1 := by
        have := Int.lt_floor_add_one ((lo - (a + d / 2)) / d)
        have h4 : ((⌊(lo - (a + d / 2)) / d⌋ : Int) : Rat) ≤ (k : Int) + pad := by exact_mod_cast h1
        linarith
      rw [div_lt_iff₀ hd] at h3
      push_cast at h3
      nlinarith
    · have h3 : (k : Int) + 1 - pad ≤ ⌊(hi - (a + d / 2)) / d⌋ := by omega
      rw [Int.le_floor, le_div_iff₀ hd] at h3
      push_cast at h3
      nlinarith
  refine ⟨ndy.product ndx, ?_, ?_⟩
  · intro r k h1 h2
    rw [List.mem_product]
    exact ⟨(my r).mpr (touch _ _ _ _ _ _ hdy h2), (mx k).mpr (touch _ _ _ _ _ _ hdx h1)⟩
  · intro r k h
    rw [List.mem_product] at h
    obtain ⟨h1, h2, h3⟩ := (my r).mp h.1
    obtain ⟨h4, h5, h6⟩ := (mx k).mp h.2
    obtain ⟨n1, n2⟩ := near _ _ _ _ _ hdx h5 h6
    obtain ⟨n3, n4⟩ := near _ _ _ _ _ hdy h2 h3
    exact ⟨h1, h4, n1, n2, n3, n4⟩

/-- The box that the other lookup (C24) fails for: it contains the whole grid, and all cells are returned. -/
example : ((gridMesh (evenEdges 0 1 2) (evenEdges 0 1 2)).quadsInBboxRegular ⟨-1, 3, -1, 3⟩ 2).toOption =
    some ([0, 0, 1, 1], [0, 1, 0, 1]) := by decide +kernel

/-- With a padding of one cell, a cell in which the upper corner of the box lies is missed: the box from 9/4 to 9/4 is
in the cell number 2. -/
theorem C118_pad_needed :
    meets (evenEdges 0 1 5) 2 (9/4) (9/4) ∧
    ((gridMesh (evenEdges 0 1 5) (evenEdges 0 1 5)).quadsInBboxRegular ⟨9/4, 9/4, 9/4, 9/4⟩ 1).toOption =
      some ([0, 0, 1, 1], [0, 1, 0, 1]) :=
  ⟨⟨9/4, ⟨by decide, by decide +kernel, by decide +kernel⟩, by decide +kernel, by decide +kernel⟩, by decide +kernel⟩

/-- A grid of one cell across cannot be looked up this way, although the other lookup serves it. -/
theorem C118_one_cell (m : Mesh) (box : Box) (pad : Nat) (h : m.xCtr1d.length ≤ 1) :
    m.quadsInBboxRegular box pad = .error .indexError := by
  unfold Mesh.quadsInBboxRegular
  have : axisCellsRegular m.xCtr1d box.xmin box.xmax pad = .error .indexError := by
    match hm : m.xCtr1d, h with
    | [], _ => rfl
    | [_], _ => rfl
  rw [this]
  rfl

/-! ### C119 -/

/-- C119: the lines of a mesh of `m` by `n` vertices are `m` lines of `n` points and `n` lines of `m` points, and the
point number `j` of the line number `i` in the first direction and the point number `i` of the line number `j` in the
second are both the vertex `(i, j)`, in the coordinates of the clipper. -/
theorem C119_lines {β : Type} (toClipper : Rat → β) (x y : List (List Rat)) (m n : Nat) (hx : x.length = m)
    (hy : y.length = m) (hxr : ∀ r ∈ x, r.length = n) (hyr : ∀ r ∈ y, r.length = n) :
    (linesFromQuadmesh toClipper x y n).1.length = m ∧ (linesFromQuadmesh toClipper x y n).2.length = n ∧
    (∀ l ∈ (linesFromQuadmesh toClipper x y n).1, l.length = n) ∧
    (∀ l ∈ (linesFromQuadmesh toClipper x y n).2, l.length = m) ∧
    ∀ (i j : Nat) (u v : Rat), (∃ rx ry, x[i]? = some rx ∧ y[i]? = some ry ∧ rx[j]? = some u ∧ ry[j]? = some v) →
      (∃ l, (linesFromQuadmesh toClipper x y n).1[i]? = some l ∧ l[j]? = some (toClipper u, toClipper v)) ∧
      ∃ l, (linesFromQuadmesh toClipper x y n).2[j]? = some l ∧ l[i]? = some (toClipper u, toClipper v) := by
  have hrow : ∀ r ∈ dstack x y, r.length = n := by
    intro r hr
    obtain ⟨i, hi, rfl⟩ := List.getElem_of_mem hr
    simp only [dstack, List.getElem_zipWith, List.length_zip]
    rw [hxr _ (List.getElem_mem _), hyr _ (List.getElem_mem _), min_self]
  have hcol : ∀ j, j < n → ((dstack x y).filterMap fun r => r[j]?) = (dstack x y).map fun r => r.getD j (0, 0) := by
    intro j hj
    generalize dstack x y = l at hrow
    induction l with
    | nil => rfl
    | cons r l ih =>
      have h1 : r[j]? = some (r.getD j (0, 0)) := by
        rw [List.getElem?_eq_getElem (by rw [hrow r (by simp)]; exact hj), List.getD_eq_getElem?_getD,
          List.getElem?_eq_getElem (by rw [hrow r (by simp)]; exact hj)]
        rfl
      rw [List.filterMap_cons, h1, List.map_cons, ih (fun r' h => hrow r' (by simp [h]))]
  have hd : (dstack x y).length = m := by simp [dstack, hx, hy]
  refine ⟨by simp [linesFromQuadmesh, hd], by simp [linesFromQuadmesh], ?_, ?_, ?_⟩
  · intro l hl
    simp only [linesFromQuadmesh, List.mem_map] at hl
    obtain ⟨r, hr, rfl⟩ := hl
    rw [List.length_map, hrow r hr]
  · intro l hl
    simp only [linesFromQuadmesh, List.mem_map, List.mem_range] at hl
    obtain ⟨r, ⟨j, hj, rfl⟩, rfl⟩ := hl
    rw [List.length_map, hcol j hj, List.length_map, hd]
  · rintro i j u v ⟨rx, ry, h1, h2, h3, h4⟩
    have hj : j < n := by
      rw [← hxr rx (List.mem_of_getElem? h1)]
      exact (List.getElem?_eq_some_iff.mp h3).1
    have hr : (dstack x y)[i]? = some (rx.zip ry) := by
      simp [dstack, List.getElem?_zipWith, h1, h2]
    have hz : (rx.zip ry)[j]? = some (u, v) := by
      rw [List.getElem?_zip_eq_some]; exact ⟨h3, h4⟩
    refine ⟨⟨(rx.zip ry).map fun p => (toClipper p.1, toClipper p.2), ?_, ?_⟩,
      ⟨((dstack x y).map fun r => r.getD j (0, 0)).map fun p => (toClipper p.1, toClipper p.2), ?_, ?_⟩⟩
    · simp [linesFromQuadmesh, hr]
    · rw [List.getElem?_map, hz]; rfl
    · simp only [linesFromQuadmesh]
      rw [List.getElem?_map, List.getElem?_map, List.getElem?_range hj]
      simp only [Option.map_some, hcol j hj]
    · rw [List.getElem?_map, List.getElem?_map, hr]
      simp only [Option.map_some]
      rw [List.getD_eq_getElem?_getD, hz]
      rfl

/-- The mesh of 2 by 3 cells that is not regular. -/
example : linesFromQuadmesh id skewMesh.xedge skewMesh.yedge 4 =
    ([[(0, 0), (2, 0), (4, 1), (7, 1)], [(1, 2), (3, 3), (5, 2), (8, 3)], [(0, 4), (2, 5), (5, 6), (7, 5)]],
     [[(0, 0), (1, 2), (0, 4)], [(2, 0), (3, 3), (2, 5)], [(4, 1), (5, 2), (5, 6)], [(7, 1), (8, 3), (7, 5)]]) := by
  decide +kernel

end Verif.Props
