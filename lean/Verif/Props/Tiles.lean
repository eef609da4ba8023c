import Verif.Model.Tiles
import Verif.Props.Clipping
import Mathlib.Tactic.Ring
import Mathlib.Tactic.Linarith
import Mathlib.Tactic.FieldSimp
import Mathlib.Tactic.Positivity

/-!
# C47, C48, C69: tiles of the target grid
-/

namespace Verif.Props

open Verif.Py Verif.Model Verif.Spec Verif.Proofs

/-! ## C47 -/

/-- Grid box `k` of a domain that starts at `lo` lies in tile `i` of the edges `e`. -/
def BoxInTile (e : List Rat) (lo delta : Rat) (k i : Nat) : Prop :=
  e.getD i 0 ≤ lo + k * delta ∧ lo + (k + 1) * delta ≤ e.getD (i + 1) 0

theorem pyInt_of_nonneg {q : Rat} (h : 0 ≤ q) : pyInt q = ⌊q⌋ := if_pos h

theorem pyInt_natCast_div (n s : Nat) : pyInt ((((n : Nat) : Int) : Rat) / (s : Rat)) = ((n / s : Nat) : Int) := by
  rw [pyInt_of_nonneg (by positivity)]
  have : (((n : Nat) : Int) : Rat) = (n : Rat) := by push_cast; rfl
  rw [this]
  exact Rat.floor_natCast_div_natCast n s

theorem edges_getD (bnd : Rat × Rat) (delta : Rat) {s : Nat} (n : Nat) (k : Nat) (hk : k ≤ s) :
    (subdivideEdges bnd delta s n).getD k 0 =
      if k < s then bnd.1 + k * ((n / s : Nat) * delta) else bnd.2 := by
  unfold subdivideEdges
  simp only [pyInt_natCast_div, List.length_map, List.length_range, Nat.add_sub_cancel]
  rw [List.getD_eq_getElem?_getD]
  by_cases h : k < s
  · rw [if_pos h, List.getElem?_set_ne (by omega), List.getElem?_map, List.getElem?_range (by omega)]
    simp only [Option.map_some, Option.getD_some, Int.cast_natCast]
    ring
  · have : k = s := by omega
    subst this
    rw [if_neg h, List.getElem?_set_self (by simp)]
    rfl

theorem edges_length (bnd : Rat × Rat) (delta : Rat) (s : Nat) (n : Int) :
    (subdivideEdges bnd delta s n).length = s + 1 := by
  simp [subdivideEdges]

/-- The tiles for any number of boxes `n` that does not exceed the number `N` of boxes of the
domain: in floating point the quotient that is truncated may be slightly too small. -/
theorem tiles_cover (bnd : Rat × Rat) (delta : Rat) (s n N : Nat) (hs : 0 < s) (hd : 0 < delta)
    (hn : n ≤ N) (hN : bnd.1 + N * delta ≤ bnd.2) :
    (∀ i < s, (subdivideEdges bnd delta s n).getD i 0 ≤
        (subdivideEdges bnd delta s n).getD (i + 1) 0) ∧
    (∀ i, i + 1 < s → (subdivideEdges bnd delta s n).getD (i + 1) 0 -
        (subdivideEdges bnd delta s n).getD i 0 = (n / s : Nat) * delta) ∧
    ∀ k < N, ∃ i < s, BoxInTile (subdivideEdges bnd delta s n) bnd.1 delta k i ∧
      ∀ i' < s, BoxInTile (subdivideEdges bnd delta s n) bnd.1 delta k i' → i' = i := by
  have hq : s * (n / s) ≤ N := le_trans (Nat.mul_div_le n s) hn
  obtain ⟨dn, hdn⟩ : ∃ dn, dn = n / s := ⟨_, rfl⟩
  have e : ∀ k, k ≤ s → (subdivideEdges bnd delta s n).getD k 0 =
      if k < s then bnd.1 + k * ((dn : Nat) * delta) else bnd.2 := by
    intro k hk; rw [hdn]; exact edges_getD bnd delta n k hk
  rw [← hdn] at hq ⊢
  have mono : ∀ {a b : Nat}, a ≤ b → bnd.1 + (a : Rat) * delta ≤ bnd.1 + (b : Rat) * delta := by
    intro a b h
    have : (a : Rat) ≤ b := by exact_mod_cast h
    nlinarith
  refine ⟨?_, ?_, ?_⟩
  · intro i hi
    rw [e i (by omega), e (i + 1) (by omega), if_pos hi]
    split
    · push_cast
      nlinarith [mul_nonneg (Nat.cast_nonneg (α := Rat) dn) hd.le]
    · have h1 : i * dn ≤ N := le_trans (Nat.mul_le_mul_right _ (by omega : i ≤ s)) hq
      have := mono h1
      push_cast at this
      nlinarith
  · intro i hi
    rw [e i (by omega), e (i + 1) (by omega), if_pos hi, if_pos (by omega : i < s)]
    push_cast
    ring
  · intro k hk
    -- the tile of a box
    have key : ∀ i < s, BoxInTile (subdivideEdges bnd delta s n) bnd.1 delta k i ↔
        i * dn ≤ k ∧ (i + 1 < s → k < (i + 1) * dn) := by
      intro i hi
      unfold BoxInTile
      rw [e i (by omega), e (i + 1) (by omega), if_pos hi]
      have c1 : (bnd.1 + (i : Rat) * ((dn : Rat) * delta) ≤ bnd.1 + (k : Rat) * delta) ↔ i * dn ≤ k := by
        constructor
        · intro h
          by_contra hc
          have : (k : Rat) < (i * dn : Nat) := by exact_mod_cast Nat.lt_of_not_le hc
          push_cast at this
          nlinarith
        · intro h
          have := mono h
          push_cast at this
          linarith
      rw [c1]
      by_cases h2 : i + 1 < s
      · rw [if_pos h2]
        have c2 : (bnd.1 + ((k : Rat) + 1) * delta ≤ bnd.1 + ((i + 1 : Nat) : Rat) * ((dn : Rat) * delta)) ↔
            k < (i + 1) * dn := by
          constructor
          · intro h
            by_contra hc
            have : (((i + 1) * dn : Nat) : Rat) < ((k + 1 : Nat) : Rat) := by
              exact_mod_cast Nat.lt_succ_of_le (Nat.le_of_not_lt hc)
            push_cast at this h
            nlinarith
          · intro h
            have := mono (Nat.succ_le_of_lt h)
            push_cast at this ⊢
            linarith
        rw [c2]
        constructor
        · rintro ⟨a, b⟩; exact ⟨a, fun _ => b⟩
        · rintro ⟨a, b⟩; exact ⟨a, b h2⟩
      · rw [if_neg h2]
        have : bnd.1 + ((k : Rat) + 1) * delta ≤ bnd.2 := by
          have := mono (Nat.succ_le_of_lt hk)
          push_cast at this
          linarith
        constructor
        · rintro ⟨a, -⟩; exact ⟨a, fun h => absurd h h2⟩
        · rintro ⟨a, -⟩; exact ⟨a, this⟩
    rcases Nat.eq_zero_or_pos dn with h0 | hpos
    · refine ⟨s - 1, by omega, (key _ (by omega)).mpr ⟨by rw [h0]; omega, fun h => by omega⟩, ?_⟩
      intro i' hi' h'
      have := ((key i' hi').mp h').2
      rw [h0] at this
      omega
    · refine ⟨min (k / dn) (s - 1), by omega, (key _ (by omega)).mpr ⟨?_, ?_⟩, ?_⟩
      · exact le_trans (Nat.mul_le_mul_right _ (Nat.min_le_left _ _)) (Nat.div_mul_le_self k dn)
      · intro h
        have : min (k / dn) (s - 1) = k / dn := by omega
        rw [this]
        exact (Nat.div_lt_iff_lt_mul hpos).mp (Nat.lt_succ_self _)
      · intro i' hi' h'
        obtain ⟨a, b⟩ := (key i' hi').mp h'
        have h1 : i' ≤ k / dn := (Nat.le_div_iff_mul_le hpos).mpr a
        by_cases h2 : i' + 1 < s
        · have := (Nat.div_lt_iff_lt_mul hpos).mpr (b h2)
          omega
        · omega

/-- C47.  A domain `bnd` with spacing `delta`, into `s` tiles: `s + 1` edges from the lower to the
upper bound, in order; each tile but the last has the same whole number of boxes; every box of
the domain (the domain may have a rest smaller than a box) lies in exactly one tile. -/
theorem C47_tiles (bnd : Rat × Rat) (delta : Rat) (s : Nat) (hs : 0 < s) (hd : 0 < delta)
    (hb : bnd.1 ≤ bnd.2) :
    ∃ e, subdivideBnd bnd delta s = .ok e ∧ e.length = s + 1 ∧
      e.getD 0 0 = bnd.1 ∧ e.getD s 0 = bnd.2 ∧
      (∀ i < s, e.getD i 0 ≤ e.getD (i + 1) 0) ∧
      (∃ m : Nat, ∀ i, i + 1 < s → e.getD (i + 1) 0 - e.getD i 0 = m * delta) ∧
      ∀ k : Nat, bnd.1 + (k + 1) * delta ≤ bnd.2 →
        ∃ i < s, BoxInTile e bnd.1 delta k i ∧ ∀ i' < s, BoxInTile e bnd.1 delta k i' → i' = i := by
  have hw : 0 ≤ (bnd.2 - bnd.1) / delta := div_nonneg (by linarith) hd.le
  obtain ⟨N, hN⟩ : ∃ N : Nat, ⌊(bnd.2 - bnd.1) / delta⌋ = N :=
    Int.eq_ofNat_of_zero_le (Int.floor_nonneg.mpr hw)
  have hfl : (N : Rat) ≤ (bnd.2 - bnd.1) / delta := by
    have := Int.floor_le ((bnd.2 - bnd.1) / delta)
    rw [hN] at this
    exact_mod_cast this
  have hlt : (bnd.2 - bnd.1) / delta < N + 1 := by
    have := Int.lt_floor_add_one ((bnd.2 - bnd.1) / delta)
    rw [hN] at this
    exact_mod_cast this
  have hNd : bnd.1 + N * delta ≤ bnd.2 := by
    have := (le_div_iff₀ hd).mp hfl
    linarith
  refine ⟨subdivideEdges bnd delta s N, ?_, edges_length _ _ _ _, ?_, ?_, ?_⟩
  · unfold subdivideBnd
    rw [if_neg (by rintro (h | h); exacts [hd.ne' h, hs.ne' h])]
    simp only [pyInt_of_nonneg hw, hN]
  · rw [edges_getD _ _ _ _ (by omega), if_pos hs]
    simp
  · rw [edges_getD _ _ _ _ le_rfl, if_neg (by omega)]
  · obtain ⟨h1, h2, h3⟩ := tiles_cover bnd delta s N N hs hd le_rfl hNd
    refine ⟨h1, ⟨N / s, h2⟩, fun k hk => h3 k ?_⟩
    have : ((k : Rat) + 1) ≤ (bnd.2 - bnd.1) / delta := (le_div_iff₀ hd).mpr (by linarith)
    have : ((k + 1 : Nat) : Rat) < ((N + 1 : Nat) : Rat) := by push_cast; linarith
    have : k + 1 < N + 1 := by exact_mod_cast this
    omega

/-- C47 with rounding: whatever number of boxes the truncated floating point quotient gives, as long
as it is not more than the true number, the tiles still cover every box exactly once. -/
theorem C47_rounding (bnd : Rat × Rat) (delta : Rat) (s n : Nat) (hs : 0 < s) (hd : 0 < delta)
    (hn : bnd.1 + n * delta ≤ bnd.2) (k : Nat) (hk : bnd.1 + (k + 1) * delta ≤ bnd.2) :
    ∃ i < s, BoxInTile (subdivideEdges bnd delta s n) bnd.1 delta k i ∧
      ∀ i' < s, BoxInTile (subdivideEdges bnd delta s n) bnd.1 delta k i' → i' = i := by
  have hN : bnd.1 + (max n (k + 1) : Nat) * delta ≤ bnd.2 := by
    rcases le_total n (k + 1) with h | h
    · rw [max_eq_right h]; push_cast; exact hk
    · rw [max_eq_left h]; exact hn
  exact (tiles_cover bnd delta s n _ hs hd (le_max_left _ _) hN).2.2 k
    (lt_of_lt_of_le (Nat.lt_succ_self k) (le_max_right _ _))

/-- The example of the documentation of `subdivide_bnd`: eight boxes in three tiles. -/
example : (subdivideBnd (0, 4) (1/2) 3).toOption = some [0, 1, 2, 4] := by decide +kernel

example : BoxInTile [0, 1, 2, 4] 0 (1/2) 7 2 := by unfold BoxInTile; decide +kernel

/-! ## C48 -/

/-- The edges of `m` boxes of width `d` from `lo` on. -/
def boxEdges (lo d : Rat) (m : Nat) : List Rat := (List.range (m + 1)).map fun (k : Nat) => lo + k * d

/-- The gridder makes the edges of a domain of a whole number of boxes from its bounds. -/
def MakesEdges (edges : Rat × Rat → Rat → List Rat) : Prop :=
  ∀ (lo d : Rat) (m : Nat), 0 < d → edges (lo, lo + m * d) d = boxEdges lo d m

/-- `np.arange(lo, hi + d, d)` does so. -/
theorem arange_makesEdges : MakesEdges arangeEdges := by
  intro lo d m hd
  unfold arangeEdges boxEdges
  have : ⌈(lo + m * d + d - lo) / d⌉ = ((m + 1 : Nat) : Int) := by
    have : (lo + m * d + d - lo) / d = ((m + 1 : Nat) : Rat) := by
      push_cast
      field_simp
      ring
    rw [this]
    exact Int.ceil_natCast _
  simp only [this, Int.toNat_natCast]

theorem boxEdges_getElem? (lo d : Rat) (m k : Nat) :
    (boxEdges lo d m)[k]? = if k ≤ m then some (lo + k * d) else none := by
  unfold boxEdges
  rw [List.getElem?_map]
  by_cases h : k ≤ m
  · rw [if_pos h, List.getElem?_range (by omega)]; rfl
  · rw [if_neg h, List.getElem?_eq_none (by simp; omega)]; rfl

theorem boxEdges_length (lo d : Rat) (m : Nat) : (boxEdges lo d m).length = m + 1 := by
  simp [boxEdges]

/-- Centres of boxes. -/
theorem centres_boxEdges (lo d : Rat) (m : Nat) :
    cellCentres (boxEdges lo d m) = (List.range m).map fun (k : Nat) => lo + (k + 1/2) * d := by
  apply List.ext_getElem?
  intro k
  unfold cellCentres
  rw [List.getElem?_zipWith, List.getElem?_map]
  by_cases h : k < m
  · rw [List.getElem?_dropLast, List.getElem?_tail, boxEdges_getElem?, boxEdges_getElem?,
      boxEdges_length, if_pos (by omega), if_pos (by omega), if_pos (by omega),
      List.getElem?_range h]
    simp only [Option.map_some]
    congr 1
    push_cast
    ring
  · rw [List.getElem?_tail, boxEdges_getElem?, if_neg (by omega), List.getElem?_eq_none (l := List.range m) (by simp; omega)]
    cases (boxEdges lo d m).dropLast[k]? <;> rfl

theorem padSlice_bounds (p m : Nat) :
    (if (p : Int) = 0 then (⟨none, none⟩ : PySlice) else ⟨some p, some (-(p : Int))⟩).bounds (m + 2 * p) =
      (p, m + p) := by
  by_cases h : (p : Int) = 0
  · have : p = 0 := by omega
    subst this
    rfl
  · rw [if_neg h]
    unfold PySlice.bounds clampIndex
    simp only [Option.map_some, Option.getD_some]
    rw [if_neg (by omega), if_pos (by omega)]
    congr 1 <;> omega

/-- C48.  For a tile of `m` by `n` boxes that starts at `(xlo, ylo)` and is padded by `p` and `q`
boxes on each side (`p`, `q` may be 0), the trimmed call has the cell centres of the tile without
padding, a grid of `m` by `n` cells, and cell `(i, j)` of the trimmed grid is cell `(p + i, q + j)`
of the padded grid, which is the rectangle of cell `(i, j)` of the tile. -/
theorem C48_trim (edges : Rat × Rat → Rat → List Rat) (he : MakesEdges edges)
    (xlo ylo dx dy : Rat) (m n p q : Nat) (hdx : 0 < dx) (hdy : 0 < dy) (grid : Grid)
    (h0 : grid.n0 = m + 2 * p) (h1 : grid.n1 = n + 2 * q) :
    let padded : (Rat × Rat) × (Rat × Rat) :=
      ((xlo - p * dx, xlo + m * dx + p * dx), (ylo - q * dy, ylo + n * dy + q * dy))
    let xe := edges padded.1 dx
    let ye := edges padded.2 dy
    let out := captureWriteCall ⟨p, q, p * dx, q * dy⟩ ⟨cellCentres xe, cellCentres ye, grid⟩
    out.xCoord = cellCentres (edges (xlo, xlo + m * dx) dx) ∧
    out.yCoord = cellCentres (edges (ylo, ylo + n * dy) dy) ∧
    out.grid.n0 = m ∧ out.grid.n1 = n ∧
    ∀ i < m, ∀ j < n, out.grid.val i j = grid.val (p + i) (q + j) ∧
      cellRect xe ye (q + j) (p + i) =
        cellRect (edges (xlo, xlo + m * dx) dx) (edges (ylo, ylo + n * dy) dy) j i := by
  have axis : ∀ (lo d : Rat) (m p : Nat), 0 < d →
      edges (lo - p * d, lo + m * d + p * d) d = boxEdges (lo - p * d) d (m + 2 * p) := by
    intro lo d m p hd
    rw [← he _ _ _ hd]
    congr 2
    push_cast
    ring
  have trim : ∀ (lo d : Rat) (m p : Nat), 0 < d →
      (if (p : Int) = 0 then (⟨none, none⟩ : PySlice) else ⟨some p, some (-(p : Int))⟩).apply
        (cellCentres (boxEdges (lo - p * d) d (m + 2 * p))) = cellCentres (boxEdges lo d m) := by
    intro lo d m p hd
    unfold PySlice.apply
    rw [centres_boxEdges, List.length_map, List.length_range, padSlice_bounds, centres_boxEdges]
    unfold slice
    apply List.ext_getElem?
    intro k
    rw [List.getElem?_take, List.getElem?_drop, List.getElem?_map, List.getElem?_map]
    have : m + p - p = m := by omega
    simp only [this]
    by_cases h : k < m
    · rw [if_pos h, List.getElem?_range (by omega), List.getElem?_range h]
      simp only [Option.map_some]
      congr 1
      push_cast
      ring
    · rw [if_neg h, List.getElem?_eq_none (l := List.range m) (by simp; omega)]
      rfl
  intro padded xe ye out
  have hxe : xe = boxEdges (xlo - p * dx) dx (m + 2 * p) := axis xlo dx m p hdx
  have hye : ye = boxEdges (ylo - q * dy) dy (n + 2 * q) := axis ylo dy n q hdy
  refine ⟨?_, ?_, ?_, ?_, ?_⟩
  · show PySlice.apply (getPadSlices _).1 (cellCentres xe) = _
    rw [hxe, he _ _ _ hdx]
    exact trim xlo dx m p hdx
  · show PySlice.apply (getPadSlices _).2 (cellCentres ye) = _
    rw [hye, he _ _ _ hdy]
    exact trim ylo dy n q hdy
  · show ((getPadSlices _).1.bounds grid.n0).2 - ((getPadSlices _).1.bounds grid.n0).1 = m
    unfold getPadSlices
    simp only [h0, padSlice_bounds]
    omega
  · show ((getPadSlices _).2.bounds grid.n1).2 - ((getPadSlices _).2.bounds grid.n1).1 = n
    unfold getPadSlices
    simp only [h1, padSlice_bounds]
    omega
  · intro i hi j hj
    constructor
    · show grid.val (((getPadSlices _).1.bounds grid.n0).1 + i) (((getPadSlices _).2.bounds grid.n1).1 + j) = _
      unfold getPadSlices
      simp only [h0, h1, padSlice_bounds]
    · rw [hxe, hye, he _ _ _ hdx, he _ _ _ hdy]
      unfold cellRect
      simp only [List.getD_eq_getElem?_getD, boxEdges_getElem?]
      rw [if_pos (by omega), if_pos (by omega), if_pos (by omega), if_pos (by omega),
        if_pos (by omega), if_pos (by omega), if_pos (by omega), if_pos (by omega)]
      simp only [Option.getD_some]
      have c : ∀ (lo d : Rat) (p k : Nat), lo - p * d + ((p + k : Nat) : Rat) * d = lo + k * d := by
        intro lo d p k; push_cast; ring
      simp only [Nat.add_assoc, c]

/-- A tile of 2 by 3 boxes with one box of padding in x and none in y. -/
example :
    let out := captureWriteCall ⟨1, 0, 1, 0⟩
      ⟨cellCentres (arangeEdges (-1, 3) 1), cellCentres (arangeEdges (0, 3) 1),
        ⟨4, 3, fun i j => 10 * i + j⟩⟩
    out.xCoord = [1/2, 3/2] ∧ out.yCoord = [1/2, 3/2, 5/2] ∧ out.grid.n0 = 2 ∧ out.grid.n1 = 3 ∧
      out.grid.val 0 0 = 10 ∧ out.grid.val 1 2 = 22 := by decide +kernel

/-! ## C69 -/

/-- The cell centres that `write_goes_imagery` writes for the x axis (`axis = true`) or y axis of a
tile: centres of the gridder's edges for the bounds of the tile, without the padding. -/
def tileCoords (edges : Rat × Rat → Rat → List Rat) (dx dy : Rat) (t : Tile) : List Rat × List Rat :=
  ((getPadSlices t.pads).1.apply (cellCentres (edges t.xBnd dx)),
   (getPadSlices t.pads).2.apply (cellCentres (edges t.yBnd dy)))

theorem subdivideBnd_boxes (lo d : Rat) (N s : Nat) (hs : 0 < s) (hd : 0 < d) :
    subdivideBnd (lo, lo + N * d) d s = .ok (subdivideEdges (lo, lo + N * d) d s N) := by
  unfold subdivideBnd
  rw [if_neg (by rintro (h | h); exacts [hd.ne' h, hs.ne' h])]
  have : (lo + N * d - lo) / d = ((N : Int) : Rat) := by
    push_cast
    field_simp
    ring
  simp only [this]
  rw [pyInt_of_nonneg (by positivity), Int.floor_intCast]

/-- Number of boxes before tile `i`. -/
def tileStart (N s i : Nat) : Nat := if i < s then i * (N / s) else N

theorem edges_boxes (lo d : Rat) (N s i : Nat) (hi : i ≤ s) :
    (subdivideEdges (lo, lo + N * d) d s N).getD i 0 = lo + tileStart N s i * d := by
  rw [edges_getD _ _ _ _ hi]
  unfold tileStart
  split
  · push_cast; ring
  · rfl

theorem tileStart_mono (N s i : Nat) (hi : i < s) : tileStart N s i ≤ tileStart N s (i + 1) := by
  unfold tileStart
  rw [if_pos hi]
  split
  · exact Nat.mul_le_mul_right _ (by omega)
  · exact le_trans (Nat.mul_le_mul_right _ (by omega : i ≤ s)) (Nat.mul_div_le N s)

theorem flatMap_ranges (a : Nat → Nat) (s : Nat) (h0 : a 0 = 0) (hm : ∀ i < s, a i ≤ a (i + 1))
    {β : Type} (f : Nat → β) :
    ((List.range s).flatMap fun i => (List.range (a (i + 1) - a i)).map fun k => f (a i + k)) =
      (List.range (a s)).map f := by
  induction s with
  | zero => rw [h0]; rfl
  | succ s ih =>
    rw [List.range_succ, List.flatMap_append, ih fun i hi => hm i (by omega), List.flatMap_singleton]
    have h := hm s (by omega)
    have e : a (s + 1) = a s + (a (s + 1) - a s) := by omega
    conv_rhs => rw [e, List.range_add, List.map_append, List.map_map]
    rfl

theorem trim_axis (edges : Rat × Rat → Rat → List Rat) (he : MakesEdges edges) (lo d : Rat)
    (a b p : Nat) (hab : a ≤ b) (hd : 0 < d) :
    (if (p : Int) = 0 then (⟨none, none⟩ : PySlice) else ⟨some p, some (-(p : Int))⟩).apply
      (cellCentres (edges (lo + a * d - p * d, lo + b * d + p * d) d)) =
      (List.range (b - a)).map fun (k : Nat) => lo + ((a + k : Nat) + 1/2) * d := by
  have := (C48_trim edges he (lo + a * d) 0 d 1 (b - a) 0 p 0 hd one_pos (Grid.zeros (b - a + 2 * p) 0)
    rfl rfl).1
  have e : lo + a * d + ((b - a : Nat) : Rat) * d = lo + b * d := by
    rw [Nat.cast_sub hab]; ring
  simp only [e] at this
  refine Eq.trans (show _ = _ from this) ?_
  rw [← e, he _ _ _ hd, centres_boxEdges]
  apply List.map_congr_left
  intro k _
  push_cast
  ring

/-- C69.  A domain of `M` by `N` boxes is cut into `s` by `s` tiles, whatever the padding: tiles are
numbered `(0,0), (0,1), ...`; reading off the x coordinates that are written for the tiles
`(0,j), (1,j), ...` of any row gives the x coordinates of the whole domain, each once and in order,
and likewise for y and the tiles `(i,0), (i,1), ...`. -/
theorem C69_mosaic (edges : Rat × Rat → Rat → List Rat) (he : MakesEdges edges)
    (xlo ylo dx dy xPad yPad : Rat) (M N s : Nat) (hs : 0 < s) (hdx : 0 < dx) (hdy : 0 < dy)
    (hxp : 0 ≤ xPad) (hyp : 0 ≤ yPad) :
    ∃ tiles, subdividedFixedGrid (xlo, xlo + M * dx) (ylo, ylo + N * dy) dx dy s xPad yPad = .ok tiles ∧
      tiles.map Tile.ij = (List.range s).flatMap (fun i => (List.range s).map fun j => (i, j)) ∧
      ∃ tile : Nat → Nat → Tile, (∀ i < s, ∀ j < s, tile i j ∈ tiles ∧ (tile i j).ij = (i, j)) ∧
        (∀ j < s, ((List.range s).flatMap fun i => (tileCoords edges dx dy (tile i j)).1) =
          cellCentres (edges (xlo, xlo + M * dx) dx)) ∧
        ∀ i < s, ((List.range s).flatMap fun j => (tileCoords edges dx dy (tile i j)).2) =
          cellCentres (edges (ylo, ylo + N * dy) dy) := by
  obtain ⟨p, hp⟩ : ∃ p : Nat, ⌊xPad / dx⌋ = p :=
    Int.eq_ofNat_of_zero_le (Int.floor_nonneg.mpr (div_nonneg hxp hdx.le))
  obtain ⟨q, hq⟩ : ∃ q : Nat, ⌊yPad / dy⌋ = q :=
    Int.eq_ofNat_of_zero_le (Int.floor_nonneg.mpr (div_nonneg hyp hdy.le))
  have hpads : padsFor xPad yPad dx dy = .ok ⟨p, q, p * dx, q * dy⟩ := by
    unfold padsFor
    rw [if_neg (by rintro (h | h); exacts [hdx.ne' h, hdy.ne' h])]
    simp only [pyInt_of_nonneg (div_nonneg hxp hdx.le), pyInt_of_nonneg (div_nonneg hyp hdy.le), hp,
      hq, Int.cast_natCast]
  obtain ⟨tile, htile⟩ : ∃ tile : Nat → Nat → Tile, tile = fun i j =>
    { ij := (i, j)
      xBnd := ((subdivideEdges (xlo, xlo + M * dx) dx s M).getD i 0 - p * dx,
        (subdivideEdges (xlo, xlo + M * dx) dx s M).getD (i + 1) 0 + p * dx)
      yBnd := ((subdivideEdges (ylo, ylo + N * dy) dy s N).getD j 0 - q * dy,
        (subdivideEdges (ylo, ylo + N * dy) dy s N).getD (j + 1) 0 + q * dy)
      pads := ⟨p, q, p * dx, q * dy⟩ } := ⟨_, rfl⟩
  refine ⟨(List.range s).flatMap fun i => (List.range s).map fun j => tile i j, ?_, ?_, tile, ?_, ?_, ?_⟩
  · unfold subdividedFixedGrid
    simp only [hpads, subdivideBnd_boxes _ _ _ _ hs hdx, subdivideBnd_boxes _ _ _ _ hs hdy, bind,
      Except.bind, pure, Except.pure, htile]
  · rw [List.map_flatMap]
    simp only [List.map_map, htile]
    rfl
  · intro i hi j hj
    refine ⟨List.mem_flatMap.mpr ⟨i, List.mem_range.mpr hi, List.mem_map.mpr ⟨j, List.mem_range.mpr hj, rfl⟩⟩, ?_⟩
    rw [htile]
  · intro j hj
    have : ∀ i ∈ List.range s, (tileCoords edges dx dy (tile i j)).1 =
        (List.range (tileStart M s (i + 1) - tileStart M s i)).map fun (k : Nat) =>
          (fun (k : Nat) => xlo + ((k : Rat) + 1/2) * dx) (tileStart M s i + k) := by
      intro i hi
      have hi := List.mem_range.mp hi
      unfold tileCoords getPadSlices
      simp only [htile]
      rw [edges_boxes _ _ _ _ _ (by omega), edges_boxes _ _ _ _ _ (by omega)]
      exact trim_axis edges he xlo dx _ _ p (tileStart_mono M s i hi) hdx
    rw [List.flatMap_congr this,
      flatMap_ranges (tileStart M s) s (by unfold tileStart; rw [if_pos hs, Nat.zero_mul])
        (fun i hi => tileStart_mono M s i hi) (fun (k : Nat) => xlo + ((k : Rat) + 1/2) * dx), he _ _ _ hdx, centres_boxEdges]
    unfold tileStart
    rw [if_neg (by omega)]
  · intro i hi
    have : ∀ j ∈ List.range s, (tileCoords edges dx dy (tile i j)).2 =
        (List.range (tileStart N s (j + 1) - tileStart N s j)).map fun (k : Nat) =>
          (fun (k : Nat) => ylo + ((k : Rat) + 1/2) * dy) (tileStart N s j + k) := by
      intro j hj
      have hj := List.mem_range.mp hj
      unfold tileCoords getPadSlices
      simp only [htile]
      rw [edges_boxes _ _ _ _ _ (by omega), edges_boxes _ _ _ _ _ (by omega)]
      exact trim_axis edges he ylo dy _ _ q (tileStart_mono N s j hj) hdy
    rw [List.flatMap_congr this,
      flatMap_ranges (tileStart N s) s (by unfold tileStart; rw [if_pos hs, Nat.zero_mul])
        (fun j hj => tileStart_mono N s j hj) (fun (k : Nat) => ylo + ((k : Rat) + 1/2) * dy), he _ _ _ hdy, centres_boxEdges]
    unfold tileStart
    rw [if_neg (by omega)]

/-- Five by four boxes in two by two tiles with one box of padding. -/
example : (subdividedFixedGrid (0, 5) (0, 4) 1 1 2 (3/2) 1).toOption.map
    (fun ts => ts.map fun t => (t.ij, t.xBnd, t.yBnd)) =
    some [((0, 0), (-1, 3), (-1, 3)), ((0, 1), (-1, 3), (1, 5)), ((1, 0), (1, 6), (-1, 3)),
      ((1, 1), (1, 6), (1, 5))] := by decide +kernel

end Verif.Props
