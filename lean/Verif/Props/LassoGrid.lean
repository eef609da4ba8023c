import Verif.Model.LassoGrid
import Verif.Model.Accumulate
import Verif.Props.Setup
import Verif.Props.Lut
import Verif.Props.Stored
import Mathlib.Data.List.GetD
import Mathlib.Tactic.Linarith
import Mathlib.Tactic.Positivity

/-!
# C107: the grid statistics of `glm-lasso-stats.py`
-/

namespace Verif.Props

open Verif.Py Verif.Model Verif.Spec Verif.Proofs

/-! ### Percentiles -/

theorem getD_mono {s : List Rat} (hs : s.Pairwise (· ≤ ·)) {i j : Nat} (hij : i ≤ j) (hj : j < s.length) :
    s.getD i 0 ≤ s.getD j 0 := by
  rw [List.getD_eq_getElem _ _ (by omega), List.getD_eq_getElem _ _ hj]
  rcases Nat.lt_or_eq_of_le hij with h | h
  · exact List.pairwise_iff_getElem.mp hs i j (by omega) hj h
  · subst h; exact le_refl _

/-- Both branches are the same interpolation. -/
theorem score_eq (values : List Rat) (per : Rat) :
    scoreAtPercentile values per =
      (values.insertionSort (· ≤ ·)).getD ⌊per / 100 * ((values.length - 1 : Nat) : Rat)⌋.toNat 0 *
        (((⌊per / 100 * ((values.length - 1 : Nat) : Rat)⌋.toNat + 1 : Nat) : Rat) -
          per / 100 * ((values.length - 1 : Nat) : Rat)) +
      (values.insertionSort (· ≤ ·)).getD (⌊per / 100 * ((values.length - 1 : Nat) : Rat)⌋.toNat + 1) 0 *
        (per / 100 * ((values.length - 1 : Nat) : Rat) -
          (⌊per / 100 * ((values.length - 1 : Nat) : Rat)⌋.toNat : Nat)) := by
  unfold scoreAtPercentile
  simp only
  split
  · rename_i h
    generalize per / 100 * ((values.length - 1 : Nat) : Rat) = q at h ⊢
    generalize ⌊q⌋.toNat = i at h ⊢
    rw [← h]
    push_cast
    ring
  · rfl

theorem floor_toNat {q : Rat} (h : 0 ≤ q) : ((⌊q⌋.toNat : Nat) : Rat) ≤ q ∧ q < ((⌊q⌋.toNat : Nat) : Rat) + 1 := by
  have h0 : (0 : Int) ≤ ⌊q⌋ := Int.floor_nonneg.mpr h
  have e : ((⌊q⌋.toNat : Nat) : Rat) = ((⌊q⌋ : Int) : Rat) := by
    rw [← Int.cast_natCast, Int.toNat_of_nonneg h0]
  rw [e]
  exact ⟨Int.floor_le q, Int.lt_floor_add_one q⟩

/-- The position in the sorted values and the two neighbours. -/
theorem score_bounds {values : List Rat} (hne : values ≠ []) {per : Rat} (h0 : 0 ≤ per) (h1 : per ≤ 100) :
    ∃ i j : Nat, i ≤ j ∧ j < values.length ∧ j ≤ i + 1 ∧
      (i : Rat) ≤ per / 100 * ((values.length - 1 : Nat) : Rat) ∧
      per / 100 * ((values.length - 1 : Nat) : Rat) < (i : Rat) + 1 ∧
      per / 100 * ((values.length - 1 : Nat) : Rat) ≤ (j : Rat) ∧
      (j : Rat) < per / 100 * ((values.length - 1 : Nat) : Rat) + 1 ∧
      (values.insertionSort (· ≤ ·)).getD i 0 ≤ scoreAtPercentile values per ∧
      scoreAtPercentile values per ≤ (values.insertionSort (· ≤ ·)).getD j 0 := by
  set q := per / 100 * ((values.length - 1 : Nat) : Rat) with hq
  have hpos : 0 < values.length := List.length_pos_iff.mpr hne
  have hn : (0 : Rat) ≤ ((values.length - 1 : Nat) : Rat) := Nat.cast_nonneg _
  have hq0 : 0 ≤ q := by positivity
  have hq1 : q ≤ ((values.length - 1 : Nat) : Rat) := by
    have : per / 100 ≤ 1 := by linarith
    calc q ≤ 1 * ((values.length - 1 : Nat) : Rat) := mul_le_mul_of_nonneg_right this hn
      _ = _ := one_mul _
  obtain ⟨f1, f2⟩ := floor_toNat hq0
  have hsort : (values.insertionSort (· ≤ ·)).Pairwise (· ≤ ·) := List.pairwise_insertionSort _ _
  have hlen : (values.insertionSort (· ≤ ·)).length = values.length := List.length_insertionSort _ _
  have hin : ⌊q⌋.toNat ≤ values.length - 1 := by
    have : ((⌊q⌋.toNat : Nat) : Rat) ≤ ((values.length - 1 : Nat) : Rat) := le_trans f1 hq1
    exact_mod_cast this
  have hsc := score_eq values per
  rw [← hq] at hsc
  by_cases he : ((⌊q⌋.toNat : Nat) : Rat) = q
  · refine ⟨⌊q⌋.toNat, ⌊q⌋.toNat, le_refl _, by omega, by omega, f1, f2, ?_, ?_, ?_, ?_⟩
    · rw [he]
    · rw [he]; linarith
    all_goals
      rw [hsc]
      rw [he]
      push_cast
      rw [he]
      apply le_of_eq
      ring
  · have hlt : ((⌊q⌋.toNat : Nat) : Rat) < q := lt_of_le_of_ne f1 he
    have hj : ⌊q⌋.toNat + 1 < values.length := by
      have : ((⌊q⌋.toNat : Nat) : Rat) < ((values.length - 1 : Nat) : Rat) := lt_of_lt_of_le hlt hq1
      have : ⌊q⌋.toNat < values.length - 1 := by exact_mod_cast this
      omega
    have hm := getD_mono hsort (i := ⌊q⌋.toNat) (j := ⌊q⌋.toNat + 1) (by omega) (by omega)
    refine ⟨⌊q⌋.toNat, ⌊q⌋.toNat + 1, by omega, hj, le_refl _, f1, f2, ?_, ?_, ?_, ?_⟩
    · push_cast; linarith
    · push_cast; linarith
    all_goals
      rw [hsc]
      push_cast
      generalize (values.insertionSort (· ≤ ·)).getD ⌊q⌋.toNat 0 = a at *
      generalize (values.insertionSort (· ≤ ·)).getD (⌊q⌋.toNat + 1) 0 = b at *
      generalize ((⌊q⌋.toNat : Nat) : Rat) = k at *
      have hba : 0 ≤ b - a := by linarith
      have h1 : 0 ≤ (b - a) * (q - k) := mul_nonneg hba (by linarith)
      have h2 : 0 ≤ (b - a) * (k + 1 - q) := mul_nonneg hba (by linarith)
      nlinarith

theorem getD_mem_sorted {values : List Rat} {i : Nat} (h : i < values.length) :
    (values.insertionSort (· ≤ ·)).getD i 0 ∈ values := by
  have hlen : (values.insertionSort (· ≤ ·)).length = values.length := List.length_insertionSort _ _
  rw [List.getD_eq_getElem _ _ (by omega)]
  exact (List.perm_insertionSort _ values).mem_iff.mp (List.getElem_mem _)

/-- What a percentile is: a number in the range of the values, with more than `per` percent of the other values not
above it, and more than the rest of them not below it. -/
def IsPercentile (values : List Rat) (per score : Rat) : Prop :=
  (∃ lo ∈ values, lo ≤ score) ∧ (∃ hi ∈ values, score ≤ hi) ∧
  per / 100 * ((values.length : Rat) - 1) < ((values.filter (· ≤ score)).length : Rat) ∧
  (1 - per / 100) * ((values.length : Rat) - 1) < ((values.filter (score ≤ ·)).length : Rat)

theorem filter_le_of_take {s : List Rat} {p : Rat → Bool} {k : Nat} (hk : k ≤ s.length)
    (h : ∀ v ∈ s.take k, p v = true) : k ≤ (s.filter p).length := by
  have h1 : (s.take k).filter p = s.take k := List.filter_eq_self.mpr h
  have h2 : ((s.take k).filter p).Sublist (s.filter p) := (List.take_sublist k s).filter p
  have := h2.length_le
  rw [h1, List.length_take] at this
  omega

theorem filter_le_of_drop {s : List Rat} {p : Rat → Bool} {k : Nat} (h : ∀ v ∈ s.drop k, p v = true) :
    s.length - k ≤ (s.filter p).length := by
  have h1 : (s.drop k).filter p = s.drop k := List.filter_eq_self.mpr h
  have h2 : ((s.drop k).filter p).Sublist (s.filter p) := (List.drop_sublist k s).filter p
  have := h2.length_le
  rw [h1, List.length_drop] at this
  omega

theorem score_isPercentile {values : List Rat} (hne : values ≠ []) {per : Rat} (h0 : 0 ≤ per) (h1 : per ≤ 100) :
    IsPercentile values per (scoreAtPercentile values per) := by
  obtain ⟨i, j, hij, hj, -, a1, a2, a3, a4, a5, a6⟩ := score_bounds hne h0 h1
  have hpos : 0 < values.length := List.length_pos_iff.mpr hne
  have hc : ((values.length - 1 : Nat) : Rat) = (values.length : Rat) - 1 := by
    rw [Nat.cast_sub (by omega)]; simp
  rw [hc] at a1 a2 a3 a4
  have hsort : (values.insertionSort (· ≤ ·)).Pairwise (· ≤ ·) := List.pairwise_insertionSort _ _
  have hlen : (values.insertionSort (· ≤ ·)).length = values.length := List.length_insertionSort _ _
  have hperm : (values.insertionSort (· ≤ ·)).Perm values := List.perm_insertionSort _ _
  set sc := scoreAtPercentile values per
  refine ⟨⟨_, getD_mem_sorted (by omega : i < values.length), a5⟩, ⟨_, getD_mem_sorted hj, a6⟩, ?_, ?_⟩
  · have hcount : i + 1 ≤ (values.filter (· ≤ sc)).length := by
      rw [← (hperm.filter (fun x => decide (x ≤ sc))).length_eq]
      apply filter_le_of_take (by omega)
      intro v hv
      obtain ⟨k, hk, rfl⟩ := List.getElem_of_mem hv
      rw [List.length_take] at hk
      rw [List.getElem_take]
      have := getD_mono hsort (i := k) (j := i) (by omega) (by omega)
      rw [List.getD_eq_getElem _ _ (by omega)] at this
      exact decide_eq_true (le_trans this a5)
    have : ((i + 1 : Nat) : Rat) ≤ ((values.filter (· ≤ sc)).length : Rat) := by exact_mod_cast hcount
    push_cast at this
    linarith
  · have hcount : values.length - j ≤ (values.filter (sc ≤ ·)).length := by
      rw [← (hperm.filter (fun x => decide (sc ≤ x))).length_eq, ← hlen]
      apply filter_le_of_drop
      intro v hv
      obtain ⟨k, hk, rfl⟩ := List.getElem_of_mem hv
      rw [List.length_drop] at hk
      rw [List.getElem_drop]
      have := getD_mono hsort (i := j) (j := j + k) (by omega) (by omega)
      rw [List.getD_eq_getElem (n := j + k) _ _ (by omega)] at this
      exact decide_eq_true (le_trans a6 this)
    have : ((values.length - j : Nat) : Rat) ≤ ((values.filter (sc ≤ ·)).length : Rat) := by exact_mod_cast hcount
    rw [Nat.cast_sub (by omega)] at this
    nlinarith

theorem score_mono {values : List Rat} (hne : values ≠ []) {p q : Rat} (h0 : 0 ≤ p) (hpq : p ≤ q) (h1 : q ≤ 100) :
    scoreAtPercentile values p ≤ scoreAtPercentile values q := by
  have hn : (0 : Rat) ≤ ((values.length - 1 : Nat) : Rat) := Nat.cast_nonneg _
  have hle : p / 100 * ((values.length - 1 : Nat) : Rat) ≤ q / 100 * ((values.length - 1 : Nat) : Rat) :=
    mul_le_mul_of_nonneg_right (by linarith) hn
  have hsort : (values.insertionSort (· ≤ ·)).Pairwise (· ≤ ·) := List.pairwise_insertionSort _ _
  have hlen : (values.insertionSort (· ≤ ·)).length = values.length := List.length_insertionSort _ _
  have hfl : ⌊p / 100 * ((values.length - 1 : Nat) : Rat)⌋.toNat ≤ ⌊q / 100 * ((values.length - 1 : Nat) : Rat)⌋.toNat :=
    Int.toNat_le_toNat (Int.floor_le_floor hle)
  rcases Nat.lt_or_eq_of_le hfl with hlt | heq
  · obtain ⟨i, j, b0, hj, b1, a1, a2, a3, a4, a5, a6⟩ := score_bounds hne h0 (le_trans hpq h1)
    obtain ⟨i', j', c0, hj', c1, d1, d2, d3, d4, d5, d6⟩ := score_bounds hne (le_trans h0 hpq) h1
    have f1 := floor_toNat (q := p / 100 * ((values.length - 1 : Nat) : Rat)) (by positivity)
    have f2 := floor_toNat (q := q / 100 * ((values.length - 1 : Nat) : Rat)) (by
      have : 0 ≤ q := le_trans h0 hpq
      positivity)
    have hji : j ≤ i' := by
      have e1 : (j : Rat) < (⌊p / 100 * ((values.length - 1 : Nat) : Rat)⌋.toNat : Rat) + 1 + 1 := by linarith [f1.2]
      have e2 : (⌊q / 100 * ((values.length - 1 : Nat) : Rat)⌋.toNat : Rat) < (i' : Rat) + 1 := by linarith [f2.1]
      have e1' : j < ⌊p / 100 * ((values.length - 1 : Nat) : Rat)⌋.toNat + 1 + 1 := by exact_mod_cast e1
      have e2' : ⌊q / 100 * ((values.length - 1 : Nat) : Rat)⌋.toNat < i' + 1 := by exact_mod_cast e2
      omega
    exact le_trans a6 (le_trans (getD_mono hsort hji (by omega)) d5)
  · rw [score_eq, score_eq, ← heq]
    have hq0 : 0 ≤ p / 100 * ((values.length - 1 : Nat) : Rat) := by positivity
    obtain ⟨f1, f2⟩ := floor_toNat hq0
    have hq1 : q / 100 * ((values.length - 1 : Nat) : Rat) ≤ ((values.length - 1 : Nat) : Rat) := by
      have : q / 100 ≤ 1 := by linarith
      calc q / 100 * ((values.length - 1 : Nat) : Rat) ≤ 1 * ((values.length - 1 : Nat) : Rat) :=
            mul_le_mul_of_nonneg_right this hn
        _ = _ := one_mul _
    set i := ⌊p / 100 * ((values.length - 1 : Nat) : Rat)⌋.toNat
    by_cases hi : i + 1 < values.length
    · have hm := getD_mono hsort (i := i) (j := i + 1) (by omega) (by omega)
      generalize (values.insertionSort (· ≤ ·)).getD i 0 = a at *
      generalize (values.insertionSort (· ≤ ·)).getD (i + 1) 0 = b at *
      generalize p / 100 * ((values.length - 1 : Nat) : Rat) = x at *
      generalize q / 100 * ((values.length - 1 : Nat) : Rat) = y at *
      push_cast
      have : 0 ≤ (b - a) * (y - x) := mul_nonneg (by linarith) (by linarith)
      nlinarith
    · have hp : ((values.length - 1 : Nat) : Rat) ≤ (i : Rat) := by
        have : values.length - 1 ≤ i := by omega
        exact_mod_cast this
      have e1 : p / 100 * ((values.length - 1 : Nat) : Rat) = q / 100 * ((values.length - 1 : Nat) : Rat) := by linarith
      rw [e1]

/-! ### What a line should say -/

/-- The centre of a cell in one direction. -/
def centreAt (edge : List Rat) (i : Nat) : Rat := (edge.getD i 0 + edge.getD (i + 1) 0) / 2

/-- The value of the cell in column `i` and row `j`. -/
def cellValue (f : LassoFrame) (i j : Nat) : Rat := (f.data.getD j []).getD i 0

/-- One value for each cell between the edges. -/
def ShapedFrame (f : LassoFrame) : Prop :=
  f.data.length = f.yedge.length - 1 ∧ ∀ row ∈ f.data, row.length = f.xedge.length - 1

/-- The lassos contain the centre of a cell, one second after the frame begins; positions and times are in single
precision. -/
def cellInLasso (single : Rat → Rat) (inside : Rat → Rat → Rat → Bool) (base : Int) (f : LassoFrame) (i j : Nat) : Bool :=
  inside (single (((f.t - base : Int) : Rat) / 1000000 + 1)) (single (centreAt f.xedge i)) (single (centreAt f.yedge j))

/-- The cells of a frame. -/
def IsGridCell (f : LassoFrame) (i j : Nat) : Prop := i < f.xedge.length - 1 ∧ j < f.yedge.length - 1

/-- The numbers of a line: the greatest value (0 if the lassos contain no centre) and the sum of the values of the cells
with centres in the lassos. -/
def RightNumbers (single : Rat → Rat) (inside : Rat → Rat → Rat → Bool) (base : Int) (f : LassoFrame) (r : LogRow) :
    Prop :=
  (∀ i j, IsGridCell f i j → cellInLasso single inside base f i j → cellValue f i j ≤ r.max) ∧
  ((∃ i j, IsGridCell f i j ∧ cellInLasso single inside base f i j = true ∧ cellValue f i j = r.max) ∨
    r.max = 0 ∧ ∀ i j, IsGridCell f i j → cellInLasso single inside base f i j = false) ∧
  r.sum = ∑ j ∈ Finset.range (f.yedge.length - 1), ∑ i ∈ Finset.range (f.xedge.length - 1),
    if cellInLasso single inside base f i j then cellValue f i j else 0

/-- The values are counts, areas or energies. -/
def NonnegFrame (f : LassoFrame) : Prop := ∀ row ∈ f.data, ∀ v ∈ row, 0 ≤ v

/-- There is lightning in a cell with its centre in the lassos. -/
def Lightning (single : Rat → Rat) (inside : Rat → Rat → Rat → Bool) (base : Int) (f : LassoFrame) : Prop :=
  ∃ i j, IsGridCell f i j ∧ cellInLasso single inside base f i j = true ∧ 0 < cellValue f i j

/-- The positive values in the lassos, row by row. -/
def positiveValues (single : Rat → Rat) (inside : Rat → Rat → Rat → Bool) (base : Int) (f : LassoFrame) : List Rat :=
  (List.range (f.yedge.length - 1)).flatMap fun j => (List.range (f.xedge.length - 1)).filterMap fun i =>
    if cellInLasso single inside base f i j = true ∧ 0 < cellValue f i j then some (cellValue f i j) else none

theorem gridCentres_length (edge : List Rat) : (gridCentres edge).length = edge.length - 1 := by
  unfold gridCentres
  rw [List.length_zipWith, List.length_tail]
  omega

theorem gridCentres_getD (edge : List Rat) (i : Nat) (h : i < edge.length - 1) :
    (gridCentres edge).getD i 0 = centreAt edge i := by
  have hl := gridCentres_length edge
  rw [List.getD_eq_getElem _ _ (by omega)]
  unfold gridCentres centreAt
  rw [List.getElem_zipWith, List.getElem_tail, List.getD_eq_getElem _ _ (by omega), List.getD_eq_getElem _ _ (by omega)]
  ring

theorem zip_range {α β : Type} {a : List α} {b : List β} {n : Nat} (d : α) (e : β) (ha : a.length = n)
    (hb : b.length = n) : a.zip b = (List.range n).map fun i => (a.getD i d, b.getD i e) := by
  apply List.ext_getElem
  · simp [ha, hb]
  · intro i h1 h2
    simp only [List.length_zip] at h1
    rw [List.getElem_zip, List.getElem_map, List.getElem_range, List.getD_eq_getElem _ _ (by omega),
      List.getD_eq_getElem _ _ (by omega)]

/-- The record of a cell. -/
def cellRecord (single : Rat → Rat) (base : Int) (f : LassoFrame) (i j : Nat) : GridRecord :=
  ⟨single (((f.t - base : Int) : Rat) / 1000000 + 1), single (centreAt f.xedge i), single (centreAt f.yedge j),
    cellValue f i j⟩

theorem gridRecords_eq {f : LassoFrame} (hf : ShapedFrame f) (single : Rat → Rat) (base : Int) :
    gridRecords single base f = .ok ((List.range (f.yedge.length - 1)).flatMap fun j =>
      (List.range (f.xedge.length - 1)).map fun i => cellRecord single base f i j) := by
  unfold gridRecords
  simp only [gridCentres_length]
  rw [if_pos (show _ ∧ _ from hf), zip_range [] 0 hf.1 (gridCentres_length f.yedge), List.flatMap_map]
  congr 1
  apply List.flatMap_congr
  intro j hj
  rw [List.mem_range] at hj
  have hrow : (f.data.getD j []).length = f.xedge.length - 1 := by
    rw [List.getD_eq_getElem _ _ (by rw [hf.1]; exact hj)]
    exact hf.2 _ (List.getElem_mem _)
  simp only
  rw [zip_range 0 0 hrow (gridCentres_length f.xedge), List.map_map]
  apply List.map_congr_left
  intro i hi
  rw [List.mem_range] at hi
  simp only [Function.comp]
  rw [gridCentres_getD _ _ hi, gridCentres_getD _ _ hj]
  rfl

theorem mem_cells {f : LassoFrame} {single : Rat → Rat} {base : Int} {r : GridRecord} :
    (r ∈ (List.range (f.yedge.length - 1)).flatMap fun j =>
      (List.range (f.xedge.length - 1)).map fun i => cellRecord single base f i j) ↔
      ∃ i j, IsGridCell f i j ∧ r = cellRecord single base f i j := by
  simp only [List.mem_flatMap, List.mem_range, List.mem_map]
  constructor
  · rintro ⟨j, hj, i, hi, rfl⟩
    exact ⟨i, j, ⟨hi, hj⟩, rfl⟩
  · rintro ⟨i, j, ⟨hi, hj⟩, rfl⟩
    exact ⟨j, hj, i, hi, rfl⟩

theorem sum_filter_value (l : List GridRecord) (p : GridRecord → Bool) :
    ((l.filter p).map GridRecord.value).sum = (l.map fun r => if p r then r.value else 0).sum := by
  induction l with
  | nil => rfl
  | cons a l ih =>
    rw [List.filter_cons, List.map_cons, List.sum_cons]
    by_cases h : p a = true
    · simp [h, ih]
    · simp [h, ih]

theorem sum_flatMap_range (n : Nat) (g : Nat → List Rat) :
    ((List.range n).flatMap g).sum = ((List.range n).map fun j => (g j).sum).sum := by
  induction List.range n with
  | nil => rfl
  | cons a l ih => rw [List.flatMap_cons, List.sum_append, ih, List.map_cons, List.sum_cons]

theorem sum_cells (single : Rat → Rat) (inside : Rat → Rat → Rat → Bool) (base : Int) (f : LassoFrame) :
    ((((List.range (f.yedge.length - 1)).flatMap fun j => (List.range (f.xedge.length - 1)).map fun i =>
      cellRecord single base f i j).filter fun r => inside r.t r.lon r.lat).map GridRecord.value).sum =
    ∑ j ∈ Finset.range (f.yedge.length - 1), ∑ i ∈ Finset.range (f.xedge.length - 1),
      if cellInLasso single inside base f i j then cellValue f i j else 0 := by
  rw [sum_filter_value, List.map_flatMap, sum_flatMap_range, list_range_sum]
  apply Finset.sum_congr rfl
  intro j _
  rw [List.map_map, list_range_sum]
  rfl

theorem npMax_spec {v : List Rat} {m : Rat} (h : npMax v = .ok m) : m ∈ v ∧ ∀ x ∈ v, x ≤ m := by
  cases v with
  | nil => cases h
  | cons a as =>
    have e : as.foldl max a = m := by simpa [npMax] using h
    subst e
    clear h
    induction as generalizing a with
    | nil => simp
    | cons b bs ih =>
      rw [List.foldl_cons]
      obtain ⟨h1, h2⟩ := ih (max a b)
      constructor
      · rcases List.mem_cons.mp h1 with h | h
        · rw [h]
          rcases max_choice a b with h' | h' <;> rw [h'] <;> simp
        · exact List.mem_cons_of_mem _ (List.mem_cons_of_mem _ h)
      · intro x hx
        have hm := h2 (max a b) List.mem_cons_self
        rcases List.mem_cons.mp hx with rfl | hx
        · exact le_trans (le_max_left _ _) hm
        · rcases List.mem_cons.mp hx with rfl | hx
          · exact le_trans (le_max_right _ _) hm
          · exact h2 x (List.mem_cons_of_mem _ hx)

theorem npMax_ok {v : List Rat} (h : v ≠ []) : ∃ m, npMax v = .ok m := by
  cases v with
  | nil => exact absurd rfl h
  | cons a as => exact ⟨_, rfl⟩

theorem digit_isDigit (n : Nat) : '0' ≤ digit n ∧ digit n ≤ '9' := by
  have h : n % 10 < 10 := Nat.mod_lt _ (by omega)
  unfold digit
  interval_cases n % 10 <;> decide

theorem isDecimal_two {n : Nat} (h : n < 100) : IsDecimal 2 n (two n) := by
  refine ⟨rfl, ?_, ?_⟩
  · intro c hc
    simp only [two, List.mem_cons, List.not_mem_nil, or_false] at hc
    rcases hc with rfl | rfl <;> exact digit_isDigit _
  · simp only [two, List.foldl_cons, List.foldl_nil, digit_toNat]
    omega

theorem isDecimal_four {n : Nat} (h : n < 10000) : IsDecimal 4 n (four n) := by
  refine ⟨rfl, ?_, ?_⟩
  · intro c hc
    simp only [four, List.mem_cons, List.not_mem_nil, or_false] at hc
    rcases hc with rfl | rfl | rfl | rfl <;> exact digit_isDigit _
  · simp only [four, List.foldl_cons, List.foldl_nil, digit_toNat]
    omega

theorem isoformat_isIso {t : DateTime} (ht : ValidTime t) : IsIso t (isoformat 'T' t) := by
  have h1 := ht.year
  have h2 := ht.month
  have h3 := ht.day
  have h4 := daysIn_le t.year t.month
  have h5 := ht.hour
  have h6 := ht.minute
  have h7 := ht.second
  exact ⟨_, _, _, _, _, _, _, isDecimal_four (by omega), isDecimal_two (by omega), isDecimal_two (by omega),
    isDecimal_two (by omega), isDecimal_two (by omega), isDecimal_two (by omega), rfl⟩

/-- Text with a blank between date and time is not in ISO format. -/
theorem strTime_not_iso (t t' : DateTime) : ¬ IsIso t' (strTime t) := by
  rintro ⟨ty, tmo, td, th, tmi, ts, rest, ⟨a1, -⟩, ⟨a2, -⟩, ⟨a3, -⟩, -, -, -, h⟩
  match ty, a1, tmo, a2, td, a3 with
  | [_, _, _, _], _, [_, _], _, [_, _], _ =>
    have := congrArg (fun l : Text => l[10]?) h
    simp [strTime, isoformat, four, two] at this

/-! ## C107 -/

/-- The property: the log has one line for each frame from the first to the last time of the lassos, in order, with
the time in ISO format (as the header says), the greatest value and the sum of the cells with centres in the lassos,
and the percentiles of the positive ones. -/
def C107_full : Prop := ∀ (calendar : Int → DateTime) (single : Rat → Rat) (inside : Rat → Rat → Rat → Bool)
  (base tStart tEnd : Int) (frames : List LassoFrame),
  (∀ t, ValidTime (calendar t)) → (∀ f ∈ frames, ShapedFrame f ∧ NonnegFrame f) →
  ∃ rows, lassoGridLog calendar single inside base tStart tEnd frames = .ok rows ∧
    List.Forall₂ (fun f r => IsIso (calendar f.t) r.time ∧ RightNumbers single inside base f r ∧
      (positiveValues single inside base f ≠ [] →
        IsPercentile (positiveValues single inside base f) 5 r.p5 ∧
        IsPercentile (positiveValues single inside base f) 50 r.p50 ∧
        IsPercentile (positiveValues single inside base f) 95 r.p95))
      (frames.filter fun f => decide (tStart ≤ f.t ∧ f.t ≤ tEnd)) rows

theorem nonzero_eq (single : Rat → Rat) (inside : Rat → Rat → Rat → Bool) (base : Int) (f : LassoFrame) :
    (((List.range (f.yedge.length - 1)).flatMap fun j => (List.range (f.xedge.length - 1)).map fun i =>
      cellRecord single base f i j).filter fun r => inside r.t r.lon r.lat && decide (r.value > 0)).map
        GridRecord.value = positiveValues single inside base f := by
  unfold positiveValues
  induction List.range (f.yedge.length - 1) with
  | nil => rfl
  | cons j l ih =>
    rw [List.flatMap_cons, List.filter_append, List.map_append, ih, List.flatMap_cons]
    congr 1
    induction List.range (f.xedge.length - 1) with
    | nil => rfl
    | cons i m ih2 =>
      rw [List.map_cons, List.filter_cons, List.filterMap_cons]
      by_cases h : cellInLasso single inside base f i j = true ∧ 0 < cellValue f i j
      · rw [if_pos h, if_pos (by
          simp only [Bool.and_eq_true, decide_eq_true_eq]
          exact h), List.map_cons, ih2]
        rfl
      · rw [if_neg h, if_neg (by
          simp only [Bool.and_eq_true, decide_eq_true_eq]
          exact h), ih2]

theorem ne_nil_iff_mem {α : Type} {l : List α} : l ≠ [] ↔ ∃ a, a ∈ l :=
  ⟨List.exists_mem_of_ne_nil l, fun ⟨_, h⟩ => List.ne_nil_of_mem h⟩

theorem positiveValues_ne {single : Rat → Rat} {inside : Rat → Rat → Rat → Bool} {base : Int} {f : LassoFrame} :
    positiveValues single inside base f ≠ [] ↔ Lightning single inside base f := by
  rw [ne_nil_iff_mem]
  unfold positiveValues Lightning
  simp only [List.mem_flatMap, List.mem_range, List.mem_filterMap]
  constructor
  · rintro ⟨v, j, hj, i, hi, h⟩
    by_cases hc : cellInLasso single inside base f i j = true ∧ 0 < cellValue f i j
    · exact ⟨i, j, ⟨hi, hj⟩, hc⟩
    · rw [if_neg hc] at h; cases h
  · rintro ⟨i, j, ⟨hi, hj⟩, hc⟩
    exact ⟨_, j, hj, i, hi, if_pos hc⟩

/-- C107: a frame with lightning in the lassos gets the line it should, with percentiles in order. -/
theorem C107_lightning_partial (calendar : Int → DateTime) (single : Rat → Rat) (inside : Rat → Rat → Rat → Bool)
    (base : Int) (f : LassoFrame) (hc : ValidTime (calendar f.t)) (hs : ShapedFrame f)
    (hl : Lightning single inside base f) :
    ∃ r, plotLassoGridSubset calendar single inside base f = .ok r ∧ IsIso (calendar f.t) r.time ∧
      RightNumbers single inside base f r ∧
      IsPercentile (positiveValues single inside base f) 5 r.p5 ∧
      IsPercentile (positiveValues single inside base f) 50 r.p50 ∧
      IsPercentile (positiveValues single inside base f) 95 r.p95 ∧ 0 < r.p5 ∧ r.p5 ≤ r.p50 ∧ r.p50 ≤ r.p95 ∧
      r.p95 ≤ r.max := by
  have hne := positiveValues_ne.mpr hl
  have hnz := nonzero_eq single inside base f
  unfold plotLassoGridSubset
  rw [gridRecords_eq hs]
  simp only [bind, Except.bind, pure, Except.pure]
  rw [if_pos (by
    apply List.length_pos_iff.mpr
    intro h0
    rw [h0] at hnz
    exact hne hnz.symm), hnz]
  have hvne : ((((List.range (f.yedge.length - 1)).flatMap fun j => (List.range (f.xedge.length - 1)).map fun i =>
      cellRecord single base f i j).filter fun r => inside r.t r.lon r.lat).map GridRecord.value) ≠ [] := by
    obtain ⟨i, j, hij, hin, -⟩ := hl
    apply List.ne_nil_of_mem (a := cellValue f i j)
    exact List.mem_map.mpr ⟨cellRecord single base f i j,
      List.mem_filter.mpr ⟨mem_cells.mpr ⟨i, j, hij, rfl⟩, hin⟩, rfl⟩
  obtain ⟨m, hm⟩ := npMax_ok hvne
  obtain ⟨m1, m2⟩ := npMax_spec hm
  rw [hm]
  have hmle : ∀ i j, IsGridCell f i j → cellInLasso single inside base f i j → cellValue f i j ≤ m := by
    intro i j hij hin
    exact m2 _ (List.mem_map.mpr ⟨cellRecord single base f i j,
      List.mem_filter.mpr ⟨mem_cells.mpr ⟨i, j, hij, rfl⟩, hin⟩, rfl⟩)
  have p5 := score_isPercentile hne (per := 5) (by norm_num) (by norm_num)
  have p50 := score_isPercentile hne (per := 50) (by norm_num) (by norm_num)
  have p95 := score_isPercentile hne (per := 95) (by norm_num) (by norm_num)
  have hmem : ∀ v ∈ positiveValues single inside base f, ∃ i j, IsGridCell f i j ∧
      cellInLasso single inside base f i j = true ∧ 0 < cellValue f i j ∧ v = cellValue f i j := by
    intro v hv
    unfold positiveValues at hv
    simp only [List.mem_flatMap, List.mem_range, List.mem_filterMap] at hv
    obtain ⟨j, hj, i, hi, h⟩ := hv
    by_cases hc : cellInLasso single inside base f i j = true ∧ 0 < cellValue f i j
    · rw [if_pos hc] at h
      cases h
      exact ⟨i, j, ⟨hi, hj⟩, hc.1, hc.2, rfl⟩
    · rw [if_neg hc] at h; cases h
  refine ⟨_, rfl, isoformat_isIso hc, ⟨hmle, Or.inl ?_, sum_cells single inside base f⟩, p5, p50, p95, ?_,
    score_mono hne (by norm_num) (by norm_num) (by norm_num), score_mono hne (by norm_num) (by norm_num) (by norm_num), ?_⟩
  · obtain ⟨r, hr, rfl⟩ := List.mem_map.mp m1
    obtain ⟨h1, h2⟩ := List.mem_filter.mp hr
    obtain ⟨i, j, hij, rfl⟩ := mem_cells.mp h1
    exact ⟨i, j, hij, h2, rfl⟩
  · obtain ⟨lo, hlo, hle⟩ := p5.1
    obtain ⟨i, j, -, -, hpos, rfl⟩ := hmem lo hlo
    exact lt_of_lt_of_le hpos hle
  · obtain ⟨hi, hhi, hle⟩ := p95.2.1
    obtain ⟨i, j, hij, hin, -, rfl⟩ := hmem hi hhi
    exact le_trans hle (hmle i j hij hin)

/-- C107: a frame without lightning in the lassos gets a line of zeros, which are the right numbers, but its time is not
in ISO format. -/
theorem C107_none_partial (calendar : Int → DateTime) (single : Rat → Rat) (inside : Rat → Rat → Rat → Bool)
    (base : Int) (f : LassoFrame) (hs : ShapedFrame f) (hn : NonnegFrame f) (hl : ¬ Lightning single inside base f) :
    ∃ r, plotLassoGridSubset calendar single inside base f = .ok r ∧ RightNumbers single inside base f r ∧
      r.max = 0 ∧ r.sum = 0 ∧ r.p5 = 0 ∧ r.p50 = 0 ∧ r.p95 = 0 ∧ ∀ t, ¬ IsIso t r.time := by
  have hne : positiveValues single inside base f = [] := by
    by_contra h
    exact hl (positiveValues_ne.mp h)
  have hnz := nonzero_eq single inside base f
  unfold plotLassoGridSubset
  rw [gridRecords_eq hs]
  simp only [bind, Except.bind, pure, Except.pure]
  rw [if_neg (by
    rw [hne, List.map_eq_nil_iff] at hnz
    rw [hnz]; simp)]
  have hval : ∀ i j, IsGridCell f i j → 0 ≤ cellValue f i j := by
    rintro i j ⟨hi, hj⟩
    unfold cellValue
    have h1 : j < f.data.length := by rw [hs.1]; exact hj
    rw [List.getD_eq_getElem _ _ h1]
    have h2 := hs.2 _ (List.getElem_mem h1)
    rw [List.getD_eq_getElem _ _ (by rw [h2]; exact hi)]
    exact hn _ (List.getElem_mem h1) _ (List.getElem_mem _)
  have hzero : ∀ i j, IsGridCell f i j → cellInLasso single inside base f i j = true → cellValue f i j = 0 := by
    intro i j hij hin
    by_contra h
    exact hl ⟨i, j, hij, hin, lt_of_le_of_ne (hval i j hij) (Ne.symm h)⟩
  refine ⟨_, rfl, ⟨fun i j hij hin => le_of_eq (hzero i j hij hin), ?_, ?_⟩, rfl, rfl, rfl, rfl, rfl,
    fun t => strTime_not_iso _ t⟩
  · by_cases h : ∃ i j, IsGridCell f i j ∧ cellInLasso single inside base f i j = true
    · obtain ⟨i, j, hij, hin⟩ := h
      exact Or.inl ⟨i, j, hij, hin, hzero i j hij hin⟩
    · right
      refine ⟨rfl, ?_⟩
      intro i j hij
      by_contra hc
      exact h ⟨i, j, hij, by simpa using hc⟩
  · symm
    apply Finset.sum_eq_zero
    intro j hj
    apply Finset.sum_eq_zero
    intro i hi
    rw [Finset.mem_range] at hi hj
    split
    · rename_i hin
      exact hzero i j ⟨hi, hj⟩ hin
    · rfl

/-- A frame of the right shape gets a line, any other raises AssertionError. -/
theorem plotLasso_cases (calendar : Int → DateTime) (single : Rat → Rat) (inside : Rat → Rat → Rat → Bool)
    (base : Int) (f : LassoFrame) :
    (ShapedFrame f → ∃ r, plotLassoGridSubset calendar single inside base f = .ok r) ∧
    (¬ ShapedFrame f → plotLassoGridSubset calendar single inside base f = .error .assertionError) := by
  constructor
  · intro hs
    by_cases hl : Lightning single inside base f
    · have hne := positiveValues_ne.mpr hl
      have hnz := nonzero_eq single inside base f
      unfold plotLassoGridSubset
      rw [gridRecords_eq hs]
      simp only [bind, Except.bind, pure, Except.pure]
      rw [if_pos (by
        apply List.length_pos_iff.mpr
        intro h0
        rw [h0] at hnz
        exact hne hnz.symm)]
      have hvne : ((((List.range (f.yedge.length - 1)).flatMap fun j => (List.range (f.xedge.length - 1)).map fun i =>
          cellRecord single base f i j).filter fun r => inside r.t r.lon r.lat).map GridRecord.value) ≠ [] := by
        obtain ⟨i, j, hij, hin, -⟩ := hl
        apply List.ne_nil_of_mem (a := cellValue f i j)
        exact List.mem_map.mpr ⟨cellRecord single base f i j,
          List.mem_filter.mpr ⟨mem_cells.mpr ⟨i, j, hij, rfl⟩, hin⟩, rfl⟩
      obtain ⟨m, hm⟩ := npMax_ok hvne
      rw [hm]
      exact ⟨_, rfl⟩
    · have hne : positiveValues single inside base f = [] := by
        by_contra h
        exact hl (positiveValues_ne.mp h)
      have hnz := nonzero_eq single inside base f
      unfold plotLassoGridSubset
      rw [gridRecords_eq hs]
      simp only [bind, Except.bind, pure, Except.pure]
      rw [if_neg (by
        rw [hne, List.map_eq_nil_iff] at hnz
        rw [hnz]; simp)]
      exact ⟨_, rfl⟩
  · intro hs
    unfold plotLassoGridSubset gridRecords
    simp only [gridCentres_length]
    rw [if_neg (show ¬ (_ ∧ _) from hs)]
    rfl

/-- C107: the log has one line for each frame in the time range, both ends included, in the order of the frames, with
the right numbers; the time is in ISO format exactly for the frames with lightning in the lassos. -/
theorem C107_log_partial (calendar : Int → DateTime) (single : Rat → Rat) (inside : Rat → Rat → Rat → Bool)
    (base tStart tEnd : Int) (frames : List LassoFrame) (hc : ∀ t, ValidTime (calendar t))
    (hf : ∀ f ∈ frames, tStart ≤ f.t → f.t ≤ tEnd → ShapedFrame f ∧ NonnegFrame f) :
    ∃ rows, lassoGridLog calendar single inside base tStart tEnd frames = .ok rows ∧
      List.Forall₂ (fun f r => (IsIso (calendar f.t) r.time ↔ Lightning single inside base f) ∧
        RightNumbers single inside base f r ∧
        (positiveValues single inside base f ≠ [] →
          IsPercentile (positiveValues single inside base f) 5 r.p5 ∧
          IsPercentile (positiveValues single inside base f) 50 r.p50 ∧
          IsPercentile (positiveValues single inside base f) 95 r.p95))
        (frames.filter fun f => decide (tStart ≤ f.t ∧ f.t ≤ tEnd)) rows := by
  have hfilter : (frames.filter fun f => decide (f.t ≥ tStart) && decide (f.t ≤ tEnd)) =
      frames.filter fun f => decide (tStart ≤ f.t ∧ f.t ≤ tEnd) := by
    apply List.filter_congr
    intro f _
    simp
  unfold lassoGridLog
  rw [hfilter]
  have hall : ∀ f ∈ frames.filter fun f => decide (tStart ≤ f.t ∧ f.t ≤ tEnd), ShapedFrame f ∧ NonnegFrame f := by
    intro f h
    obtain ⟨h1, h2⟩ := List.mem_filter.mp h
    simp only [decide_eq_true_eq] at h2
    exact hf f h1 h2.1 h2.2
  generalize frames.filter (fun f => decide (tStart ≤ f.t ∧ f.t ≤ tEnd)) = sel at hall
  clear hfilter
  induction sel with
  | nil => exact ⟨[], rfl, List.Forall₂.nil⟩
  | cons f sel ih =>
    obtain ⟨rows, h1, h2⟩ := ih fun g hg => hall g (List.mem_cons_of_mem _ hg)
    obtain ⟨hs, hn⟩ := hall f List.mem_cons_self
    have hrow : ∃ r, plotLassoGridSubset calendar single inside base f = .ok r ∧
        (IsIso (calendar f.t) r.time ↔ Lightning single inside base f) ∧
        RightNumbers single inside base f r ∧
        (positiveValues single inside base f ≠ [] →
          IsPercentile (positiveValues single inside base f) 5 r.p5 ∧
          IsPercentile (positiveValues single inside base f) 50 r.p50 ∧
          IsPercentile (positiveValues single inside base f) 95 r.p95) := by
      by_cases hl : Lightning single inside base f
      · obtain ⟨r, a1, a2, a3, a4, a5, a6, -⟩ :=
          C107_lightning_partial calendar single inside base f (hc f.t) hs hl
        exact ⟨r, a1, iff_of_true a2 hl, a3, fun _ => ⟨a4, a5, a6⟩⟩
      · obtain ⟨r, a1, a2, -, -, -, -, -, a3⟩ := C107_none_partial calendar single inside base f hs hn hl
        exact ⟨r, a1, iff_of_false (a3 _) hl, a2, fun h => absurd (positiveValues_ne.mp h) hl⟩
    obtain ⟨r, b1, b2⟩ := hrow
    refine ⟨r :: rows, ?_, List.Forall₂.cons b2 h2⟩
    rw [List.mapM_cons, b1, ok_bind', h1]
    rfl

/-- C107: a frame in the time range of another shape than its edges ends the program. -/
theorem C107_shape_partial (calendar : Int → DateTime) (single : Rat → Rat) (inside : Rat → Rat → Rat → Bool)
    (base tStart tEnd : Int) (frames : List LassoFrame) (f : LassoFrame) (hf : f ∈ frames) (h0 : tStart ≤ f.t)
    (h1 : f.t ≤ tEnd) (hs : ¬ ShapedFrame f) :
    lassoGridLog calendar single inside base tStart tEnd frames = .error .assertionError := by
  unfold lassoGridLog
  apply mapM_error_of
  · intro g _
    by_cases hg : ShapedFrame g
    · exact Or.inl ((plotLasso_cases calendar single inside base g).1 hg)
    · exact Or.inr ((plotLasso_cases calendar single inside base g).2 hg)
  · exact ⟨f, List.mem_filter.mpr ⟨hf, by simp [h0, h1]⟩, (plotLasso_cases calendar single inside base f).2 hs⟩

/-- Of the eight products that the program reports, the gridder writes five under the names that the program looks for:
not the densities of flash and group centroids (their files are called otherwise), nor that of events. -/
theorem C107_products (label : String) :
    ∃ products, lassoProducts = .ok products ∧ products.length = 8 ∧
      ∀ p ∈ products, ((p.1 ++ ".nc", p.2) ∈ (outputSetup label).postfixes.zip (outputSetup label).names ↔
        p.2 ∉ ["flash_centroid_density", "group_centroid_density", "event_density"]) := by
  refine ⟨[("flash_extent", "flash_extent_density"), ("flash_init", "flash_centroid_density"),
    ("source", "event_density"), ("footprint", "average_flash_area"), ("total_energy", "total_energy"),
    ("group_extent", "group_extent_density"), ("group_init", "group_centroid_density"),
    ("group_area", "average_group_area")], by decide +kernel, rfl, ?_⟩
  unfold outputSetup
  dsimp only
  decide +kernel

/-! ### A concrete case -/

/-- Two frames of two by three cells, the second without lightning in the lasso. -/
def lassoGridSample : List LassoFrame :=
  [⟨0, [0, 1, 2, 3], [0, 1, 2], [[5, 2, 0], [1, 7, 9]]⟩, ⟨60000000, [0, 1, 2, 3], [0, 1, 2], [[0, 0, 4], [0, 0, 0]]⟩]

/-- A lasso around the first two columns. -/
def lassoGridSampleInside (_ lon _ : Rat) : Bool := decide (lon < 2)

def lassoGridSampleTime : DateTime := ⟨2018, 7, 2, 4, 33, 0, 0⟩

theorem lassoGridSampleTime_valid : ValidTime lassoGridSampleTime := by constructor <;> decide

theorem lassoGridSample_frames : ∀ f ∈ lassoGridSample, ShapedFrame f ∧ NonnegFrame f := by
  unfold lassoGridSample ShapedFrame NonnegFrame
  decide +kernel

example : lassoGridLog (fun _ => lassoGridSampleTime) id lassoGridSampleInside 0 0 60000000 lassoGridSample =
    .ok [⟨"2018-07-02T04:33:00".toList, 7, 15, 23 / 20, 7 / 2, 67 / 10⟩,
      ⟨"2018-07-02 04:33:00".toList, 0, 0, 0, 0, 0⟩] := by decide +kernel

theorem C107_full_false : ¬ C107_full := by
  intro h
  obtain ⟨rows, h1, h2⟩ := h (fun _ => lassoGridSampleTime) id lassoGridSampleInside 0 60000000 60000000 lassoGridSample
    (fun _ => lassoGridSampleTime_valid) lassoGridSample_frames
  have e : lassoGridLog (fun _ => lassoGridSampleTime) id lassoGridSampleInside 0 60000000 60000000 lassoGridSample =
      .ok [⟨strTime lassoGridSampleTime, 0, 0, 0, 0, 0⟩] := by decide +kernel
  rw [e] at h1
  cases h1
  have ef : (lassoGridSample.filter fun f => decide ((60000000 : Int) ≤ f.t ∧ f.t ≤ 60000000)) =
      [⟨60000000, [0, 1, 2, 3], [0, 1, 2], [[0, 0, 4], [0, 0, 0]]⟩] := by rfl
  rw [ef] at h2
  cases h2 with
  | cons a _ => exact strTime_not_iso _ _ a.1

example : Lightning id lassoGridSampleInside 0 ⟨0, [0, 1, 2, 3], [0, 1, 2], [[5, 2, 0], [1, 7, 9]]⟩ :=
  ⟨1, 1, by unfold IsGridCell; decide, by decide +kernel, by decide +kernel⟩

end Verif.Props
