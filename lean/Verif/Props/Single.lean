import Verif.Model.Single
import Verif.Props.Accumulate
import Verif.Props.Coords
import Mathlib.Tactic.Linarith
import Mathlib.Tactic.Positivity
import Mathlib.Algebra.Order.Field.Power

/-!
# C108: accumulation in single precision
-/

namespace Verif.Props

open Verif.Py Verif.Model Verif.Spec Verif.Proofs

/-! ### What is assumed of the rounding -/

/-- A floating point format: numbers from `lo` (the least normal one) to `hi` are rounded with relative error at most
`u`, and not below `lo`; 0 stays 0. -/
structure FloatFormat (fl : Rat → Rat) (u lo hi : Rat) : Prop where
  unit : 0 ≤ u
  pos : 0 < lo
  zero : fl 0 = 0
  normal : ∀ v, lo ≤ v → lo ≤ fl v
  near : ∀ v, lo ≤ v → v ≤ hi → |fl v - v| ≤ u * v

/-- The format can represent the values: zero or not below the least normal number. -/
def Representable (lo : Rat) (dss : List (List IdxRow)) : Prop := ∀ ds ∈ dss, ∀ r ∈ ds, r.v = 0 ∨ lo ≤ r.v

/-! ### One data set -/

theorem cells_cast {g : Grid} {ds : List IdxRow} (fl : Rat → Rat) (h : OnGrid g ds) : OnGrid g (ds.map (castRow fl)) := by
  intro r hr
  obtain ⟨r', hr', rfl⟩ := List.mem_map.mp hr
  exact h r' hr'

theorem once_cast {ds : List IdxRow} (fl : Rat → Rat) (h : OncePerCell ds) : OncePerCell (ds.map (castRow fl)) := by
  unfold OncePerCell at *
  rw [List.map_map]
  exact h

theorem sentTo_cast (fl : Rat → Rat) (i j : Nat) (ds : List IdxRow) :
    sentTo i j (ds.map (castRow fl)) = (sentTo i j ds).map fl := by
  unfold sentTo
  rw [List.filter_map, List.map_map, List.map_map]
  rfl

theorem single_step {g : Grid} {ds : List IdxRow} (fl : Rat → Rat) (h : OnGrid g ds) :
    ∃ g', accumulateVarSingle fl g ds = .ok g' ∧ g'.n0 = g.n0 ∧ g'.n1 = g.n1 ∧
      ∀ i j, g'.val i j = match (sentTo i j ds).getLast? with
        | none => g.val i j
        | some v => fl (g.val i j + fl v) := by
  unfold accumulateVarSingle
  simp only [cells_ok h, bind, Except.bind, pure, Except.pure]
  refine ⟨_, rfl, rfl, rfl, fun i j => ?_⟩
  rw [set_val]
  have e : (ds.map fun r => (r.yi.toNat, r.xi.toNat)).zip (List.zipWith (fun a b => fl (a + b))
      ((ds.map fun r => (r.yi.toNat, r.xi.toNat)).map fun c => g.val c.1 c.2) ((ds.map (castRow fl)).map IdxRow.v)) =
      ds.map fun r => ((r.yi.toNat, r.xi.toNat), fl (g.val r.yi.toNat r.xi.toNat + fl r.v)) := by
    clear h
    induction ds with
    | nil => rfl
    | cons r ds ih =>
      simp only [List.map_cons, List.zipWith_cons_cons, List.zip_cons_cons, ih]
      rfl
  rw [e, filter_cells h, sentTo]
  have hval : ∀ r ∈ ds.filter (fun r => decide (r.yi = (i : Int) ∧ r.xi = (j : Int))),
      g.val r.yi.toNat r.xi.toNat = g.val i j := by
    intro r hr
    have := (List.mem_filter.mp hr).2
    simp only [decide_eq_true_eq] at this
    rw [this.1, this.2]
    rfl
  rw [List.getLast?_map, List.getLast?_map]
  cases hl : (ds.filter fun r => decide (r.yi = (i : Int) ∧ r.xi = (j : Int))).getLast? with
  | none => simp
  | some r => simp [hval r (List.mem_of_getLast? hl)]

/-- Without rounding it is the accumulator of `Verif.Model.Accumulate`. -/
theorem accumulateVarSingle_id : accumulateVarSingle id = accumulateVar := by
  funext g ds
  unfold accumulateVarSingle accumulateVar
  have : ds.map (castRow id) = ds := by
    conv_rhs => rw [← List.map_id ds]
    rfl
  rw [this]
  rfl

/-! ### All data sets -/

/-- Adding values one by one with rounding. -/
def addRounded (fl : Rat → Rat) (acc : Rat) (vs : List Rat) : Rat := vs.foldl (fun a v => fl (a + fl v)) acc

theorem single_all (fl : Rat → Rat) (g : Grid) (dss : List (List IdxRow)) (h : ∀ ds ∈ dss, OnGrid g ds)
    (ho : ∀ ds ∈ dss, OncePerCell ds) :
    ∃ g', sendAll (accumulateVarSingle fl) g dss = (g', none) ∧ g'.n0 = g.n0 ∧ g'.n1 = g.n1 ∧
      ∀ i j, g'.val i j = addRounded fl (g.val i j) (sentTo i j dss.flatten) := by
  induction dss generalizing g with
  | nil => exact ⟨g, rfl, rfl, rfl, fun i j => rfl⟩
  | cons ds dss ih =>
    obtain ⟨g1, e1, s0, s1, v1⟩ := single_step fl (h ds List.mem_cons_self)
    obtain ⟨g2, e2, t0, t1, v2⟩ := ih g1 (fun d hd r hr => by
      rw [s0, s1]
      exact h d (List.mem_cons_of_mem _ hd) r hr) fun d hd => ho d (List.mem_cons_of_mem _ hd)
    refine ⟨g2, ?_, t0.trans s0, t1.trans s1, fun i j => ?_⟩
    · rw [sendAll, e1]
      exact e2
    · rw [v2, v1, List.flatten_cons, sentTo_append]
      unfold addRounded
      rw [List.foldl_append]
      have hl := sentTo_once (ho ds List.mem_cons_self) i j
      match sentTo i j ds, hl with
      | [], _ => rfl
      | [a], _ => rfl

theorem one_le_pow_unit {u : Rat} (hu : 0 ≤ u) (k : Nat) : 1 ≤ (1 + u) ^ k := one_le_pow₀ (by linarith)

theorem addRounded_error {fl : Rat → Rat} {u lo hi : Rat} (hf : FloatFormat fl u lo hi) (vs : List Rat) (k : Nat)
    (acc s : Rat) (hs : 0 ≤ s) (hv : ∀ v ∈ vs, v = 0 ∨ lo ≤ v) (hacc : acc = 0 ∨ lo ≤ acc)
    (he : |acc - s| ≤ ((1 + u) ^ (k + 1) - 1) * s) (hz : acc = 0 ↔ s = 0)
    (hhi : (1 + u) ^ (k + vs.length + 1) * (s + vs.sum) ≤ hi) :
    |addRounded fl acc vs - (s + vs.sum)| ≤ ((1 + u) ^ (k + vs.length + 1) - 1) * (s + vs.sum) ∧
      (addRounded fl acc vs = 0 ↔ s + vs.sum = 0) := by
  induction vs generalizing k acc s with
  | nil => simpa [addRounded] using ⟨he, hz⟩
  | cons v vs ih =>
    have hpos := hf.pos
    have hvs : ∀ w ∈ vs, w = 0 ∨ lo ≤ w := fun w hw => hv w (List.mem_cons_of_mem _ hw)
    have hvs0 : 0 ≤ vs.sum := by
      apply List.sum_nonneg
      intro w hw
      rcases hvs w hw with h | h <;> linarith
    have hv' := hv v List.mem_cons_self
    have hv0 : 0 ≤ v := by rcases hv' with h | h <;> linarith
    have hflv : fl v = 0 ∧ v = 0 ∨ lo ≤ fl v ∧ lo ≤ v := by
      rcases hv' with h | h
      · left; rw [h]; exact ⟨hf.zero, rfl⟩
      · right; exact ⟨hf.normal v h, h⟩
    have p1 := one_le_pow_unit hf.unit (k + 1)
    have p0 := one_le_pow_unit hf.unit k
    have psucc : (1 + u) ^ (k + 1) = (1 + u) ^ k * (1 + u) := pow_succ _ _
    have psucc2 : (1 + u) ^ (k + 1 + 1) = (1 + u) ^ (k + 1) * (1 + u) := pow_succ _ _
    have hupow : u ≤ (1 + u) ^ (k + 1) - 1 := by
      have : 1 * (1 + u) ≤ (1 + u) ^ k * (1 + u) := mul_le_mul_of_nonneg_right p0 (by linarith [hf.unit])
      rw [psucc]; linarith
    -- the bound on the range
    rw [List.sum_cons, List.length_cons] at hhi ⊢
    have hbig : (1 + u) ^ (k + 1) * (s + v) ≤ hi := by
      have h1 : (1 + u) ^ (k + 1) ≤ (1 + u) ^ (k + (vs.length + 1) + 1) :=
        pow_le_pow_right₀ (by linarith [hf.unit]) (by omega)
      have h2 : 0 ≤ s + v := by linarith
      have h3 : (1 + u) ^ (k + 1) * (s + v) ≤ (1 + u) ^ (k + (vs.length + 1) + 1) * (s + (v + vs.sum)) := by
        apply mul_le_mul h1 (by linarith) h2
        linarith
      linarith
    have hvhi : v ≤ hi := by
      have h1 : 1 * (s + v) ≤ (1 + u) ^ (k + 1) * (s + v) := mul_le_mul_of_nonneg_right p1 (by linarith)
      linarith
    have hcast : |fl v - v| ≤ ((1 + u) ^ (k + 1) - 1) * v := by
      rcases hflv with ⟨h, h'⟩ | ⟨-, h⟩
      · rw [h, h']; simp
      · exact le_trans (hf.near v h hvhi) (mul_le_mul_of_nonneg_right hupow hv0)
    set x := acc + fl v with hx
    have hxs : |x - (s + v)| ≤ ((1 + u) ^ (k + 1) - 1) * (s + v) := by
      have e : x - (s + v) = (acc - s) + (fl v - v) := by rw [hx]; ring
      rw [e]
      calc |(acc - s) + (fl v - v)| ≤ |acc - s| + |fl v - v| := abs_add_le _ _
        _ ≤ ((1 + u) ^ (k + 1) - 1) * s + ((1 + u) ^ (k + 1) - 1) * v := add_le_add he hcast
        _ = _ := by ring
    have hxle : x ≤ (1 + u) ^ (k + 1) * (s + v) := by
      have := (abs_le.mp hxs).2
      linarith
    have hx0 : x = 0 ∧ s + v = 0 ∨ lo ≤ x ∧ 0 < s + v := by
      rcases hacc with ha | ha
      · rcases hflv with ⟨h, h'⟩ | ⟨h, h'⟩
        · left; exact ⟨by rw [hx, ha, h]; ring, by rw [hz.mp ha, h']; ring⟩
        · right; exact ⟨by rw [hx, ha]; linarith, by linarith⟩
      · right
        refine ⟨?_, ?_⟩
        · rcases hflv with ⟨h, -⟩ | ⟨h, -⟩ <;> rw [hx] <;> linarith
        · have : s ≠ 0 := by
            intro h
            have := hz.mpr h
            linarith
          have : 0 < s := lt_of_le_of_ne hs (Ne.symm this)
          linarith
    have hround : |fl x - (s + v)| ≤ ((1 + u) ^ (k + 1 + 1) - 1) * (s + v) := by
      rcases hx0 with ⟨h, h'⟩ | ⟨h, -⟩
      · rw [h, hf.zero, h']; simp
      · have hn := hf.near x h (by linarith)
        have e : fl x - (s + v) = (fl x - x) + (x - (s + v)) := by ring
        rw [e]
        calc |(fl x - x) + (x - (s + v))| ≤ |fl x - x| + |x - (s + v)| := abs_add_le _ _
          _ ≤ u * x + ((1 + u) ^ (k + 1) - 1) * (s + v) := add_le_add hn hxs
          _ ≤ u * ((1 + u) ^ (k + 1) * (s + v)) + ((1 + u) ^ (k + 1) - 1) * (s + v) := by
            have := mul_le_mul_of_nonneg_left hxle hf.unit
            linarith
          _ = _ := by rw [psucc2]; ring
    have hfx : fl x = 0 ∨ lo ≤ fl x := by
      rcases hx0 with ⟨h, -⟩ | ⟨h, -⟩
      · left; rw [h]; exact hf.zero
      · right; exact hf.normal x h
    have hz' : fl x = 0 ↔ s + v = 0 := by
      rcases hx0 with ⟨h, h'⟩ | ⟨h, h'⟩
      · rw [h, hf.zero, h']
      · have := hf.normal x h
        constructor
        · intro h0; linarith
        · intro h0; linarith
    have ih := ih (k + 1) (fl x) (s + v) (by linarith) hvs hfx hround hz' (by
      rw [show k + 1 + vs.length + 1 = k + (vs.length + 1) + 1 from by omega, add_assoc s]
      exact hhi)
    rw [show k + 1 + vs.length + 1 = k + (vs.length + 1) + 1 from by omega, add_assoc s] at ih
    exact ih

/-! ## C108 -/

/-- C108: a cell of a grid that starts from zeros and receives `n` values, in any number of data sets, differs from their
sum by at most the fraction (1 + u)^(n + 1) - 1 of it, and is zero exactly if the sum is. -/
theorem C108_sum {fl : Rat → Rat} {u lo hi : Rat} (hf : FloatFormat fl u lo hi) (n0 n1 : Nat)
    (dss : List (List IdxRow)) (h : ∀ ds ∈ dss, OnGrid (Grid.zeros n0 n1) ds) (ho : ∀ ds ∈ dss, OncePerCell ds)
    (hr : Representable lo dss) :
    ∃ g', sendAll (accumulateVarSingle fl) (Grid.zeros n0 n1) dss = (g', none) ∧ g'.n0 = n0 ∧ g'.n1 = n1 ∧
      ∀ i j, let vs := sentTo i j dss.flatten
        (1 + u) ^ (vs.length + 1) * vs.sum ≤ hi →
          |g'.val i j - vs.sum| ≤ ((1 + u) ^ (vs.length + 1) - 1) * vs.sum ∧ (g'.val i j = 0 ↔ vs.sum = 0) := by
  obtain ⟨g', e, s0, s1, v⟩ := single_all fl _ dss h ho
  refine ⟨g', e, s0, s1, fun i j => ?_⟩
  intro vs hhi
  rw [v]
  have := addRounded_error hf vs 0 0 0 (le_refl _) (by
    intro w hw
    obtain ⟨r, hr', rfl⟩ := mem_sentTo hw
    obtain ⟨ds, hds, hrd⟩ := List.mem_flatten.mp hr'
    exact hr ds hds r hrd) (Or.inl rfl) (by simp) (by simp) (by
      rw [zero_add, zero_add]; exact hhi)
  rw [zero_add, zero_add] at this
  exact this

/-- C108: counts are exact as long as their sum is one of the integers that the format holds. -/
theorem C108_counts {fl : Rat → Rat} {most : Nat} (hf : ∀ n : Nat, n ≤ most → fl n = n) (n0 n1 : Nat)
    (dss : List (List IdxRow)) (h : ∀ ds ∈ dss, OnGrid (Grid.zeros n0 n1) ds) (ho : ∀ ds ∈ dss, OncePerCell ds)
    (hc : ∀ ds ∈ dss, ∀ r ∈ ds, ∃ n : Nat, r.v = n) :
    ∃ g', sendAll (accumulateVarSingle fl) (Grid.zeros n0 n1) dss = (g', none) ∧ g'.n0 = n0 ∧ g'.n1 = n1 ∧
      ∀ i j, (sentTo i j dss.flatten).sum ≤ most → g'.val i j = (sentTo i j dss.flatten).sum := by
  obtain ⟨g', e, s0, s1, v⟩ := single_all fl _ dss h ho
  refine ⟨g', e, s0, s1, fun i j hm => ?_⟩
  rw [v]
  have hvs : ∀ w ∈ sentTo i j dss.flatten, ∃ n : Nat, w = n := by
    intro w hw
    obtain ⟨r, hr', rfl⟩ := mem_sentTo hw
    obtain ⟨ds, hds, hrd⟩ := List.mem_flatten.mp hr'
    exact hc ds hds r hrd
  have aux : ∀ (vs : List Rat) (a : Nat), (∀ w ∈ vs, ∃ n : Nat, w = n) → (a : Rat) + vs.sum ≤ most →
      addRounded fl a vs = a + vs.sum := by
    intro vs
    induction vs with
    | nil => intro a _ _; simp [addRounded]
    | cons w vs ih =>
      intro a hvs hm
      obtain ⟨n, hn⟩ := hvs w List.mem_cons_self
      have h0 : 0 ≤ vs.sum := by
        apply List.sum_nonneg
        intro w' hw'
        obtain ⟨n', hn'⟩ := hvs w' (List.mem_cons_of_mem _ hw')
        rw [hn']; exact Nat.cast_nonneg _
      rw [List.sum_cons] at hm ⊢
      have ha0 : (0 : Rat) ≤ a := Nat.cast_nonneg _
      have hsum : ((a + n : Nat) : Rat) + vs.sum ≤ most := by push_cast; rw [← hn]; linarith
      have hle : a + n ≤ most := by
        have : ((a + n : Nat) : Rat) ≤ (most : Rat) := by linarith
        exact_mod_cast this
      have := ih (a + n) (fun w' hw' => hvs w' (List.mem_cons_of_mem _ hw')) hsum
      unfold addRounded at this ⊢
      rw [List.foldl_cons, hn, hf n (by omega), ← Nat.cast_add, hf (a + n) hle, this]
      push_cast
      ring
  have := aux _ 0 hvs (by push_cast; linarith)
  simpa [Grid.zeros] using this

/-- C108: a minimum is the rounded least value. -/
theorem C108_min {fl : Rat → Rat} (hm : ∀ v w, 0 ≤ v → v ≤ w → fl v ≤ fl w) (h0 : fl 0 = 0)
    (hpos : ∀ v, 0 < v → 0 < fl v) (n0 n1 : Nat)
    (dss : List (List IdxRow)) (h : ∀ ds ∈ dss, OnGrid (Grid.zeros n0 n1) ds) (ho : ∀ ds ∈ dss, OncePerCell ds)
    (hp : ∀ ds ∈ dss, ∀ r ∈ ds, 0 < r.v) :
    ∃ g', sendAll (accumulateMinvarSingle fl) (Grid.zeros n0 n1) dss = (g', none) ∧ g'.n0 = n0 ∧ g'.n1 = n1 ∧
      ∀ i j least, LeastOrZero (sentTo i j dss.flatten) least → g'.val i j = fl least := by
  have hsend : ∀ g, sendAll (accumulateMinvarSingle fl) g dss =
      sendAll accumulateMinvar g (dss.map fun ds => ds.map (castRow fl)) := by
    clear h ho hp
    induction dss with
    | nil => intro g; rfl
    | cons ds dss ih =>
      intro g
      rw [List.map_cons, sendAll, sendAll]
      unfold accumulateMinvarSingle
      cases accumulateMinvar g (ds.map (castRow fl)) with
      | error e => rfl
      | ok g' => exact ih g'
  obtain ⟨g', e, s0, s1, v⟩ := C33_partial n0 n1 (dss.map fun ds => ds.map (castRow fl)) (by
      intro ds hds
      obtain ⟨d, hd, rfl⟩ := List.mem_map.mp hds
      exact cells_cast fl (h d hd)) (by
      intro ds hds r hr
      obtain ⟨d, hd, rfl⟩ := List.mem_map.mp hds
      obtain ⟨r', hr', rfl⟩ := List.mem_map.mp hr
      exact hpos _ (hp d hd r' hr')) (by
      intro ds hds
      obtain ⟨d, hd, rfl⟩ := List.mem_map.mp hds
      exact once_cast fl (ho d hd))
  refine ⟨g', (hsend _).trans e, s0, s1, fun i j least hl => ?_⟩
  have hv := v i j
  have hflat : (dss.map fun ds => ds.map (castRow fl)).flatten = dss.flatten.map (castRow fl) := by
    rw [List.map_flatten]
  rw [hflat, sentTo_cast] at hv
  have hposs : ∀ w ∈ sentTo i j dss.flatten, 0 < w := by
    intro w hw
    obtain ⟨r, hr', rfl⟩ := mem_sentTo hw
    obtain ⟨ds, hds, hrd⟩ := List.mem_flatten.mp hr'
    exact hp ds hds r hrd
  by_cases hne : sentTo i j dss.flatten = []
  · rw [hl.1 hne, h0]
    exact hv.1 (by rw [hne]; rfl)
  · obtain ⟨l1, l2⟩ := hl.2 hne
    obtain ⟨v1, v2⟩ := hv.2 (by simpa using hne)
    apply le_antisymm
    · exact v2 _ (List.mem_map.mpr ⟨least, l1, rfl⟩)
    · obtain ⟨w, hw, hwe⟩ := List.mem_map.mp v1
      rw [← hwe]
      exact hm _ _ (le_of_lt (hposs _ l1)) (l2 w hw)

/-! ### 32 bit floats -/

theorem log_abs_bounds {v : Rat} (hv : 0 < v) : (2 : Rat) ^ Int.log 2 |v| ≤ v ∧ v < (2 : Rat) ^ (Int.log 2 |v| + 1) := by
  rw [abs_of_pos hv]
  exact ⟨by exact_mod_cast Int.zpow_log_le_self (b := 2) (by norm_num) hv,
    by exact_mod_cast Int.lt_zpow_succ_log_self (b := 2) (by norm_num) v⟩

/-- A number with at most 24 significant bits is kept. -/
theorem roundSingle_fixed (m k : Int) (h0 : 0 ≤ m) (hm : m ≤ 2 ^ 24) : roundSingle (m * 2 ^ k) = m * 2 ^ k := by
  unfold roundSingle
  have h2 : (0 : Rat) < 2 ^ k := by positivity
  by_cases hz : m = 0
  · simp [hz]
  have hmpos : (0 : Rat) < m := by exact_mod_cast lt_of_le_of_ne h0 (Ne.symm hz)
  have hpos : (0 : Rat) < m * 2 ^ k := by positivity
  rw [if_neg (ne_of_gt hpos)]
  obtain ⟨hlo, hhi⟩ := log_abs_bounds hpos
  set e := Int.log 2 |(m : Rat) * 2 ^ k| with he
  have hp : (0 : Rat) < 2 ^ (e - 23) := by positivity
  -- the quotient is an integer
  have hint : ∃ q : Int, (m : Rat) * 2 ^ k / 2 ^ (e - 23) = q := by
    by_cases hle : e - 23 ≤ k
    · refine ⟨m * 2 ^ (k - (e - 23)).toNat, ?_⟩
      have e1 : (2 : Rat) ^ (k - (e - 23)) = 2 ^ (k - (e - 23)).toNat := by
        rw [← zpow_natCast, Int.toNat_of_nonneg (by omega)]
      rw [mul_div_assoc, ← zpow_sub₀ (by norm_num), e1]
      push_cast
      rfl
    · -- then the number is 2^24 * 2^k
      have hk : k + 24 ≤ e := by omega
      have h1 : (2 : Rat) ^ (k + 24) ≤ 2 ^ e := zpow_le_zpow_right₀ (by norm_num) hk
      have h3 : (m : Rat) ≤ 2 ^ 24 := by exact_mod_cast hm
      have h4 : (2 : Rat) ^ (k + 24) = 2 ^ 24 * 2 ^ k := by
        rw [zpow_add₀ (by norm_num)]
        have : (2 : Rat) ^ (24 : Int) = 2 ^ 24 := by norm_num
        rw [this]; ring
      have h5 : (m : Rat) * 2 ^ k ≤ 2 ^ 24 * 2 ^ k := mul_le_mul_of_nonneg_right h3 (le_of_lt h2)
      have h6 : (m : Rat) * 2 ^ k = 2 ^ e := by linarith
      refine ⟨2 ^ 23, ?_⟩
      rw [h6, ← zpow_sub₀ (by norm_num)]
      have : e - (e - 23) = (23 : Int) := by ring
      rw [this]
      norm_num
  obtain ⟨q, hq⟩ := hint
  rw [hq, npAround_int, ← hq]
  field_simp

theorem roundSingle_zero : roundSingle 0 = 0 := by simp [roundSingle]

/-- The rounded number lies in the same binade, or is the end of it. -/
theorem roundSingle_binade {v : Rat} (hv : 0 < v) :
    (2 : Rat) ^ Int.log 2 |v| ≤ roundSingle v ∧ roundSingle v ≤ 2 ^ (Int.log 2 |v| + 1) := by
  obtain ⟨hlo, hhi⟩ := log_abs_bounds hv
  unfold roundSingle
  rw [if_neg (ne_of_gt hv)]
  set e := Int.log 2 |v|
  have hp : (0 : Rat) < 2 ^ (e - 23) := by positivity
  have e1 : (2 : Rat) ^ e = 2 ^ 23 * 2 ^ (e - 23) := by
    rw [show (2 : Rat) ^ 23 = 2 ^ (23 : Int) from by norm_num, ← zpow_add₀ (by norm_num)]
    congr 1; ring
  have e2 : (2 : Rat) ^ (e + 1) = 2 ^ 24 * 2 ^ (e - 23) := by
    rw [show (2 : Rat) ^ 24 = 2 ^ (24 : Int) from by norm_num, ← zpow_add₀ (by norm_num)]
    congr 1; ring
  constructor
  · have h1 : ((2 ^ 23 : Int) : Rat) ≤ v / 2 ^ (e - 23) := by
      rw [le_div_iff₀ hp]; push_cast; linarith
    have h2 : ((2 ^ 23 : Int) : Rat) ≤ npAround (v / 2 ^ (e - 23)) := by exact_mod_cast npAround_mono_int.1 h1
    rw [e1]
    refine mul_le_mul_of_nonneg_right ?_ (le_of_lt hp)
    push_cast at h2
    exact h2
  · have h1 : v / 2 ^ (e - 23) ≤ ((2 ^ 24 : Int) : Rat) := by
      rw [div_le_iff₀ hp]; push_cast; linarith
    have h2 : (npAround (v / 2 ^ (e - 23)) : Rat) ≤ ((2 ^ 24 : Int) : Rat) := by exact_mod_cast npAround_mono_int.2 h1
    rw [e2]
    refine mul_le_mul_of_nonneg_right ?_ (le_of_lt hp)
    push_cast at h2
    exact h2

theorem roundSingle_pos {v : Rat} (hv : 0 < v) : 0 < roundSingle v :=
  lt_of_lt_of_le (by positivity) (roundSingle_binade hv).1

theorem roundSingle_mono {v w : Rat} (hv : 0 ≤ v) (h : v ≤ w) : roundSingle v ≤ roundSingle w := by
  rcases eq_or_lt_of_le hv with h0 | h0
  · rw [← h0, roundSingle_zero]
    rcases eq_or_lt_of_le (le_trans hv h) with h1 | h1
    · rw [← h1, roundSingle_zero]
    · exact le_of_lt (roundSingle_pos h1)
  have hw : 0 < w := lt_of_lt_of_le h0 h
  have hlog : Int.log 2 |v| ≤ Int.log 2 |w| := by
    rw [abs_of_pos h0, abs_of_pos hw]
    exact Int.log_mono_right h0 h
  rcases eq_or_lt_of_le hlog with he | he
  · unfold roundSingle
    rw [if_neg (ne_of_gt h0), if_neg (ne_of_gt hw), he]
    have hp : (0 : Rat) < 2 ^ (Int.log 2 |w| - 23) := by positivity
    refine mul_le_mul_of_nonneg_right ?_ (le_of_lt hp)
    exact_mod_cast npAround_mono (div_le_div_of_nonneg_right h (le_of_lt hp))
  · have h1 := (roundSingle_binade h0).2
    have h2 := (roundSingle_binade hw).1
    have h3 : (2 : Rat) ^ (Int.log 2 |v| + 1) ≤ 2 ^ Int.log 2 |w| := zpow_le_zpow_right₀ (by norm_num) (by omega)
    linarith

theorem roundSingle_near {v : Rat} (hv : 0 < v) : |roundSingle v - v| ≤ 1 / 2 ^ 24 * v := by
  obtain ⟨hlo, -⟩ := log_abs_bounds hv
  unfold roundSingle
  rw [if_neg (ne_of_gt hv)]
  set e := Int.log 2 |v|
  have hp : (0 : Rat) < 2 ^ (e - 23) := by positivity
  have e1 : (2 : Rat) ^ e = 2 ^ 23 * 2 ^ (e - 23) := by
    rw [show (2 : Rat) ^ 23 = 2 ^ (23 : Int) from by norm_num, ← zpow_add₀ (by norm_num)]
    congr 1; ring
  obtain ⟨b1, b2⟩ := npAround_bounds (v / 2 ^ (e - 23))
  have hv' : v = v / 2 ^ (e - 23) * 2 ^ (e - 23) := by field_simp
  have hd : |((npAround (v / 2 ^ (e - 23)) : Int) : Rat) - v / 2 ^ (e - 23)| ≤ 1 / 2 := abs_le.mpr ⟨by linarith, b1⟩
  have key : ((npAround (v / 2 ^ (e - 23)) : Int) : Rat) * 2 ^ (e - 23) - v =
      (((npAround (v / 2 ^ (e - 23)) : Int) : Rat) - v / 2 ^ (e - 23)) * 2 ^ (e - 23) := by
    rw [sub_mul, ← hv']
  rw [key, abs_mul, abs_of_pos hp]
  have := mul_le_mul_of_nonneg_right hd (le_of_lt hp)
  linarith

/-- C108: 32 bit floats are such a format. -/
theorem C108_single :
    FloatFormat roundSingle (1 / 2 ^ 24) (2 ^ (-126 : Int)) (2 ^ (127 : Int)) ∧
    (∀ n : Nat, n ≤ 2 ^ 24 → roundSingle n = n) ∧
    (∀ v w, 0 ≤ v → v ≤ w → roundSingle v ≤ roundSingle w) ∧
    ∀ v, 0 < v → 0 < roundSingle v := by
  refine ⟨⟨by norm_num, by positivity, roundSingle_zero, fun v hv => ?_, fun v hv _ => ?_⟩, fun n hn => ?_,
    fun v w => roundSingle_mono, fun v => roundSingle_pos⟩
  · have h1 := roundSingle_mono (by positivity) hv
    have h2 := roundSingle_fixed 1 (-126) (by norm_num) (by norm_num)
    rw [Int.cast_one, one_mul] at h2
    rwa [h2] at h1
  · exact roundSingle_near (lt_of_lt_of_le (by positivity) hv)
  · have := roundSingle_fixed n 0 (by positivity) (by exact_mod_cast hn)
    simpa using this

/-- C108 for the count of flashes and for the total energy in 32 bit floats: `C108_sum` and `C108_counts` with their
constants. -/
theorem C108_float32 (n0 n1 : Nat) (dss : List (List IdxRow)) (h : ∀ ds ∈ dss, OnGrid (Grid.zeros n0 n1) ds)
    (ho : ∀ ds ∈ dss, OncePerCell ds) :
    ∃ g', sendAll (accumulateVarSingle roundSingle) (Grid.zeros n0 n1) dss = (g', none) ∧ g'.n0 = n0 ∧ g'.n1 = n1 ∧
      ∀ i j, let vs := sentTo i j dss.flatten
        ((∀ ds ∈ dss, ∀ r ∈ ds, r.v = 0 ∨ 2 ^ (-126 : Int) ≤ r.v) → vs.length ≤ 2 ^ 16 → vs.sum ≤ 2 ^ (126 : Int) →
          |g'.val i j - vs.sum| ≤ 1 / 200 * vs.sum) ∧
        ((∀ ds ∈ dss, ∀ r ∈ ds, ∃ n : Nat, r.v = n) → vs.sum ≤ 2 ^ 24 → g'.val i j = vs.sum) := by
  obtain ⟨g', e, s0, s1, -⟩ := single_all roundSingle _ dss h ho
  refine ⟨g', e, s0, s1, fun i j => ?_⟩
  intro vs
  constructor
  · intro hr hl hs
    obtain ⟨g2, e2, -, -, v2⟩ := C108_sum C108_single.1 n0 n1 dss h ho hr
    have : g2 = g' := by rw [e] at e2; exact (Prod.mk.inj e2).1.symm
    subst this
    have hs0 : 0 ≤ vs.sum := by
      apply List.sum_nonneg
      intro w hw
      obtain ⟨r, hr', rfl⟩ := mem_sentTo hw
      obtain ⟨ds, hds, hrd⟩ := List.mem_flatten.mp hr'
      rcases hr ds hds r hrd with h | h
      · rw [h]
      · exact le_trans (by positivity) h
    have hpow : (1 + 1 / 2 ^ 24 : Rat) ^ (vs.length + 1) ≤ 1 + 1 / 200 := by
      have h1 : (1 + 1 / 2 ^ 24 : Rat) ^ (vs.length + 1) ≤ (1 + 1 / 2 ^ 24) ^ (2 ^ 16 + 1) :=
        pow_le_pow_right₀ (by norm_num) (by omega)
      have h2 : (1 + 1 / 2 ^ 24 : Rat) ^ (2 ^ 16 + 1) * (1 - (2 ^ 16 + 1) / 2 ^ 24) ≤ 1 := by
        have b := one_add_mul_le_pow (R := Rat) (a := -(1 / 2 ^ 24)) (by norm_num) (2 ^ 16 + 1)
        have hnn : (0 : Rat) ≤ (1 + 1 / 2 ^ 24) ^ (2 ^ 16 + 1) := by positivity
        have hb : (1 - (2 ^ 16 + 1) / 2 ^ 24 : Rat) ≤ (1 + -(1 / 2 ^ 24)) ^ (2 ^ 16 + 1) := by
          refine le_trans (le_of_eq ?_) b
          push_cast
          norm_num
        calc _ ≤ (1 + 1 / 2 ^ 24 : Rat) ^ (2 ^ 16 + 1) * (1 + -(1 / 2 ^ 24)) ^ (2 ^ 16 + 1) :=
              mul_le_mul_of_nonneg_left hb hnn
          _ = ((1 + 1 / 2 ^ 24) * (1 + -(1 / 2 ^ 24))) ^ (2 ^ 16 + 1) := (mul_pow _ _ _).symm
          _ ≤ 1 := pow_le_one₀ (by norm_num) (by norm_num)
      generalize (1 + 1 / 2 ^ 24 : Rat) ^ (2 ^ 16 + 1) = x at h1 h2
      have h3 : (1 - (2 ^ 16 + 1) / 2 ^ 24 : Rat) = 16711679 / 16777216 := by norm_num
      rw [h3] at h2
      have h4 : x ≤ 16777216 / 16711679 := by linarith
      have h5 : (16777216 / 16711679 : Rat) ≤ 1 + 1 / 200 := by norm_num
      linarith
    have := (v2 i j (by
      have h1 : (1 + 1 / 2 ^ 24 : Rat) ^ (vs.length + 1) * vs.sum ≤ (1 + 1 / 200) * vs.sum :=
        mul_le_mul_of_nonneg_right hpow hs0
      have h2 : (2 : Rat) ^ (127 : Int) = 2 * 2 ^ (126 : Int) := by
        rw [show (127 : Int) = 1 + 126 from rfl, zpow_add₀ (by norm_num), zpow_one]
      have h3 : (0 : Rat) < 2 ^ (126 : Int) := by positivity
      rw [h2]
      linarith)).1
    have h1 : ((1 + 1 / 2 ^ 24 : Rat) ^ (vs.length + 1) - 1) * vs.sum ≤ 1 / 200 * vs.sum :=
      mul_le_mul_of_nonneg_right (by linarith) hs0
    exact le_trans this h1
  · intro hc hs
    obtain ⟨g2, e2, -, -, v2⟩ := C108_counts (most := 2 ^ 24) C108_single.2.1 n0 n1 dss h ho hc
    have : g2 = g' := by rw [e] at e2; exact (Prod.mk.inj e2).1.symm
    subst this
    exact v2 i j (by push_cast; exact hs)

/-- C108: beyond 2^24 a count stands still: the bound of `C108_counts` is the largest one. -/
theorem C108_counts_sharp : roundSingle (2 ^ 24 + roundSingle 1) = 2 ^ 24 := by decide +kernel

/-- C108 for the frames that arrive at the gridder: a column of the children of the frames. -/
theorem C108_frames {nx ny : Nat} {frames : List (List LmaEvent × List LmaParent)} (hf : ChildrenOk nx ny frames)
    (col : LmaEvent → Rat) :
    ∃ g', sendAll (accumulateVarSingle roundSingle) (Grid.zeros nx ny) (frames.map fun f => rowsOf col f.1) = (g', none) ∧
      g'.n0 = nx ∧ g'.n1 = ny ∧
      ∀ i j, let vs := (onCell i j frames).map col
        ((∀ f ∈ frames, ∀ e ∈ f.1, col e = 0 ∨ 2 ^ (-126 : Int) ≤ col e) → vs.length ≤ 2 ^ 16 →
          vs.sum ≤ 2 ^ (126 : Int) → |g'.val i j - vs.sum| ≤ 1 / 200 * vs.sum) ∧
        ((∀ f ∈ frames, ∀ e ∈ f.1, ∃ n : Nat, col e = n) → vs.sum ≤ 2 ^ 24 → g'.val i j = vs.sum) := by
  obtain ⟨o1, o2⟩ := rowsOf_ok hf col
  obtain ⟨g', e, s0, s1, v⟩ := C108_float32 nx ny _ o1 o2
  refine ⟨g', e, s0, s1, fun i j => ?_⟩
  have := v i j
  rw [sentTo_rowsOf] at this
  intro vs
  refine ⟨fun h1 => this.1 ?_, fun h1 => this.2 ?_⟩
  all_goals
    intro ds hds r hr
    obtain ⟨f, hf', rfl⟩ := List.mem_map.mp hds
    obtain ⟨e', he, rfl⟩ := List.mem_map.mp hr
    exact h1 f hf' e' he

-- the hypotheses of `C108_float32` on a grid of two cells, and what the rounding does to a third of 1 added three times
example : (∀ ds ∈ [[(⟨0, 0, 1 / 3⟩ : IdxRow), ⟨1, 0, 2⟩], [⟨0, 0, 1 / 3⟩], [⟨0, 0, 1 / 3⟩]],
    OnGrid (Grid.zeros 1 2) ds ∧ OncePerCell ds ∧ ∀ r ∈ ds, (2 : Rat) ^ (-126 : Int) ≤ r.v) := by
  unfold OnGrid OncePerCell
  decide +kernel

example : ((sendAll (accumulateVarSingle roundSingle) (Grid.zeros 1 2)
      [[⟨0, 0, 1 / 3⟩, ⟨1, 0, 2⟩], [⟨0, 0, 1 / 3⟩], [⟨0, 0, 1 / 3⟩]]).1.val 0 0 = 1) ∧
    roundSingle (1 / 3) = 11184811 / 33554432 ∧
    ((sendAll (accumulateVarSingle roundSingle) (Grid.zeros 1 2)
      [[⟨0, 0, 1 / 10⟩, ⟨1, 0, 2⟩], [⟨0, 0, 1 / 5⟩]]).1.val 0 0 = 10066330 / 33554432) := by decide +kernel

example : ((sendAll (accumulateMinvarSingle roundSingle) (Grid.zeros 1 2)
      [[⟨0, 0, 1 / 3⟩, ⟨1, 0, 2⟩], [⟨0, 0, 1 / 5⟩]]).1.val 0 0 = roundSingle (1 / 5)) := by decide +kernel

end Verif.Props
