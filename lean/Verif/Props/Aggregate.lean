import Verif.Model.Aggregate
import Mathlib.Tactic.Ring
import Mathlib.Tactic.Linarith
import Mathlib.Tactic.NormNum

/-!
# C42, C43, C61, C74: time series and their aggregation
-/

namespace Verif.Props

open Verif.Py Verif.Model

/-! ## Least and greatest -/

/-- `m` is the least element of the list. -/
def IsLeastIn {α : Type} [LE α] (l : List α) (m : α) : Prop := m ∈ l ∧ ∀ v ∈ l, m ≤ v

/-- `m` is the greatest element of the list. -/
def IsGreatestIn {α : Type} [LE α] (l : List α) (m : α) : Prop := m ∈ l ∧ ∀ v ∈ l, v ≤ m

theorem foldl_min_isMin {α : Type} [LinearOrder α] (l : List α) :
    ∀ a : α, IsLeastIn (a :: l) (l.foldl min a) := by
  induction l with
  | nil => intro a; exact ⟨by simp, by simp⟩
  | cons b l ih =>
    intro a
    obtain ⟨h1, h2⟩ := ih (min a b)
    simp only [List.foldl_cons]
    constructor
    · rcases List.mem_cons.mp h1 with h | h
      · rw [h]
        rcases min_choice a b with e | e <;> simp [e]
      · simp [h]
    · intro v hv
      have hm := h2 (min a b) (by simp)
      rcases List.mem_cons.mp hv with rfl | hv
      · exact le_trans hm (min_le_left _ _)
      · rcases List.mem_cons.mp hv with rfl | hv
        · exact le_trans hm (min_le_right _ _)
        · exact h2 v (by simp [hv])

theorem foldl_max_isMax {α : Type} [LinearOrder α] (l : List α) :
    ∀ a : α, IsGreatestIn (a :: l) (l.foldl max a) := by
  induction l with
  | nil => intro a; exact ⟨by simp, by simp⟩
  | cons b l ih =>
    intro a
    obtain ⟨h1, h2⟩ := ih (max a b)
    simp only [List.foldl_cons]
    constructor
    · rcases List.mem_cons.mp h1 with h | h
      · rw [h]
        rcases max_choice a b with e | e <;> simp [e]
      · simp [h]
    · intro v hv
      have hm := h2 (max a b) (by simp)
      rcases List.mem_cons.mp hv with rfl | hv
      · exact le_trans (le_max_left _ _) hm
      · rcases List.mem_cons.mp hv with rfl | hv
        · exact le_trans (le_max_right _ _) hm
        · exact h2 v (by simp [hv])

theorem pyMin_isMin {l : List Int} {m : Int} (h : pyMin l = .ok m) : IsLeastIn l m := by
  cases l with
  | nil => cases h
  | cons a l => cases h; exact foldl_min_isMin l a

theorem pyMax_isMax {l : List Int} {m : Int} (h : pyMax l = .ok m) : IsGreatestIn l m := by
  cases l with
  | nil => cases h
  | cons a l => cases h; exact foldl_max_isMax l a

theorem pyMin_exists {l : List Int} (h : l ≠ []) : ∃ m, pyMin l = .ok m := by
  cases l with
  | nil => exact absurd rfl h
  | cons a l => exact ⟨_, rfl⟩

theorem pyMax_exists {l : List Int} (h : l ≠ []) : ∃ m, pyMax l = .ok m := by
  cases l with
  | nil => exact absurd rfl h
  | cons a l => exact ⟨_, rfl⟩

/-! ## C61 -/

/-- C61: one frame per file, in the order of the files and with the contents and the start time of
its file; the coverage reaches from the earliest start to the latest end. -/
theorem C61_series (vars : List String) (files : List ImageData) (hne : files ≠ []) :
    ∃ out, openGlmTimeSeries vars files = .ok out ∧ out.vars = vars ∧
      out.frames.length = files.length ∧
      (∀ (k : Nat) (d : ImageData), files[k]? = some d → ∃ f : Frame, out.frames[k]? = some f ∧ f.time = d.start ∧
        ∀ name p, f.value name p = d.value name p) ∧
      IsLeastIn (files.map (·.start)) out.coverageStart ∧
      IsGreatestIn (files.map (·.stop)) out.coverageEnd := by
  have hs : files.map (·.start) ≠ [] := by simpa using hne
  have he : files.map (·.stop) ≠ [] := by simpa using hne
  obtain ⟨a, ha⟩ := pyMin_exists hs
  obtain ⟨b, hb⟩ := pyMax_exists he
  unfold openGlmTimeSeries genFileTimes
  simp only [bind, Except.bind, pure, Except.pure, ha, hb]
  refine ⟨_, rfl, rfl, by simp, ?_, pyMin_isMin ha, pyMax_isMax hb⟩
  intro k d hk
  refine ⟨⟨d.start, d.value⟩, ?_, rfl, fun _ _ => rfl⟩
  simp only [List.getElem?_zipWith, List.getElem?_map, hk, Option.map_some]

/-- Two files that are given in reverse order of time. -/
example : (openGlmTimeSeries ["total_energy"]
    [⟨60, 120, fun _ _ => some 2⟩, ⟨0, 60, fun _ _ => some 1⟩]).toOption.map (fun o =>
      (o.frames.map (·.time), o.coverageStart, o.coverageEnd)) = some ([60, 0], 0, 120) := by decide

/-! ## Intervals -/

theorem zip_tail_map_range {α : Type} (f : Nat → α) (m : Nat) :
    ((List.range m).map f).zip ((List.range m).map f).tail =
      (List.range (m - 1)).map fun k => (f k, f (k + 1)) := by
  apply List.ext_getElem?
  intro k
  cases hlt : decide (k < m - 1) with
  | true =>
    have hk : k < m - 1 := of_decide_eq_true hlt
    rw [(List.getElem?_zip_eq_some (z := (f k, f (k + 1)))).mpr]
    · rw [List.getElem?_map, List.getElem?_range hk]; rfl
    · rw [List.getElem?_tail]
      simp only [List.getElem?_map]
      rw [List.getElem?_range (by omega), List.getElem?_range (by omega)]
      exact ⟨rfl, rfl⟩
  | false =>
    have hk : ¬ k < m - 1 := of_decide_eq_false hlt
    rw [List.getElem?_eq_none, List.getElem?_eq_none]
    · simp; omega
    · simp; omega

/-- The number of intervals. -/
def binCount (duration dt : Int) : Nat := (duration.tdiv dt).toNat

theorem bins_eq (start duration dt : Int) :
    (binEdges start duration dt).zip (binEdges start duration dt).tail =
      (List.range (binCount duration dt)).map fun (k : Nat) =>
        (start + dt * (k : Int), start + dt * ((k : Int) + 1)) := by
  unfold binEdges binCount
  rw [zip_tail_map_range]
  have : (duration.tdiv dt + 1).toNat - 1 = (duration.tdiv dt).toNat := by omega
  rw [this]
  simp

theorem countP_bins (start dt t : Int) (hdt : 0 < dt) (n : Nat) :
    ((List.range n).map fun (k : Nat) =>
      (start + dt * (k : Int), start + dt * ((k : Int) + 1))).countP (fun b => inBin b t) =
      if start < t ∧ t ≤ start + dt * n then 1 else 0 := by
  induction n with
  | zero =>
    simp only [List.range_zero, List.map_nil, List.countP_nil, Nat.cast_zero, mul_zero, add_zero]
    rw [if_neg (by omega)]
  | succ n ih =>
    rw [List.range_succ, List.map_append, List.countP_append, ih]
    simp only [List.map_cons, List.map_nil, List.countP_singleton, inBin, decide_eq_true_eq]
    push_cast
    have hx : 0 ≤ dt * (n : Int) := mul_nonneg hdt.le (Int.natCast_nonneg n)
    have hy : dt * ((n : Int) + 1) = dt * n + dt := by ring
    rw [hy]
    generalize dt * (n : Int) = x at *
    split_ifs <;> omega

theorem sum_over_bins {β φ : Type} (bins : List β) (mem : β → φ → Bool) (v : φ → Rat)
    (P : φ → Prop) [DecidablePred P] (l : List φ)
    (h : ∀ f ∈ l, bins.countP (fun b => mem b f) = if P f then 1 else 0) :
    (bins.map fun b => ((l.filter (mem b)).map v).sum).sum = ((l.filter (P ·)).map v).sum := by
  induction l with
  | nil => simp
  | cons f l ih =>
    have hc : ∀ bs : List β, (bs.map fun b => (((f :: l).filter (mem b)).map v).sum).sum =
        bs.countP (fun b => mem b f) * v f + (bs.map fun b => ((l.filter (mem b)).map v).sum).sum := by
      intro bs
      induction bs with
      | nil => simp
      | cons b bs ihb =>
        rw [List.map_cons, List.sum_cons, ihb, List.map_cons, List.sum_cons, List.countP_cons]
        cases hm : mem b f with
        | true => simp [hm]; ring
        | false => simp [hm]; ring
    rw [hc, ih (fun g hg => h g (List.mem_cons_of_mem _ hg)), h f List.mem_cons_self]
    by_cases hp : P f
    · simp [hp]
    · simp [hp]

/-! ## C42 -/

/-- The frames with a time after `lo` and up to `hi`. -/
def framesBetween (l : List Frame) (lo hi : Int) : List Frame :=
  l.filter fun f => lo < f.time ∧ f.time ≤ hi

/-- The sum of what is there. -/
def total (l : List (Option Rat)) : Rat := (l.map fun v => v.getD 0).sum

/-- What a call returned, in terms of start, length of the interval and number of intervals. -/
theorem aggregate_ok {glm : TimeSeries} {minutes : Nat} {startEnd : Option (Int × Int)}
    {out : Aggregated} (h : aggregate glm minutes startEnd = .ok out) :
    ∃ start stop : Int,
      (match startEnd with
        | some se => se = (start, stop)
        | none => ∃ first last, IsLeastIn (glm.frames.map (·.time)) first ∧
            IsGreatestIn (glm.frames.map (·.time)) last ∧ start = toPydatetime first ∧
            stop = toPydatetime last + 60000000000 * minutes) ∧
      0 < minutes ∧ "average_flash_area" ∈ glm.vars ∧ "flash_extent_density" ∈ glm.vars ∧
      "group_extent_density" ∈ glm.vars ∧
      out.bins = (List.range (binCount (stop - start) (60000000000 * minutes))).map
        (fun (k : Nat) => aggregateBin glm.frames (start + 60000000000 * minutes * (k : Int),
          start + 60000000000 * minutes * ((k : Int) + 1))) ∧
      (∃ f ∈ glm.frames, start < f.time ∧
        f.time ≤ start + 60000000000 * minutes * binCount (stop - start) (60000000000 * minutes)) ∧
      IsLeastIn (out.bins.map (·.left)) out.coverageStart ∧
      IsGreatestIn (out.bins.map (·.right)) out.coverageEnd ∧
      out.vars = sumVars.filter (· ∈ glm.vars) ++ ["total_flash_area", "total_group_area",
        "average_flash_area", "average_group_area"] ++ minVars.filter (· ∈ glm.vars) := by
  obtain ⟨se, hse, h1⟩ : ∃ se : Int × Int,
      (match startEnd with
        | some se' => se' = (se.1, se.2)
        | none => ∃ first last, IsLeastIn (glm.frames.map (·.time)) first ∧
            IsGreatestIn (glm.frames.map (·.time)) last ∧ se.1 = toPydatetime first ∧
            se.2 = toPydatetime last + 60000000000 * minutes) ∧
      aggregate glm minutes (some se) = .ok out := by
    cases startEnd with
    | some se => exact ⟨se, rfl, h⟩
    | none =>
      unfold aggregate at h
      simp only [bind, Except.bind, pure, Except.pure] at h
      cases ha : pyMin (glm.frames.map (·.time)) with
      | error e => rw [ha] at h; cases h
      | ok first =>
        rw [ha] at h
        simp only at h
        cases hb : pyMax (glm.frames.map (·.time)) with
        | error e => rw [hb] at h; cases h
        | ok last =>
          rw [hb] at h
          refine ⟨(_, _), ⟨first, last, pyMin_isMin ha, pyMax_isMax hb, rfl, rfl⟩, ?_⟩
          unfold aggregate
          simp only [bind, Except.bind, pure, Except.pure]
          exact h
  refine ⟨se.1, se.2, hse, ?_⟩
  unfold aggregate at h1
  simp only [bind, Except.bind, pure, Except.pure] at h1
  by_cases c1 : "average_flash_area" ∉ glm.vars ∨ "flash_extent_density" ∉ glm.vars
  · rw [if_pos c1] at h1; cases h1
  rw [if_neg c1] at h1
  by_cases c2 : oneMinute * (minutes : Int) = 0
  · rw [if_pos c2] at h1; cases h1
  rw [if_neg c2] at h1
  rw [bins_eq] at h1
  split at h1
  · cases h1
  rename_i c3
  by_cases c4 : "group_extent_density" ∉ glm.vars
  · rw [if_pos c4] at h1; cases h1
  rw [if_neg c4] at h1
  have hm : 0 < minutes := by
    rcases Nat.eq_zero_or_pos minutes with h | h
    · exact absurd (by rw [h]; simp) c2
    · exact h
  have hdt : 0 < oneMinute * (minutes : Int) := mul_pos (by decide) (by exact_mod_cast hm)
  rw [not_or, not_not, not_not] at c1
  rw [not_not] at c4
  rw [List.map_map] at h1
  split at h1
  · cases h1
  rename_i cs hcs
  split at h1
  · cases h1
  rename_i ce hce
  cases h1
  refine ⟨hm, c1.1, c1.2, c4, by rw [List.map_map]; rfl, ?_, ?_, ?_, rfl⟩
  · rw [List.all_eq_true] at c3
    push Not at c3
    obtain ⟨f, hf, hc⟩ := c3
    rw [ne_eq, List.all_eq_true] at hc
    push Not at hc
    obtain ⟨b, hb, hb2⟩ := hc
    have hin : inBin b f.time = true := by
      cases hx : inBin b f.time with
      | true => rfl
      | false => rw [hx] at hb2; exact absurd rfl hb2
    refine ⟨f, hf, ?_⟩
    have hcount := countP_bins se.1 (oneMinute * minutes) f.time hdt
      (binCount (se.2 - se.1) (oneMinute * minutes))
    have hpos : 0 < (List.map (fun (k : Nat) => (se.1 + oneMinute * minutes * (k : Int),
        se.1 + oneMinute * minutes * ((k : Int) + 1)))
        (List.range (binCount (se.2 - se.1) (oneMinute * minutes)))).countP
          (fun b => inBin b f.time) := List.countP_pos_iff.mpr ⟨b, hb, hin⟩
    rw [hcount] at hpos
    split at hpos
    · rename_i hcon
      exact hcon
    · exact absurd hpos (by decide)
  · rw [← List.map_map] at hcs; exact pyMin_isMin hcs
  · exact pyMax_isMax hce

/-- The fields that are added over time. -/
def additiveFields : List String :=
  ["flash_extent_density", "flash_centroid_density", "total_energy", "group_extent_density",
   "group_centroid_density"]

/-- The result has every field of the series that is added or whose minimum is taken, and both
average areas. -/
theorem C42_fields (glm : TimeSeries) (minutes : Nat) (startEnd : Option (Int × Int))
    (out : Aggregated) (h : aggregate glm minutes startEnd = .ok out) :
    (∀ name ∈ additiveFields, name ∈ glm.vars → name ∈ out.vars) ∧
    ("minimum_flash_area" ∈ glm.vars → "minimum_flash_area" ∈ out.vars) ∧
    "average_flash_area" ∈ out.vars ∧ "average_group_area" ∈ out.vars := by
  obtain ⟨-, -, -, -, -, -, -, -, -, -, -, hv⟩ := aggregate_ok h
  rw [hv]
  refine ⟨?_, ?_, by simp, by simp⟩
  · intro name hname hin
    have : name ∈ sumVars := hname
    simp [this, hin]
  · intro hin
    simp [minVars, hin]

/-- A sum over the frames of an interval. -/
theorem aggregateBin_sum (frames : List Frame) (b : Int × Int) (name : String)
    (hname : name ∈ additiveFields) (p : Pixel) :
    (aggregateBin frames b).value name p =
      if (framesBetween frames b.1 b.2).isEmpty then none
      else some (total ((framesBetween frames b.1 b.2).map fun f => f.value name p)) := by
  have h1 : name ≠ "average_flash_area" ∧ name ≠ "average_group_area" ∧ name ∉ minVars ∧
      name ≠ "total_flash_area" ∧ name ≠ "total_group_area" := by
    simp only [additiveFields, List.mem_cons, List.not_mem_nil, or_false] at hname
    rcases hname with rfl | rfl | rfl | rfl | rfl <;> decide
  have hsum : ∀ f : Frame, summand f name p = f.value name p := by
    intro f
    unfold summand
    rw [if_neg h1.2.2.2.1, if_neg h1.2.2.2.2]
  unfold aggregateBin
  dsimp only
  rw [if_neg h1.1, if_neg h1.2.1, if_neg h1.2.2.1, List.map_congr_left (fun f _ => hsum f)]
  rfl

/-- C42, interval by interval: interval number k reaches from `start + k*dt` to `start + (k+1)*dt`;
the sums in it are those of exactly the frames with times after its left and up to its right end; an
interval without frames has no values. -/
theorem C42_intervals (glm : TimeSeries) (minutes : Nat) (start stop : Int) (out : Aggregated)
    (h : aggregate glm minutes (some (start, stop)) = .ok out) :
    out.bins.length = ((stop - start) / (60000000000 * minutes)).toNat ∧
    (∀ (k : Nat) (b : AggBin), out.bins[k]? = some b →
      b.left = start + 60000000000 * minutes * k ∧ b.right = b.left + 60000000000 * minutes ∧
      ∀ name ∈ additiveFields, ∀ p, b.value name p =
        if (framesBetween glm.frames b.left b.right).isEmpty then none
        else some (total ((framesBetween glm.frames b.left b.right).map fun f => f.value name p))) ∧
    out.coverageStart = start ∧ out.coverageEnd = start + 60000000000 * minutes * out.bins.length := by
  obtain ⟨s', e', hse, hm, -, -, -, hb, ⟨f0, hf0, hlo, hhi⟩, hmin, hmax, -⟩ := aggregate_ok h
  simp only [Prod.mk.injEq] at hse
  obtain ⟨rfl, rfl⟩ := hse
  have hdt : (0 : Int) < 60000000000 * minutes := by omega
  have hn0 : 0 < binCount (stop - start) (60000000000 * minutes) := by
    rcases Nat.eq_zero_or_pos (binCount (stop - start) (60000000000 * minutes)) with h0 | h0
    · rw [h0] at hhi; simp at hhi; omega
    · exact h0
  have hlen : out.bins.length = binCount (stop - start) (60000000000 * minutes) := by rw [hb]; simp
  have hget : ∀ (k : Nat) (b : AggBin), out.bins[k]? = some b → k < out.bins.length ∧
      b = aggregateBin glm.frames (start + 60000000000 * minutes * (k : Int),
          start + 60000000000 * minutes * ((k : Int) + 1)) := by
    intro k b hk
    have hk2 := (List.getElem?_eq_some_iff.mp hk).1
    rw [hb, List.getElem?_map, List.getElem?_range (by rw [← hlen]; exact hk2)] at hk
    exact ⟨hk2, (Option.some.inj hk).symm⟩
  refine ⟨?_, ?_, ?_, ?_⟩
  · rw [hlen]
    unfold binCount
    rcases lt_or_ge (stop - start) 0 with hneg | hpos
    · exfalso
      unfold binCount at hn0
      have : (stop - start).tdiv (60000000000 * minutes) ≤ 0 :=
        by
          have h1 : (-(stop - start)).tdiv (60000000000 * minutes) ≥ 0 :=
            Int.tdiv_nonneg (by omega) hdt.le
          rw [Int.neg_tdiv] at h1
          omega
      omega
    · rw [Int.tdiv_eq_ediv_of_nonneg hpos]
  · intro k b hk
    obtain ⟨-, rfl⟩ := hget k b hk
    refine ⟨rfl, ?_, fun name hname p => aggregateBin_sum _ _ name hname p⟩
    show start + 60000000000 * minutes * ((k : Int) + 1) =
      start + 60000000000 * minutes * k + 60000000000 * minutes
    ring
  · -- the earliest left edge is the first one
    obtain ⟨hin, hle⟩ := hmin
    have h0 : start ∈ out.bins.map (·.left) := by
      rw [hb, List.map_map]
      exact List.mem_map.mpr ⟨0, List.mem_range.mpr hn0, by simp [aggregateBin]⟩
    refine le_antisymm (hle _ h0) ?_
    rw [hb, List.map_map] at hin
    obtain ⟨k, -, hk⟩ := List.mem_map.mp hin
    rw [← hk]
    have : 0 ≤ 60000000000 * (minutes : Int) * (k : Int) := mul_nonneg hdt.le (Int.natCast_nonneg k)
    show start ≤ start + 60000000000 * minutes * (k : Int)
    omega
  · obtain ⟨hin, hle⟩ := hmax
    have h0 : start + 60000000000 * minutes * out.bins.length ∈ out.bins.map (·.right) := by
      rw [hlen, hb, List.map_map]
      refine List.mem_map.mpr ⟨binCount (stop - start) (60000000000 * minutes) - 1,
        List.mem_range.mpr (by omega), ?_⟩
      show start + 60000000000 * minutes * (((binCount (stop - start) (60000000000 * minutes) - 1 :
        Nat) : Int) + 1) = _
      have : (((binCount (stop - start) (60000000000 * minutes) - 1 : Nat) : Int) + 1) =
          binCount (stop - start) (60000000000 * minutes) := by omega
      rw [this]
    refine le_antisymm ?_ (hle _ h0)
    rw [hb, List.map_map] at hin
    obtain ⟨k, hkr, hk⟩ := List.mem_map.mp hin
    rw [← hk, hlen]
    have hkr := List.mem_range.mp hkr
    show start + 60000000000 * minutes * ((k : Int) + 1) ≤ _
    have : 60000000000 * (minutes : Int) * ((k : Int) + 1) ≤
        60000000000 * minutes * binCount (stop - start) (60000000000 * minutes) :=
      mul_le_mul_of_nonneg_left (by omega) hdt.le
    omega

theorem aggregate_sum {glm : TimeSeries} {minutes : Nat} {out : Aggregated} {start stop : Int}
    (hm : 0 < minutes)
    (hb : out.bins = (List.range (binCount (stop - start) (60000000000 * minutes))).map
        (fun (k : Nat) => aggregateBin glm.frames (start + 60000000000 * minutes * (k : Int),
          start + 60000000000 * minutes * ((k : Int) + 1)))) :
    (∀ t, start < t ∧ t ≤ start + 60000000000 * minutes * out.bins.length ↔
      ∃! k : Nat, ∃ b : AggBin, out.bins[k]? = some b ∧ b.left < t ∧ t ≤ b.right) ∧
    (∀ t, start < t ∧ t ≤ start + 60000000000 * minutes * out.bins.length ↔
      ∃ b ∈ out.bins, b.left < t ∧ t ≤ b.right) ∧
    ∀ name ∈ additiveFields, ∀ p, total (out.bins.map fun b => b.value name p) =
      total ((framesBetween glm.frames start
        (start + 60000000000 * minutes * out.bins.length)).map fun f => f.value name p) := by
  have hdt : (0 : Int) < 60000000000 * minutes := by omega
  have hlen : out.bins.length = binCount (stop - start) (60000000000 * minutes) := by rw [hb]; simp
  have hget : ∀ (k : Nat) (b : AggBin), out.bins[k]? = some b ↔ k < out.bins.length ∧
      b = aggregateBin glm.frames (start + 60000000000 * minutes * (k : Int),
          start + 60000000000 * minutes * ((k : Int) + 1)) := by
    intro k b
    rw [hlen, hb, List.getElem?_map]
    constructor
    · intro hk
      have hk2 : k < binCount (stop - start) (60000000000 * minutes) := by
        by_contra hc
        rw [List.getElem?_eq_none (by simpa using hc)] at hk
        cases hk
      rw [List.getElem?_range hk2] at hk
      exact ⟨hk2, (Option.some.inj hk).symm⟩
    · rintro ⟨hk, rfl⟩
      rw [List.getElem?_range hk]
      rfl
  generalize 60000000000 * (minutes : Int) = dt at *
  have key : ∀ t, start < t ∧ t ≤ start + dt * out.bins.length ↔
      ∃! k : Nat, ∃ b : AggBin, out.bins[k]? = some b ∧ b.left < t ∧ t ≤ b.right := by
    intro t
    constructor
    · rintro ⟨h1, h2⟩
      obtain ⟨e, he⟩ : ∃ e, e = (t - start - 1) / dt := ⟨_, rfl⟩
      have he0 : 0 ≤ e := by rw [he]; exact Int.ediv_nonneg (by omega) hdt.le
      have he1 : dt * e ≤ t - start - 1 := by
        rw [he, mul_comm]; exact Int.ediv_mul_le _ hdt.ne'
      have he2 : t - start - 1 < dt * (e + 1) := by
        rw [he, mul_comm]; exact Int.lt_ediv_add_one_mul_self _ hdt
      have hen : e < out.bins.length := by
        by_contra hc
        have : dt * out.bins.length ≤ dt * e := mul_le_mul_of_nonneg_left (by omega) hdt.le
        omega
      refine ⟨e.toNat, ⟨_, (hget _ _).mpr ⟨by omega, rfl⟩, ?_, ?_⟩, ?_⟩
      · show start + dt * ((e.toNat : Nat) : Int) < t
        rw [Int.toNat_of_nonneg he0]; omega
      · show t ≤ start + dt * (((e.toNat : Nat) : Int) + 1)
        rw [Int.toNat_of_nonneg he0]; omega
      · rintro k ⟨b, hk, hb1, hb2⟩
        obtain ⟨-, rfl⟩ := (hget _ _).mp hk
        have hb1 : start + dt * (k : Int) < t := hb1
        have hb2 : t ≤ start + dt * ((k : Int) + 1) := hb2
        have a1 : (k : Int) < e + 1 := by
          by_contra hc
          have : dt * (e + 1) ≤ dt * k := mul_le_mul_of_nonneg_left (by omega) hdt.le
          omega
        have a2 : e < (k : Int) + 1 := by
          by_contra hc
          have : dt * ((k : Int) + 1) ≤ dt * e := mul_le_mul_of_nonneg_left (by omega) hdt.le
          omega
        omega
    · rintro ⟨k, ⟨b, hk, hb1, hb2⟩, -⟩
      obtain ⟨hk1, rfl⟩ := (hget _ _).mp hk
      have hb1 : start + dt * (k : Int) < t := hb1
      have hb2 : t ≤ start + dt * ((k : Int) + 1) := hb2
      have a1 : 0 ≤ dt * (k : Int) := mul_nonneg hdt.le (Int.natCast_nonneg k)
      have a2 : dt * ((k : Int) + 1) ≤ dt * out.bins.length :=
        mul_le_mul_of_nonneg_left (by omega) hdt.le
      omega
  refine ⟨key, ?_, ?_⟩
  · intro t
    rw [key]
    constructor
    · rintro ⟨k, ⟨b, hk, hb1⟩, -⟩
      exact ⟨b, List.mem_of_getElem? hk, hb1⟩
    · rintro ⟨b, hbm, hb1, hb2⟩
      rw [← key]
      obtain ⟨k, hk⟩ := List.getElem?_of_mem hbm
      obtain ⟨hk1, rfl⟩ := (hget _ _).mp hk
      have hb1 : start + dt * (k : Int) < t := hb1
      have hb2 : t ≤ start + dt * ((k : Int) + 1) := hb2
      have a1 : 0 ≤ dt * (k : Int) := mul_nonneg hdt.le (Int.natCast_nonneg k)
      have a2 : dt * ((k : Int) + 1) ≤ dt * out.bins.length :=
        mul_le_mul_of_nonneg_left (by omega) hdt.le
      omega
  · intro name hname p
    have hs := sum_over_bins
      ((List.range (binCount (stop - start) dt)).map fun (k : Nat) =>
        (start + dt * (k : Int), start + dt * ((k : Int) + 1)))
      (fun b (f : Frame) => inBin b f.time) (fun f => (f.value name p).getD 0)
      (fun f => start < f.time ∧ f.time ≤ start + dt * binCount (stop - start) dt) glm.frames
      (fun f _ => countP_bins start dt f.time hdt _)
    rw [List.map_map] at hs
    rw [hlen]
    unfold total framesBetween
    rw [List.map_map, List.map_map]
    simp only [Function.comp_def] at hs ⊢
    rw [← hs, hb, List.map_map]
    congr 1
    apply List.map_congr_left
    intro k _
    simp only [Function.comp_def]
    rw [aggregateBin_sum _ _ name hname]
    unfold framesBetween inBin total
    split
    · rename_i he
      rw [List.isEmpty_iff] at he
      simp only [he]
      rfl
    · simp [List.map_map, Function.comp_def]

/-- C42: without `start_end` every frame is added to exactly one interval, and the sum over all
intervals is the sum over all frames. -/
def C42_full : Prop := ∀ (glm : TimeSeries) (minutes : Nat) (out : Aggregated),
  aggregate glm minutes none = .ok out →
  (∀ f ∈ glm.frames, ∃! k : Nat, ∃ b : AggBin, out.bins[k]? = some b ∧
    b.left < f.time ∧ f.time ≤ b.right) ∧
  ∀ name ∈ additiveFields, ∀ p, total (out.bins.map fun b => b.value name p) =
    total (glm.frames.map fun f => f.value name p)

theorem toPydatetime_le (t : Int) : toPydatetime t ≤ t ∧ t < toPydatetime t + 1000 := by
  unfold toPydatetime
  omega

/-- C42, exactly: without `start_end` each frame is added to exactly one interval, except for those
at the earliest time if it is a whole number of microseconds: these are added to none.  The sums over
the intervals are the sums over the other frames. -/
theorem C42_exact (glm : TimeSeries) (minutes : Nat) (out : Aggregated) (first : Int)
    (hfirst : IsLeastIn (glm.frames.map (·.time)) first)
    (h : aggregate glm minutes none = .ok out) :
    (∀ f ∈ glm.frames, ¬ (f.time = first ∧ first % 1000 = 0) →
      ∃! k : Nat, ∃ b : AggBin, out.bins[k]? = some b ∧ b.left < f.time ∧ f.time ≤ b.right) ∧
    (∀ f ∈ glm.frames, f.time = first ∧ first % 1000 = 0 →
      ∀ b ∈ out.bins, ¬ (b.left < f.time ∧ f.time ≤ b.right)) ∧
    ∀ name ∈ additiveFields, ∀ p, total (out.bins.map fun b => b.value name p) =
      total ((glm.frames.filter fun f => ¬ (f.time = first ∧ first % 1000 = 0)).map
        fun f => f.value name p) := by
  obtain ⟨start, stop, ⟨first', last, hmin, hmax, hs, he⟩, hm, -, -, -, hb, -⟩ := aggregate_ok h
  have hff : first' = first := le_antisymm (hmin.2 _ hfirst.1) (hfirst.2 _ hmin.1)
  subst hff
  obtain ⟨k1, k2, k3⟩ := aggregate_sum hm hb
  have hlen : out.bins.length = binCount (stop - start) (60000000000 * minutes) := by rw [hb]; simp
  have hdt : (0 : Int) < 60000000000 * minutes := by omega
  -- the intervals reach beyond the last frame
  have hend : ∀ t ∈ glm.frames.map (·.time), t ≤ start + 60000000000 * minutes * out.bins.length := by
    intro t ht
    have h1 := hmax.2 t ht
    have h2 : first' ≤ last := hmin.2 _ hmax.1
    have h3 := toPydatetime_le last
    have hpos : 0 ≤ stop - start := by
      rw [he, hs]
      have : toPydatetime first' ≤ toPydatetime last := by unfold toPydatetime; omega
      omega
    have hcnt : (out.bins.length : Int) = (stop - start) / (60000000000 * minutes) := by
      rw [hlen, binCount, Int.tdiv_eq_ediv_of_nonneg hpos]
      exact Int.toNat_of_nonneg (Int.ediv_nonneg hpos hdt.le)
    have h4 := Int.lt_ediv_add_one_mul_self (stop - start) hdt
    rw [← hcnt] at h4
    have h5 : 60000000000 * (minutes : Int) * out.bins.length =
        1000 * (60000000 * (minutes : Int) * out.bins.length) := by ring
    have h6 : ((out.bins.length : Int) + 1) * (60000000000 * minutes) =
        60000000000 * minutes * out.bins.length + 60000000000 * minutes := by ring
    rw [h6] at h4
    rw [h5] at h4 ⊢
    have h7 : start = 1000 * (first' / 1000) := by rw [hs]; unfold toPydatetime; ring
    have h8 : toPydatetime last = 1000 * (last / 1000) := by unfold toPydatetime; ring
    generalize 60000000 * (minutes : Int) * out.bins.length = x at *
    omega
  have hstart : ∀ t ∈ glm.frames.map (·.time), start < t ↔ ¬ (t = first' ∧ first' % 1000 = 0) := by
    intro t ht
    have h1 := hmin.2 t ht
    have h2 := toPydatetime_le first'
    rw [hs]
    unfold toPydatetime at h2 ⊢
    omega
  refine ⟨?_, ?_, ?_⟩
  · intro f hf hc
    have hft := List.mem_map_of_mem (f := (·.time)) hf
    exact (k1 f.time).mp ⟨(hstart _ hft).mpr hc, hend _ hft⟩
  · intro f hf hc b hbm hbt
    have hft := List.mem_map_of_mem (f := (·.time)) hf
    exact (hstart _ hft).mp ((k2 f.time).mpr ⟨b, hbm, hbt⟩).1 hc
  · intro name hname p
    rw [k3 name hname p]
    unfold framesBetween
    congr 2
    apply List.filter_congr
    intro f hf
    have hft := List.mem_map_of_mem (f := (·.time)) hf
    have h1 := hstart _ hft
    have h2 := hend _ hft
    rw [decide_eq_decide]
    exact ⟨fun hh => h1.mp hh.1, fun hh => ⟨h1.mpr hh, h2⟩⟩

/-- C42, the part that holds: with `start_end` given so that the frames are after its start and not
after the last whole interval, every frame is added to exactly one interval and all sums are
conserved.  Missing: calls without `start_end`, where the earliest frames are lost. -/
theorem C42_partial (glm : TimeSeries) (minutes : Nat) (start stop : Int) (out : Aggregated)
    (hin : ∀ f ∈ glm.frames, start < f.time ∧ f.time ≤ stop)
    (hdvd : (60000000000 * (minutes : Int)) ∣ stop - start)
    (h : aggregate glm minutes (some (start, stop)) = .ok out) :
    (∀ f ∈ glm.frames, ∃! k : Nat, ∃ b : AggBin, out.bins[k]? = some b ∧
      b.left < f.time ∧ f.time ≤ b.right) ∧
    ∀ name ∈ additiveFields, ∀ p, total (out.bins.map fun b => b.value name p) =
      total (glm.frames.map fun f => f.value name p) := by
  have hlen := (C42_intervals glm minutes start stop out h).1
  obtain ⟨s', e', hse, hm, -, -, -, hb, ⟨f0, hf0, hlo, hhi⟩, -⟩ := aggregate_ok h
  simp only [Prod.mk.injEq] at hse
  obtain ⟨rfl, rfl⟩ := hse
  obtain ⟨k1, k2, k3⟩ := aggregate_sum hm hb
  have hdt : (0 : Int) < 60000000000 * minutes := by omega
  have hpos : 0 ≤ stop - start := by have := hin f0 hf0; omega
  have hreach : start + 60000000000 * minutes * out.bins.length = stop := by
    rw [hlen, Int.toNat_of_nonneg (Int.ediv_nonneg hpos hdt.le), Int.mul_ediv_cancel' hdvd]
    ring
  rw [hreach] at k1 k3
  refine ⟨fun f hf => (k1 f.time).mp (hin f hf), fun name hname p => ?_⟩
  rw [k3 name hname p]
  unfold framesBetween
  rw [List.filter_eq_self.mpr]
  intro f hf
  exact decide_eq_true (hin f hf)

/-- When a call without `start_end` succeeds: there is more than one time (down to microseconds), the
intervals are longer than zero, and the three fields that it needs are there. -/
theorem C42_success (glm : TimeSeries) (minutes : Nat) :
    (∃ out, aggregate glm minutes none = .ok out) ↔
      0 < minutes ∧ "average_flash_area" ∈ glm.vars ∧ "flash_extent_density" ∈ glm.vars ∧
      "group_extent_density" ∈ glm.vars ∧
      ∃ first, IsLeastIn (glm.frames.map (·.time)) first ∧
        ∃ f ∈ glm.frames, ¬ (f.time = first ∧ first % 1000 = 0) := by
  constructor
  · rintro ⟨out, h⟩
    obtain ⟨start, stop, ⟨first, last, hmin, hmax, hs, he⟩, hm, a1, a2, a3, hb, ⟨f, hf, hlo, -⟩, -⟩ :=
      aggregate_ok h
    refine ⟨hm, a1, a2, a3, first, hmin, f, hf, ?_⟩
    rintro ⟨e1, e2⟩
    rw [hs, e1] at hlo
    unfold toPydatetime at hlo
    omega
  · rintro ⟨hm, a1, a2, a3, first, hmin, f, hf, hc⟩
    have hne : glm.frames.map (·.time) ≠ [] := by
      intro hh
      have := List.mem_map_of_mem (f := (·.time)) hf
      rw [hh] at this
      cases this
    obtain ⟨first', hf1⟩ := pyMin_exists hne
    obtain ⟨last, hl1⟩ := pyMax_exists hne
    have hmin' := pyMin_isMin hf1
    have hmax := pyMax_isMax hl1
    have hff : first' = first := le_antisymm (hmin'.2 _ hmin.1) (hmin.2 _ hmin'.1)
    subst hff
    have hdt : (0 : Int) < oneMinute * minutes := mul_pos (by decide) (by exact_mod_cast hm)
    have hft := List.mem_map_of_mem (f := (·.time)) hf
    have g1 := hmin.2 _ hft
    have g2 := hmax.2 _ hft
    have hdur : 0 < toPydatetime last + oneMinute * minutes - toPydatetime first' := by
      have : toPydatetime first' ≤ toPydatetime last := by unfold toPydatetime; omega
      omega
    have hcount : 1 ≤ binCount (toPydatetime last + oneMinute * minutes - toPydatetime first')
        (oneMinute * minutes) := by
      unfold binCount
      rw [Int.tdiv_eq_ediv_of_nonneg hdur.le]
      have : 1 ≤ (toPydatetime last + oneMinute * minutes - toPydatetime first') /
          (oneMinute * (minutes : Int)) := by
        rw [Int.le_ediv_iff_mul_le hdt]
        have : toPydatetime first' ≤ toPydatetime last := by unfold toPydatetime; omega
        omega
      omega
    have hreach : f.time ≤ toPydatetime first' + oneMinute * minutes * (binCount (toPydatetime last +
        oneMinute * minutes - toPydatetime first') (oneMinute * minutes) : Nat) := by
      have hcnt : ((binCount (toPydatetime last + oneMinute * minutes - toPydatetime first')
          (oneMinute * minutes) : Nat) : Int) =
          (toPydatetime last + oneMinute * minutes - toPydatetime first') / (oneMinute * minutes) := by
        unfold binCount
        rw [Int.tdiv_eq_ediv_of_nonneg hdur.le]
        exact Int.toNat_of_nonneg (Int.ediv_nonneg hdur.le hdt.le)
      have h4 := Int.lt_ediv_add_one_mul_self
        (toPydatetime last + oneMinute * minutes - toPydatetime first') hdt
      rw [← hcnt] at h4
      generalize (binCount (toPydatetime last + oneMinute * minutes - toPydatetime first')
          (oneMinute * minutes) : Nat) = n at *
      have h5 : oneMinute * (minutes : Int) * n = 1000 * (60000000 * (minutes : Int) * n) := by
        unfold oneMinute; ring
      have h6 : ((n : Int) + 1) * (oneMinute * minutes) =
          oneMinute * minutes * n + oneMinute * minutes := by ring
      rw [h6] at h4
      rw [h5] at h4 ⊢
      have h7 : toPydatetime first' = 1000 * (first' / 1000) := by unfold toPydatetime; ring
      have h8 : toPydatetime last = 1000 * (last / 1000) := by unfold toPydatetime; ring
      generalize 60000000 * (minutes : Int) * (n : Int) = x at *
      omega
    have hlo : toPydatetime first' < f.time := by unfold toPydatetime; omega
    unfold aggregate
    simp only [bind, Except.bind, pure, Except.pure, hf1, hl1]
    rw [if_neg (by rw [not_or, not_not, not_not]; exact ⟨a1, a2⟩)]
    rw [if_neg hdt.ne']
    rw [bins_eq]
    have hall : ¬ (glm.frames.all (fun f => ((List.range (binCount (toPydatetime last +
        oneMinute * minutes - toPydatetime first') (oneMinute * minutes))).map fun (k : Nat) =>
          (toPydatetime first' + oneMinute * minutes * (k : Int),
           toPydatetime first' + oneMinute * minutes * ((k : Int) + 1))).all
          fun b => !inBin b f.time) = true) := by
      intro hh
      have h1 := List.all_eq_true.mp (List.all_eq_true.mp hh f hf)
      have h2 := countP_bins (toPydatetime first') (oneMinute * minutes) f.time hdt
        (binCount (toPydatetime last + oneMinute * minutes - toPydatetime first')
          (oneMinute * minutes))
      rw [if_pos ⟨hlo, hreach⟩] at h2
      have h3 : 0 < (List.map (fun (k : Nat) => (toPydatetime first' + oneMinute * minutes * (k : Int),
          toPydatetime first' + oneMinute * minutes * ((k : Int) + 1)))
          (List.range (binCount (toPydatetime last + oneMinute * minutes - toPydatetime first')
            (oneMinute * minutes)))).countP (fun b => inBin b f.time) := by rw [h2]; decide
      obtain ⟨b, hb, hb2⟩ := List.countP_pos_iff.mp h3
      have := h1 b hb
      rw [hb2] at this
      cases this
    rw [if_neg hall, if_neg (not_not.mpr a3)]
    have hnb : (((List.range (binCount (toPydatetime last + oneMinute * minutes -
        toPydatetime first') (oneMinute * minutes))).map fun (k : Nat) =>
          (toPydatetime first' + oneMinute * minutes * (k : Int),
           toPydatetime first' + oneMinute * minutes * ((k : Int) + 1))).map
             (aggregateBin glm.frames)) ≠ [] := by
      intro hh
      have := congrArg List.length hh
      simp at this
      omega
    obtain ⟨x, hx⟩ := pyMin_exists (by simpa using hnb : _ ≠ []) (l := List.map (·.left)
      (((List.range (binCount (toPydatetime last + oneMinute * minutes -
        toPydatetime first') (oneMinute * minutes))).map fun (k : Nat) =>
          (toPydatetime first' + oneMinute * minutes * (k : Int),
           toPydatetime first' + oneMinute * minutes * ((k : Int) + 1))).map
             (aggregateBin glm.frames)))
    obtain ⟨y, hy⟩ := pyMax_exists (by simpa using hnb : _ ≠ []) (l := List.map (·.right)
      (((List.range (binCount (toPydatetime last + oneMinute * minutes -
        toPydatetime first') (oneMinute * minutes))).map fun (k : Nat) =>
          (toPydatetime first' + oneMinute * minutes * (k : Int),
           toPydatetime first' + oneMinute * minutes * ((k : Int) + 1))).map
             (aggregateBin glm.frames)))
    simp only [hx, hy]
    exact ⟨_, rfl⟩

/-- Three frames, one minute apart, with one pixel that matters. -/
def sampleSeries (area density groupArea groups : Rat) : TimeSeries where
  vars := sumVars ++ ["average_flash_area", "average_group_area", "minimum_flash_area"]
  frames := [0, 1, 2].map fun i =>
    { time := 60000000000 * i
      value := fun name p =>
        if p = (0, 0) then
          match name with
          | "average_flash_area" => some (area * (1 + i))
          | "average_group_area" => some groupArea
          | "group_extent_density" => some groups
          | "minimum_flash_area" => some (70 - i)
          | _ => some density
        else none }
  coverageStart := 0
  coverageEnd := 180000000000

/-- What is looked at in the instances below. -/
def viewBins (name : String) (p : Pixel) (o : Aggregated) : List (Int × Int) × List (Option Rat) :=
  (o.bins.map fun b => (b.left, b.right), o.bins.map fun b => b.value name p)

/-- The first of the three frames is lost. -/
example : (aggregate (sampleSeries 100 5 20 8) 1 none).toOption.map
    (viewBins "flash_extent_density" (0, 0)) =
    some ([(0, 60000000000), (60000000000, 120000000000), (120000000000, 180000000000)],
      [some 5, some 5, none]) := by decide +kernel

/-- With the edges given, all three are used. -/
example : (aggregate (sampleSeries 100 5 20 8) 2 (some (-60000000000, 180000000000))).toOption.map
    (viewBins "flash_extent_density" (0, 0)) =
    some ([(-60000000000, 60000000000), (60000000000, 180000000000)], [some 10, some 5]) := by
  decide +kernel

/-- A series of one frame cannot be aggregated. -/
example : (aggregate { sampleSeries 100 5 20 8 with
    frames := (sampleSeries 100 5 20 8).frames.take 1 } 1 none).toOption.isNone = true := by
  decide +kernel

theorem sample_total : (aggregate (sampleSeries 100 5 20 8) 1 none).toOption.map
    (fun o => total (o.bins.map fun b => b.value "flash_extent_density" (0, 0))) = some 10 := by
  decide +kernel

/-- C42 is violated: the frames at the earliest time are lost. -/
theorem C42_full_false : ¬ C42_full := by
  intro h
  have hv := sample_total
  cases ho : aggregate (sampleSeries 100 5 20 8) 1 none with
  | error e => rw [ho] at hv; cases hv
  | ok out =>
    rw [ho] at hv
    have h1 := (h _ _ _ ho).2 "flash_extent_density" (by decide) (0, 0)
    have h2 : total (out.bins.map fun b => b.value "flash_extent_density" (0, 0)) = 10 :=
      Option.some.inj hv
    rw [h2] at h1
    exact absurd h1 (by decide +kernel)

/-! ## C43 -/

/-- The pairs of value and weight in one pixel over some frames, where both are there. -/
def weighted (frames : List Frame) (value weight : String) (p : Pixel) : List (Rat × Rat) :=
  frames.filterMap fun f =>
    match f.value value p, f.value weight p with
    | some v, some w => some (v, w)
    | _, _ => none

/-- `m` is the mean of the values with the given weights. -/
def IsWeightedMean (l : List (Rat × Rat)) (m : Rat) : Prop :=
  m * (l.map Prod.snd).sum = (l.map fun q => q.1 * q.2).sum

/-- Images in which a value is missing exactly where its weight is missing. -/
def SameMissing (glm : TimeSeries) (value weight : String) : Prop :=
  ∀ f ∈ glm.frames, ∀ p, f.value value p = none ↔ f.value weight p = none

/-- C43 for one pair of fields. -/
def C43_for (value weight : String) : Prop :=
  ∀ (glm : TimeSeries) (minutes : Nat) (startEnd : Option (Int × Int)) (out : Aggregated),
  aggregate glm minutes startEnd = .ok out → SameMissing glm value weight →
  ∀ b ∈ out.bins, ∀ p,
    let l := weighted (framesBetween glm.frames b.left b.right) value weight p
    ((l.map Prod.snd).sum ≠ 0 → ∃ m, b.value value p = some m ∧ IsWeightedMean l m) ∧
    (l = [] → b.value value p = none)

/-- C43: both average areas are means weighted by their densities. -/
def C43_full : Prop :=
  C43_for "average_flash_area" "flash_extent_density" ∧
  C43_for "average_group_area" "group_extent_density"

theorem sum_of_weighted (frames : List Frame) (value weight : String) (p : Pixel)
    (h : ∀ f ∈ frames, f.value value p = none ↔ f.value weight p = none) :
    nanSum (frames.map fun f => mulNan (f.value value p) (f.value weight p)) =
      ((weighted frames value weight p).map fun q => q.1 * q.2).sum ∧
    nanSum (frames.map fun f => f.value weight p) =
      ((weighted frames value weight p).map Prod.snd).sum := by
  induction frames with
  | nil => exact ⟨rfl, rfl⟩
  | cons f l ih =>
    obtain ⟨i1, i2⟩ := ih (fun g hg => h g (List.mem_cons_of_mem _ hg))
    have hf := h f List.mem_cons_self
    unfold nanSum weighted at *
    simp only [List.map_cons, List.sum_cons, List.filterMap_cons]
    rw [i1, i2]
    cases hv : f.value value p with
    | none =>
      have hw := hf.mp hv
      rw [hw]
      simp [mulNan]
    | some v =>
      cases hw : f.value weight p with
      | none => rw [hf.mpr hw] at hv; cases hv
      | some w => simp [mulNan]

/-- What the intervals say about the average areas. -/
theorem bin_average {glm : TimeSeries} {minutes : Nat} {startEnd : Option (Int × Int)}
    {out : Aggregated} (h : aggregate glm minutes startEnd = .ok out) {b : AggBin}
    (hb : b ∈ out.bins) (p : Pixel) :
    let inside := framesBetween glm.frames b.left b.right
    let area := nanSum (inside.map fun f =>
      mulNan (f.value "average_flash_area" p) (f.value "flash_extent_density" p))
    let flashes := nanSum (inside.map fun f => f.value "flash_extent_density" p)
    let groups := nanSum (inside.map fun f => f.value "group_extent_density" p)
    b.value "average_flash_area" p =
      (if inside = [] ∨ flashes = 0 then none else some (area / flashes)) ∧
    b.value "average_group_area" p =
      (if inside = [] ∨ groups = 0 then none else some (area / groups)) := by
  obtain ⟨start, stop, -, -, -, -, -, hbins, -⟩ := aggregate_ok h
  rw [hbins] at hb
  obtain ⟨k, -, rfl⟩ := List.mem_map.mp hb
  generalize (start + 60000000000 * minutes * (k : Int),
    start + 60000000000 * (minutes : Int) * ((k : Int) + 1)) = q
  obtain ⟨lo, hi⟩ := q
  have e : glm.frames.filter (fun f => inBin (lo, hi) f.time) = framesBetween glm.frames lo hi := rfl
  have s1 : ∀ f : Frame, summand f "total_flash_area" p =
      mulNan (f.value "average_flash_area" p) (f.value "flash_extent_density" p) := fun f => rfl
  have s2 : ∀ f : Frame, summand f "total_group_area" p =
      mulNan (f.value "average_flash_area" p) (f.value "flash_extent_density" p) := fun f => rfl
  have s3 : ∀ f : Frame, summand f "flash_extent_density" p = f.value "flash_extent_density" p :=
    fun f => rfl
  have s4 : ∀ f : Frame, summand f "group_extent_density" p = f.value "group_extent_density" p :=
    fun f => rfl
  have hl : (aggregateBin glm.frames (lo, hi)).left = lo := rfl
  have hr : (aggregateBin glm.frames (lo, hi)).right = hi := rfl
  rw [hl, hr]
  have v1 : (aggregateBin glm.frames (lo, hi)).value "average_flash_area" p =
      divNan (if (framesBetween glm.frames lo hi).isEmpty then none else some (nanSum
        ((framesBetween glm.frames lo hi).map fun f => summand f "total_flash_area" p)))
        (if (framesBetween glm.frames lo hi).isEmpty then none else some (nanSum
        ((framesBetween glm.frames lo hi).map fun f => summand f "flash_extent_density" p))) := rfl
  have v2 : (aggregateBin glm.frames (lo, hi)).value "average_group_area" p =
      divNan (if (framesBetween glm.frames lo hi).isEmpty then none else some (nanSum
        ((framesBetween glm.frames lo hi).map fun f => summand f "total_group_area" p)))
        (if (framesBetween glm.frames lo hi).isEmpty then none else some (nanSum
        ((framesBetween glm.frames lo hi).map fun f => summand f "group_extent_density" p))) := rfl
  rw [v1, v2]
  simp only [s1, s2, s3, s4]
  cases hx : framesBetween glm.frames lo hi with
  | nil => simp [divNan]
  | cons f l => simp [divNan]

/-- C43 for flashes. -/
theorem C43_flash_partial : C43_for "average_flash_area" "flash_extent_density" := by
  intro glm minutes startEnd out h hsame b hb p
  obtain ⟨h1, -⟩ := bin_average h hb p
  have hs : ∀ f ∈ framesBetween glm.frames b.left b.right,
      f.value "average_flash_area" p = none ↔ f.value "flash_extent_density" p = none :=
    fun f hf => hsame f (List.mem_filter.mp hf).1 p
  obtain ⟨e1, e2⟩ := sum_of_weighted _ _ _ p hs
  simp only at h1 ⊢
  rw [h1, e1, e2]
  constructor
  · intro hw
    rw [if_neg]
    · refine ⟨_, rfl, ?_⟩
      unfold IsWeightedMean
      exact div_mul_cancel₀ _ hw
    · rintro (hc | hc)
      · rw [hc] at hw; exact hw rfl
      · exact hw hc
  · intro hnil
    rw [hnil]
    simp

/-- C43 for groups, exactly: the flash areas weighted by the flash densities, over the sum of the group
densities. -/
theorem C43_group_exact (glm : TimeSeries) (minutes : Nat) (startEnd : Option (Int × Int))
    (out : Aggregated) (h : aggregate glm minutes startEnd = .ok out) (b : AggBin) (hb : b ∈ out.bins)
    (p : Pixel) (hs : SameMissing glm "average_flash_area" "flash_extent_density")
    (hg : total ((framesBetween glm.frames b.left b.right).map
      fun f => f.value "group_extent_density" p) ≠ 0) :
    b.value "average_group_area" p =
      some (((weighted (framesBetween glm.frames b.left b.right) "average_flash_area"
          "flash_extent_density" p).map fun q => q.1 * q.2).sum /
        total ((framesBetween glm.frames b.left b.right).map
          fun f => f.value "group_extent_density" p)) := by
  obtain ⟨-, h2⟩ := bin_average h hb p
  have hs' : ∀ f ∈ framesBetween glm.frames b.left b.right,
      f.value "average_flash_area" p = none ↔ f.value "flash_extent_density" p = none :=
    fun f hf => hs f (List.mem_filter.mp hf).1 p
  obtain ⟨e1, -⟩ := sum_of_weighted _ _ _ p hs'
  rw [e1] at h2
  rw [h2, if_neg]
  · rfl
  · rintro (hc | hc)
    · rw [hc] at hg; exact hg rfl
    · exact hg hc

/-- Flashes of 100 and 200 square kilometres in the first interval, three in the second; all groups
have 20 square kilometres. -/
theorem sample_group : (aggregate (sampleSeries 100 5 20 8) 2
    (some (-60000000000, 180000000000))).toOption.map
    (fun o => o.bins.map fun b => [b.value "average_flash_area" (0, 0),
      b.value "average_group_area" (0, 0), b.value "minimum_flash_area" (0, 0)]) =
    some [[some 150, some (1500 / 16), some 69], [some 300, some (1500 / 8), some 68]] := by
  decide +kernel

/-- C43 is violated for groups. -/
theorem C43_full_false : ¬ C43_full := by
  rintro ⟨-, h⟩
  have hv : (aggregate (sampleSeries 100 5 20 8) 2
      (some (-60000000000, 180000000000))).toOption.map
      (fun o => o.bins.map fun b => (b.left, b.right, b.value "average_group_area" (0, 0))) =
      some [(-60000000000, 60000000000, some (1500 / 16)),
        (60000000000, 180000000000, some (1500 / 8))] := by decide +kernel
  cases ho : aggregate (sampleSeries 100 5 20 8) 2 (some (-60000000000, 180000000000)) with
  | error e => rw [ho] at hv; cases hv
  | ok out =>
    rw [ho] at hv
    simp only [Except.toOption, Option.map_some, Option.some.injEq] at hv
    have hm : ((60000000000 : Int), (180000000000 : Int), some (1500 / 8 : Rat)) ∈
        out.bins.map fun b => (b.left, b.right, b.value "average_group_area" (0, 0)) := by
      rw [hv]; simp
    obtain ⟨b, hb, he⟩ := List.mem_map.mp hm
    simp only [Prod.mk.injEq] at he
    obtain ⟨e1, e2, e3⟩ := he
    have hsm : SameMissing (sampleSeries 100 5 20 8) "average_group_area" "group_extent_density" := by
      intro f hf p
      simp only [sampleSeries, List.map_cons, List.map_nil, List.mem_cons, List.not_mem_nil,
        or_false] at hf
      rcases hf with rfl | rfl | rfl <;> (simp only; split <;> simp)
    obtain ⟨h1, -⟩ := h _ _ _ _ ho hsm b hb (0, 0)
    rw [e1, e2] at h1
    have hw : weighted (framesBetween (sampleSeries 100 5 20 8).frames 60000000000 180000000000)
        "average_group_area" "group_extent_density" (0, 0) = [(20, 8)] := by decide +kernel
    rw [hw] at h1
    obtain ⟨m, hm1, hm2⟩ := h1 (by norm_num)
    rw [e3] at hm1
    have hm1 := Option.some.inj hm1
    subst hm1
    unfold IsWeightedMean at hm2
    norm_num at hm2

/-! ## C74 -/

/-- C74: the minimum flash area of an interval is the least of those of its frames, and missing only
if it is missing in all of them. -/
theorem C74_minimum (glm : TimeSeries) (minutes : Nat) (startEnd : Option (Int × Int))
    (out : Aggregated) (h : aggregate glm minutes startEnd = .ok out) (b : AggBin) (hb : b ∈ out.bins)
    (p : Pixel) :
    let present := (framesBetween glm.frames b.left b.right).filterMap
      fun f => f.value "minimum_flash_area" p
    (present = [] → b.value "minimum_flash_area" p = none) ∧
    (present ≠ [] → ∃ m, b.value "minimum_flash_area" p = some m ∧ IsLeastIn present m) := by
  obtain ⟨start, stop, -, -, -, -, -, hbins, -⟩ := aggregate_ok h
  rw [hbins] at hb
  obtain ⟨k, -, rfl⟩ := List.mem_map.mp hb
  generalize (start + 60000000000 * minutes * (k : Int),
    start + 60000000000 * (minutes : Int) * ((k : Int) + 1)) = q
  obtain ⟨lo, hi⟩ := q
  have hl : (aggregateBin glm.frames (lo, hi)).left = lo := rfl
  have hr : (aggregateBin glm.frames (lo, hi)).right = hi := rfl
  rw [hl, hr]
  have v1 : (aggregateBin glm.frames (lo, hi)).value "minimum_flash_area" p =
      nanMin ((framesBetween glm.frames lo hi).map fun f => f.value "minimum_flash_area" p) := rfl
  rw [v1]
  unfold nanMin
  rw [List.filterMap_map]
  simp only [Function.comp_def, id]
  cases hx : (framesBetween glm.frames lo hi).filterMap fun f => f.value "minimum_flash_area" p with
  | nil => simp
  | cons a l =>
    constructor
    · intro hc; cases hc
    · intro _; exact ⟨_, rfl, foldl_min_isMin l a⟩

end Verif.Props
