import Verif.Model.Accumulate
import Verif.Props.Split

/-!
# Accumulation on the target grid (C32 to C36)
-/

namespace Verif.Props

open Verif.Py Verif.Model Verif.Proofs

/-- The values of a data set that are meant for the grid cell `(i, j)`, in the order of the rows;
the first axis of the grid is addressed by `yi`, the second by `xi`. -/
def sentTo (i j : Nat) (ds : List IdxRow) : List Rat :=
  (ds.filter fun r => r.yi = (i : Int) ∧ r.xi = (j : Int)).map IdxRow.v

/-- All rows lie on the grid. -/
def OnGrid (g : Grid) (ds : List IdxRow) : Prop :=
  ∀ r ∈ ds, 0 ≤ r.yi ∧ r.yi < g.n0 ∧ 0 ≤ r.xi ∧ r.xi < g.n1

/-- No cell occurs twice in the data set. -/
def OncePerCell (ds : List IdxRow) : Prop := (ds.map fun r => (r.yi, r.xi)).Nodup

/-! ## Lemmas about indexing -/

theorem foldl_set (cells : List ((Nat × Nat) × Rat)) (f : Nat → Nat → Rat) (i j : Nat) :
    cells.foldl (fun f c i j => if (i, j) = c.1 then c.2 else f i j) f i j =
      (((cells.filter fun c => (i, j) = c.1).getLast?).map Prod.snd).getD (f i j) := by
  induction cells generalizing f with
  | nil => rfl
  | cons c cells ih =>
    rw [List.foldl_cons, ih]
    by_cases h : (i, j) = c.1
    · rw [List.filter_cons_of_pos (by simpa using h), if_pos h, List.getLast?_cons]
      cases (cells.filter fun c => (i, j) = c.1).getLast? <;> simp
    · rw [List.filter_cons_of_neg (by simpa using h), if_neg h]

theorem set_val (g : Grid) (cells : List ((Nat × Nat) × Rat)) (i j : Nat) :
    (g.set cells).val i j =
      (((cells.filter fun c => (i, j) = c.1).getLast?).map Prod.snd).getD (g.val i j) :=
  foldl_set cells g.val i j

theorem set_shape (g : Grid) (cells : List ((Nat × Nat) × Rat)) :
    (g.set cells).n0 = g.n0 ∧ (g.set cells).n1 = g.n1 := ⟨rfl, rfl⟩

theorem cellOf_ok {g : Grid} {r : IdxRow} (h : 0 ≤ r.yi ∧ r.yi < g.n0 ∧ 0 ≤ r.xi ∧ r.xi < g.n1) :
    cellOf g r = .ok (r.yi.toNat, r.xi.toNat) := by
  obtain ⟨h1, h2, h3, h4⟩ := h
  simp [cellOf, npIndex, h1, h2, h3, h4, bind, Except.bind, pure, Except.pure]

theorem cells_ok {g : Grid} {ds : List IdxRow} (h : OnGrid g ds) :
    ds.mapM (cellOf g) = .ok (ds.map fun r => (r.yi.toNat, r.xi.toNat)) :=
  mapM_ok_map fun r hr => cellOf_ok (h r hr)

/-- Filtering the assignments to a cell is filtering the rows. -/
theorem filter_cells {g : Grid} {ds : List IdxRow} (h : OnGrid g ds) (val : IdxRow → Rat) (i j : Nat) :
    ((ds.map fun r => ((r.yi.toNat, r.xi.toNat), val r)).filter fun c => (i, j) = c.1) =
      (ds.filter fun r => r.yi = (i : Int) ∧ r.xi = (j : Int)).map fun r => ((i, j), val r) := by
  induction ds with
  | nil => rfl
  | cons r ds ih =>
    have ih := ih fun r' hr' => h r' (List.mem_cons_of_mem _ hr')
    obtain ⟨h1, -, h3, -⟩ := h r List.mem_cons_self
    rw [List.map_cons]
    by_cases hc : r.yi = i ∧ r.xi = j
    · rw [List.filter_cons_of_pos (by simp [hc.1, hc.2]), List.filter_cons_of_pos (by simp [hc]), ih]
      simp [hc.1, hc.2]
    · rw [List.filter_cons_of_neg, List.filter_cons_of_neg (by simpa using hc), ih]
      simp only [Prod.mk.injEq, decide_eq_true_eq]
      omega

/-- `accumulate_var_on_grid_direct_idx` adds to each cell the last value of the data set meant for
it. -/
theorem var_step {g : Grid} {ds : List IdxRow} (h : OnGrid g ds) :
    ∃ g', accumulateVar g ds = .ok g' ∧ g'.n0 = g.n0 ∧ g'.n1 = g.n1 ∧
      ∀ i j, g'.val i j = g.val i j + ((sentTo i j ds).getLast?).getD 0 := by
  unfold accumulateVar
  simp only [cells_ok h, bind, Except.bind, pure, Except.pure]
  refine ⟨_, rfl, rfl, rfl, fun i j => ?_⟩
  rw [set_val]
  have e : (ds.map fun r => (r.yi.toNat, r.xi.toNat)).zip (List.zipWith (· + ·)
      ((ds.map fun r => (r.yi.toNat, r.xi.toNat)).map fun c => g.val c.1 c.2) (ds.map IdxRow.v)) =
      ds.map fun r => ((r.yi.toNat, r.xi.toNat), g.val r.yi.toNat r.xi.toNat + r.v) := by
    clear h
    induction ds with
    | nil => rfl
    | cons r ds ih => simp only [List.map_cons, List.zipWith_cons_cons, List.zip_cons_cons, ih]
  rw [e, filter_cells h, sentTo]
  have hval : ∀ r ∈ ds.filter (fun r => decide (r.yi = (i : Int) ∧ r.xi = (j : Int))),
      g.val r.yi.toNat r.xi.toNat = g.val i j := by
    intro r hr
    have := (List.mem_filter.mp hr).2
    simp only [decide_eq_true_eq] at this
    rw [this.1, this.2]
    rfl
  rw [List.getLast?_map, List.getLast?_map]
  cases hl : (ds.filter fun r => decide (r.yi = (i : Int) ∧ r.xi = (j : Int))).getLast? with
  | none => simp
  | some r => simp [hval r (List.mem_of_getLast? hl)]

/-- `accumulate_minvar_on_grid_direct_idx` combines each cell with the last value of the data set
meant for it. -/
theorem minvar_step {g : Grid} {ds : List IdxRow} (h : OnGrid g ds) :
    ∃ g', accumulateMinvar g ds = .ok g' ∧ g'.n0 = g.n0 ∧ g'.n1 = g.n1 ∧
      ∀ i j, g'.val i j = match (sentTo i j ds).getLast? with
        | none => g.val i j
        | some v => if g.val i j > 0 then min v (g.val i j) else v := by
  unfold accumulateMinvar
  simp only [cells_ok h, bind, Except.bind, pure, Except.pure]
  refine ⟨_, rfl, rfl, rfl, fun i j => ?_⟩
  have e : (ds.map fun r => (r.yi.toNat, r.xi.toNat)).zip ((ds.map IdxRow.v).zip
      ((ds.map fun r => (r.yi.toNat, r.xi.toNat)).map fun c => g.val c.1 c.2)) =
      ds.map fun r => ((r.yi.toNat, r.xi.toNat), (r.v, g.val r.yi.toNat r.xi.toNat)) := by
    clear h
    induction ds with
    | nil => rfl
    | cons r ds ih => simp only [List.map_cons, List.zip_cons_cons, ih]
  have part : ∀ (p : Rat → Bool) (f : Rat × Rat → Rat),
      ((((ds.map fun r => ((r.yi.toNat, r.xi.toNat), (r.v, g.val r.yi.toNat r.xi.toNat))).filter
        fun a => p a.2.2).map fun a => (a.1, f a.2)).filter fun c => decide ((i, j) = c.1)) =
      if p (g.val i j) then (ds.filter fun r => r.yi = (i : Int) ∧ r.xi = (j : Int)).map fun r =>
        ((i, j), f (r.v, g.val i j)) else [] := by
    intro p f
    clear e
    induction ds with
    | nil => simp
    | cons r ds ih =>
      have ih := ih fun r' hr' => h r' (List.mem_cons_of_mem _ hr')
      obtain ⟨h1, -, h3, -⟩ := h r List.mem_cons_self
      rw [List.map_cons]
      by_cases hc : r.yi = i ∧ r.xi = j
      · have e1 : r.yi.toNat = i := by omega
        have e2 : r.xi.toNat = j := by omega
        rw [show (r :: ds).filter (fun r => decide (r.yi = (i : Int) ∧ r.xi = (j : Int))) =
          r :: ds.filter (fun r => decide (r.yi = (i : Int) ∧ r.xi = (j : Int))) from
          List.filter_cons_of_pos (by simpa using hc)]
        by_cases hp : p (g.val i j) = true
        · rw [List.filter_cons_of_pos (by simpa [e1, e2] using hp), List.map_cons,
            List.filter_cons_of_pos (by simp [e1, e2]), ih]
          simp [hp, e1, e2]
        · rw [List.filter_cons_of_neg (by simpa [e1, e2] using hp), ih]
          simp [hp]
      · have hne : ¬ (i, j) = (r.yi.toNat, r.xi.toNat) := by
          simp only [Prod.mk.injEq]
          omega
        rw [show (r :: ds).filter (fun r => decide (r.yi = (i : Int) ∧ r.xi = (j : Int))) =
          ds.filter (fun r => decide (r.yi = (i : Int) ∧ r.xi = (j : Int))) from
          List.filter_cons_of_neg (by simpa using hc), ← ih, List.filter_cons]
        split
        · rw [List.map_cons, List.filter_cons_of_neg (by simpa using hne)]
        · rfl
  rw [e, set_val, set_val]
  rw [part (fun v => decide (v > 0)) (fun a => min a.1 a.2),
    part (fun v => decide (¬ v > 0)) (fun a => a.1), sentTo, List.getLast?_map]
  by_cases hp : g.val i j > 0
  · simp only [hp, decide_true, if_true, not_true_eq_false, decide_false, Bool.false_eq_true, if_false,
      List.getLast?_map, List.getLast?_nil, Option.map_none, Option.getD_none]
    cases (ds.filter fun r => decide (r.yi = (i : Int) ∧ r.xi = (j : Int))).getLast? <;> rfl
  · simp only [hp, decide_true, if_true, not_false_eq_true, decide_false, Bool.false_eq_true, if_false,
      List.getLast?_map, List.getLast?_nil, Option.map_none, Option.getD_none]
    cases (ds.filter fun r => decide (r.yi = (i : Int) ∧ r.xi = (j : Int))).getLast? <;> rfl

/-! ## C32 -/

/-- C32 for arbitrary data sets on the grid: every cell has grown by the sum of the values sent to
it. -/
def C32_full : Prop := ∀ (g : Grid) (dss : List (List IdxRow)), (∀ ds ∈ dss, OnGrid g ds) →
  ∃ g', sendAll accumulateVar g dss = (g', none) ∧ g'.n0 = g.n0 ∧ g'.n1 = g.n1 ∧
    ∀ i j, g'.val i j = g.val i j + (sentTo i j dss.flatten).sum

/-- C32 fails when a data set names a cell twice: only the last value counts. -/
theorem C32_full_false : ¬ C32_full := by
  intro h
  obtain ⟨g', h1, -, -, h2⟩ := h (Grid.zeros 1 1) [[⟨0, 0, 1⟩, ⟨0, 0, 1⟩]] (by
    intro ds hds r hr
    simp at hds
    subst hds
    simp at hr
    subst hr
    decide)
  have h3 := h2 0 0
  have h4 : g' = (sendAll accumulateVar (Grid.zeros 1 1) [[⟨0, 0, 1⟩, ⟨0, 0, 1⟩]]).1 := by rw [h1]
  rw [h4] at h3
  revert h3
  decide +kernel

/-- C32, exactly: each cell grows by the sum, over the data sets, of the last value meant for it. -/
theorem C32_exact (g : Grid) (dss : List (List IdxRow)) (h : ∀ ds ∈ dss, OnGrid g ds) :
    ∃ g', sendAll accumulateVar g dss = (g', none) ∧ g'.n0 = g.n0 ∧ g'.n1 = g.n1 ∧
      ∀ i j, g'.val i j =
        g.val i j + (dss.map fun ds => ((sentTo i j ds).getLast?).getD 0).sum := by
  induction dss generalizing g with
  | nil => exact ⟨g, rfl, rfl, rfl, fun i j => by simp⟩
  | cons ds dss ih =>
    obtain ⟨g1, e1, s0, s1, v1⟩ := var_step (h ds List.mem_cons_self)
    obtain ⟨g2, e2, t0, t1, v2⟩ := ih g1 fun d hd r hr => by
      rw [s0, s1]
      exact h d (List.mem_cons_of_mem _ hd) r hr
    refine ⟨g2, ?_, t0.trans s0, t1.trans s1, fun i j => ?_⟩
    · rw [sendAll, e1]
      exact e2
    · rw [v2, v1, List.map_cons, List.sum_cons, add_assoc]

/-- A cell that occurs once has at most one value. -/
theorem sentTo_once {ds : List IdxRow} (h : OncePerCell ds) (i j : Nat) :
    (sentTo i j ds).length ≤ 1 := by
  unfold sentTo
  rw [List.length_map]
  have hn : ((ds.filter fun r => decide (r.yi = (i : Int) ∧ r.xi = (j : Int))).map fun r => (r.yi, r.xi)).Nodup :=
    h.sublist (List.filter_sublist.map _)
  have hc : (ds.filter fun r => decide (r.yi = (i : Int) ∧ r.xi = (j : Int))).map (fun r => (r.yi, r.xi)) =
      List.replicate (ds.filter fun r => decide (r.yi = (i : Int) ∧ r.xi = (j : Int))).length ((i : Int), (j : Int)) := by
    rw [List.map_eq_replicate_iff]
    intro r hr
    have := (List.mem_filter.mp hr).2
    simp only [decide_eq_true_eq] at this
    rw [this.1, this.2]
  rw [hc, List.nodup_replicate] at hn
  exact hn

/-- C32 for data sets that name no cell twice, which is what the documentation of the accumulator
requires and what the regrouping provides (`C32_pipeline`): after any sequence of data sets every
cell has grown by the sum of the values sent to it. -/
theorem C32_partial (g : Grid) (dss : List (List IdxRow)) (h : ∀ ds ∈ dss, OnGrid g ds)
    (ho : ∀ ds ∈ dss, OncePerCell ds) :
    ∃ g', sendAll accumulateVar g dss = (g', none) ∧ g'.n0 = g.n0 ∧ g'.n1 = g.n1 ∧
      ∀ i j, g'.val i j = g.val i j + (sentTo i j dss.flatten).sum := by
  obtain ⟨g', e, s0, s1, v⟩ := C32_exact g dss h
  refine ⟨g', e, s0, s1, fun i j => ?_⟩
  rw [v]
  congr 1
  clear v s0 s1 e h
  induction dss with
  | nil => rfl
  | cons ds dss ih =>
    rw [List.map_cons, List.sum_cons, ih fun d hd => ho d (List.mem_cons_of_mem _ hd),
      List.flatten_cons]
    have : sentTo i j (ds ++ dss.flatten) = sentTo i j ds ++ sentTo i j dss.flatten := by
      simp [sentTo]
    rw [this, List.sum_append]
    congr 1
    have hl := sentTo_once (ho ds List.mem_cons_self) i j
    match hs : sentTo i j ds, hl with
    | [], _ => rfl
    | [a], _ => simp

/-- A row off the grid makes its data set fail as a whole: the grid keeps exactly what the data sets
before it added, and later data sets are not looked at. -/
theorem C32_off_grid (g : Grid) (dss rest : List (List IdxRow)) (bad : List IdxRow)
    (h : ∀ ds ∈ dss, OnGrid g ds) (ho : ∀ ds ∈ dss, OncePerCell ds)
    (hb : ∃ r ∈ bad, r.yi ≥ g.n0 ∨ r.xi ≥ g.n1 ∨ r.yi < -g.n0 ∨ r.xi < -g.n1) :
    ∃ g', sendAll accumulateVar g (dss ++ bad :: rest) = (g', some .indexError) ∧
      ∀ i j, g'.val i j = g.val i j + (sentTo i j dss.flatten).sum := by
  obtain ⟨g', e, s0, s1, v⟩ := C32_partial g dss h ho
  refine ⟨g', ?_, v⟩
  have hbad : accumulateVar g' bad = .error .indexError := by
    have : bad.mapM (cellOf g') = .error .indexError := by
      obtain ⟨r, hr, hro⟩ := hb
      refine mapM_error_of_mem hr ?_ ?_
      · intro a _
        unfold cellOf npIndex
        split_ifs <;> simp [bind, Except.bind, pure, Except.pure]
      · rw [← s0, ← s1] at hro
        unfold cellOf npIndex
        split_ifs <;> first | rfl | (exfalso; omega)
    unfold accumulateVar
    simp [this, bind, Except.bind]
  clear v h ho hb
  induction dss generalizing g with
  | nil =>
    cases e
    rw [List.nil_append, sendAll, hbad]
  | cons ds dss ih =>
    rw [sendAll] at e
    rw [List.cons_append, sendAll]
    split at e
    · rename_i g1 hg1
      have hs : g'.n0 = g1.n0 ∧ g'.n1 = g1.n1 := by
        have aux : ∀ (dss : List (List IdxRow)) (a b : Grid) (e : Option Err),
            sendAll accumulateVar a dss = (b, e) → b.n0 = a.n0 ∧ b.n1 = a.n1 := by
          intro dss
          induction dss with
          | nil => intro a b e h; cases h; exact ⟨rfl, rfl⟩
          | cons d dss ih =>
            intro a b e h
            rw [sendAll] at h
            split at h
            · rename_i c hc
              have hc' : c.n0 = a.n0 ∧ c.n1 = a.n1 := by
                unfold accumulateVar at hc
                simp only [bind, Except.bind, pure, Except.pure] at hc
                split at hc
                · cases hc
                · cases hc; exact ⟨rfl, rfl⟩
              have := ih c b e h
              exact ⟨this.1.trans hc'.1, this.2.trans hc'.2⟩
            · cases h; exact ⟨rfl, rfl⟩
        exact aux _ _ _ _ e
      exact ih g1 e hs.1 hs.2
    · cases e

/-- Two frames; the second adds to the cell that the first one filled. -/
example : OnGrid (Grid.zeros 2 3) [⟨2, 1, 5⟩, ⟨0, 0, 7⟩] ∧ OnGrid (Grid.zeros 2 3) [⟨2, 1, 3 / 2⟩] ∧
    OncePerCell [⟨2, 1, 5⟩, ⟨0, 0, 7⟩] := by
  unfold OnGrid OncePerCell
  decide +kernel

example : (sendAll accumulateVar (Grid.zeros 2 3) [[⟨2, 1, 5⟩, ⟨0, 0, 7⟩], [⟨2, 1, 3 / 2⟩]]).1.val 1 2 =
    13 / 2 := by decide +kernel

/-! ## C33 -/

/-- What C33 says about one cell: the least of the values sent to it, or 0 if none was sent. -/
def LeastOrZero (sent : List Rat) (v : Rat) : Prop :=
  (sent = [] → v = 0) ∧ (sent ≠ [] → v ∈ sent ∧ ∀ u ∈ sent, v ≤ u)

/-- C33 for arbitrary data sets of positive values on a grid that starts from zeros. -/
def C33_full : Prop := ∀ (n0 n1 : Nat) (dss : List (List IdxRow)),
  (∀ ds ∈ dss, OnGrid (Grid.zeros n0 n1) ds) → (∀ ds ∈ dss, ∀ r ∈ ds, 0 < r.v) →
  ∃ g', sendAll accumulateMinvar (Grid.zeros n0 n1) dss = (g', none) ∧
    ∀ i j, LeastOrZero (sentTo i j dss.flatten) (g'.val i j)

/-- C33 fails when a data set names a cell twice: only the last value counts. -/
theorem C33_full_false : ¬ C33_full := by
  intro h
  obtain ⟨g', h1, h2⟩ := h 1 1 [[⟨0, 0, 1⟩, ⟨0, 0, 2⟩]] (by
    unfold OnGrid
    decide) (by decide +kernel)
  have h3 := (h2 0 0).2
  have h4 : g' = (sendAll accumulateMinvar (Grid.zeros 1 1) [[⟨0, 0, 1⟩, ⟨0, 0, 2⟩]]).1 := by rw [h1]
  rw [h4] at h3
  revert h3
  decide +kernel

/-- What one value does to the content of a cell. -/
def minInto (prev : Rat) (sent : Option Rat) : Rat :=
  match sent with
  | none => prev
  | some v => if prev > 0 then min v prev else v

/-- C33, exactly, for all grids and all values: each data set combines every cell with the last
value meant for it; a content that is not positive is replaced, whatever it is. -/
theorem C33_exact (g : Grid) (dss : List (List IdxRow)) (h : ∀ ds ∈ dss, OnGrid g ds) :
    ∃ g', sendAll accumulateMinvar g dss = (g', none) ∧ g'.n0 = g.n0 ∧ g'.n1 = g.n1 ∧
      ∀ i j, g'.val i j =
        dss.foldl (fun p ds => minInto p (sentTo i j ds).getLast?) (g.val i j) := by
  induction dss generalizing g with
  | nil => exact ⟨g, rfl, rfl, rfl, fun i j => rfl⟩
  | cons ds dss ih =>
    obtain ⟨g1, e1, s0, s1, v1⟩ := minvar_step (h ds List.mem_cons_self)
    obtain ⟨g2, e2, t0, t1, v2⟩ := ih g1 fun d hd r hr => by
      rw [s0, s1]
      exact h d (List.mem_cons_of_mem _ hd) r hr
    refine ⟨g2, ?_, t0.trans s0, t1.trans s1, fun i j => ?_⟩
    · rw [sendAll, e1]
      exact e2
    · rw [v2, v1, List.foldl_cons]
      rfl

theorem sentTo_append (i j : Nat) (a b : List IdxRow) :
    sentTo i j (a ++ b) = sentTo i j a ++ sentTo i j b := by simp [sentTo]

theorem mem_sentTo {i j : Nat} {ds : List IdxRow} {v : Rat} (h : v ∈ sentTo i j ds) :
    ∃ r ∈ ds, r.v = v := by
  obtain ⟨r, hr, rfl⟩ := List.mem_map.mp h
  exact ⟨r, (List.mem_filter.mp hr).1, rfl⟩

/-- Combining positive values one by one yields the least of them. -/
theorem minInto_fold (dss : List (List IdxRow)) (i j : Nat) (ho : ∀ ds ∈ dss, OncePerCell ds)
    (hp : ∀ ds ∈ dss, ∀ r ∈ ds, 0 < r.v) (before : List Rat) (v : Rat) (hb : ∀ u ∈ before, 0 < u)
    (h : LeastOrZero before v) :
    LeastOrZero (before ++ sentTo i j dss.flatten)
      (dss.foldl (fun p ds => minInto p (sentTo i j ds).getLast?) v) := by
  induction dss generalizing before v with
  | nil => simpa [sentTo] using h
  | cons ds dss ih =>
    rw [List.flatten_cons, sentTo_append, ← List.append_assoc, List.foldl_cons]
    have hl := sentTo_once (ho ds List.mem_cons_self) i j
    have hpos : ∀ u ∈ sentTo i j ds, 0 < u := by
      intro u hu
      obtain ⟨r, hr, rfl⟩ := mem_sentTo hu
      exact hp ds List.mem_cons_self r hr
    refine ih (fun d hd => ho d (List.mem_cons_of_mem _ hd))
      (fun d hd => hp d (List.mem_cons_of_mem _ hd)) _ _ ?_ ?_
    · intro u hu
      rcases List.mem_append.mp hu with hu | hu
      · exact hb u hu
      · exact hpos u hu
    · match hs : sentTo i j ds, hl with
      | [], _ => simpa [minInto] using h
      | [a], _ =>
        have ha : 0 < a := hpos a (by rw [hs]; exact List.mem_singleton.mpr rfl)
        refine ⟨fun hn => by simp at hn, fun _ => ?_⟩
        simp only [List.getLast?_singleton, minInto]
        cases hbe : before with
        | nil =>
          have := h.1 hbe
          subst this
          simp
        | cons b bs =>
          obtain ⟨hm, hle⟩ := h.2 (by rw [hbe]; exact List.cons_ne_nil _ _)
          rw [if_pos (hb v hm), ← hbe]
          constructor
          · rcases min_choice a v with hc | hc
            · rw [hc]; simp
            · rw [hc]; exact List.mem_append_left _ hm
          · intro u hu
            rcases List.mem_append.mp hu with hu | hu
            · exact le_trans (min_le_right _ _) (hle u hu)
            · rw [List.mem_singleton.mp hu]
              exact min_le_left _ _

/-- C33 for data sets that name no cell twice: after any sequence of data sets with positive values
each cell holds the least value sent to it, or 0 if none was sent. -/
theorem C33_partial (n0 n1 : Nat) (dss : List (List IdxRow))
    (h : ∀ ds ∈ dss, OnGrid (Grid.zeros n0 n1) ds) (hp : ∀ ds ∈ dss, ∀ r ∈ ds, 0 < r.v)
    (ho : ∀ ds ∈ dss, OncePerCell ds) :
    ∃ g', sendAll accumulateMinvar (Grid.zeros n0 n1) dss = (g', none) ∧ g'.n0 = n0 ∧ g'.n1 = n1 ∧
      ∀ i j, LeastOrZero (sentTo i j dss.flatten) (g'.val i j) := by
  obtain ⟨g', e, s0, s1, v⟩ := C33_exact _ dss h
  refine ⟨g', e, s0, s1, fun i j => ?_⟩
  rw [v]
  have := minInto_fold dss i j ho hp [] 0 (by simp) ⟨fun _ => rfl, fun hn => absurd rfl hn⟩
  rwa [List.nil_append] at this

theorem leastOrZero_unique {a b : List Rat} (hab : a.Perm b) {v w : Rat} (hv : LeastOrZero a v)
    (hw : LeastOrZero b w) : v = w := by
  by_cases ha : a = []
  · subst ha
    rw [hv.1 rfl, hw.1 hab.nil_eq.symm]
  · have hb : b ≠ [] := fun hb => ha (by subst hb; exact hab.eq_nil)
    obtain ⟨v1, v2⟩ := hv.2 ha
    obtain ⟨w1, w2⟩ := hw.2 hb
    exact le_antisymm (v2 _ (hab.mem_iff.mpr w1)) (w2 _ (hab.mem_iff.mp v1))

/-- C33, order: the same rows, in any order and however distributed over data sets, leave the same
minima. -/
theorem C33_order_partial (n0 n1 : Nat) (dss dss' : List (List IdxRow))
    (hperm : dss.flatten.Perm dss'.flatten)
    (h : ∀ ds ∈ dss, OnGrid (Grid.zeros n0 n1) ds) (hp : ∀ ds ∈ dss, ∀ r ∈ ds, 0 < r.v)
    (ho : ∀ ds ∈ dss, OncePerCell ds) (ho' : ∀ ds ∈ dss', OncePerCell ds) (i j : Nat) :
    (sendAll accumulateMinvar (Grid.zeros n0 n1) dss).1.val i j =
      (sendAll accumulateMinvar (Grid.zeros n0 n1) dss').1.val i j := by
  have move : ∀ ds ∈ dss', ∀ r ∈ ds, ∃ d ∈ dss, r ∈ d := by
    intro ds hds r hr
    exact List.mem_flatten.mp (hperm.mem_iff.mpr (List.mem_flatten.mpr ⟨ds, hds, hr⟩))
  obtain ⟨g, e, -, -, v⟩ := C33_partial n0 n1 dss h hp ho
  obtain ⟨g', e', -, -, v'⟩ := C33_partial n0 n1 dss'
    (fun ds hds r hr => by obtain ⟨d, hd, hrd⟩ := move ds hds r hr; exact h d hd r hrd)
    (fun ds hds r hr => by obtain ⟨d, hd, hrd⟩ := move ds hds r hr; exact hp d hd r hrd) ho'
  rw [e, e']
  exact leastOrZero_unique ((hperm.filter _).map _) (v i j) (v' i j)

example : (sendAll accumulateMinvar (Grid.zeros 2 2) [[⟨1, 0, 5⟩], [⟨0, 0, 9⟩, ⟨1, 0, 3⟩], [⟨1, 0, 4⟩]]).1.val
    0 1 = 3 := by decide +kernel

/-! ## C34 -/

/-- C34: what reaches the accumulator are the chosen tables that have a row, in order. -/
theorem C34_forwarded {α : Type} (useEventData : Bool) (frames : List (List α × List α)) :
    selectDataset useEventData frames =
      (frames.map fun f => if useEventData then f.1 else f.2).filter fun t => !t.isEmpty := by
  induction frames with
  | nil => rfl
  | cons f frames ih =>
    obtain ⟨ev, fl⟩ := f
    cases useEventData
    · cases fl <;> simp [selectDataset, ih]
    · cases ev <;> simp [selectDataset, ih]

/-- C34, effect: frames without events leave every grid as it is, wherever they come in the
sequence. -/
theorem C34_effect (points : Grid → List LmaParent → Grid) (a : Accum) (ha : a ≠ .points) (g : Grid)
    (frames : List (List LmaEvent × List LmaParent)) :
    frames.foldlM (a.receive points) g =
      (frames.filter fun f => !f.1.isEmpty).foldlM (a.receive points) g := by
  induction frames generalizing g with
  | nil => rfl
  | cons f frames ih =>
    obtain ⟨ev, fl⟩ := f
    cases ev with
    | nil =>
      have : a.receive points g ([], fl) = .ok g := by
        cases a with
        | points => exact absurd rfl ha
        | var n x y => rfl
        | minvar n x y => rfl
      rw [List.foldlM_cons, this, List.filter_cons_of_neg (by simp)]
      exact ih g
    | cons e ev =>
      rw [List.filter_cons_of_pos (by simp), List.foldlM_cons, List.foldlM_cons]
      congr 1
      funext g'
      exact ih g'

example : selectDataset true [([], [1]), ([2, 3], []), ([4], [5])] = [[2, 3], [4]] ∧
    selectDataset false [([], [1]), ([2, 3], []), ([4], [5])] = [[1], [5]] := by decide

/-! ## C36 -/

/-- C36: the gridder that does not use the lookup table can be set up. -/
def C36_full : Prop := ∃ outgrids, plainPipelineSetup = .ok outgrids

/-- C36 fails: three grids are unpacked into four names. -/
theorem C36_full_false : ¬ C36_full := by
  rintro ⟨o, h⟩
  cases h

/-- C36, exactly: a set-up with these three methods succeeds iff they return four, three and one
grid; so the LUT gridder can be set up. -/
theorem C36_exact (flash group event : Outgrids) :
    (∃ o, pipelineSetup flash group event = .ok o) ↔
      flash.length = 4 ∧ group.length = 3 ∧ event.length = 1 := by
  unfold pipelineSetup
  constructor
  · rintro ⟨o, h⟩
    split at h
    · split at h
      · split at h
        · simp
        · cases h
      · cases h
    · cases h
  · rintro ⟨h1, h2, h3⟩
    match flash, group, event, h1, h2, h3 with
    | [_, _, _, _], [_, _, _], [_], _, _, _ => exact ⟨_, rfl⟩

theorem C36_lut_partial : ∃ o, lutPipelineSetup = .ok o :=
  (C36_exact _ _ _).mpr ⟨rfl, rfl, rfl⟩

/-- C36, the cause: the flash grids of the plain gridder are one too few; with one more it could be set up. -/
theorem C36_one_missing (grid : Accum) :
    ∃ o, pipelineSetup (plainFlashGrids ++ [grid]) plainFlashGrids plainEventGrids = .ok o :=
  (C36_exact _ _ _).mpr ⟨rfl, rfl, rfl⟩

/-! ## C35 -/

/-- What the children sent to a pipeline put on cell `(i, j)` of a grid. -/
def onCell (i j : Nat) (frames : List (List LmaEvent × List LmaParent)) : List LmaEvent :=
  (frames.flatMap Prod.fst).filter fun e => e.meshYi = i ∧ e.meshXi = j

/-- All children of all frames lie on a grid of this shape, and no frame names a cell twice. -/
def ChildrenOk (nx ny : Nat) (frames : List (List LmaEvent × List LmaParent)) : Prop :=
  ∀ f ∈ frames, (∀ e ∈ f.1, e.meshYi < nx ∧ e.meshXi < ny) ∧
    (f.1.map fun e => (e.meshYi, e.meshXi)).Nodup

/-- The rows that an accumulator reads from a frame. -/
def rowsOf (col : LmaEvent → Rat) (ds : List LmaEvent) : List IdxRow :=
  ds.map fun e => ⟨e.meshXi, e.meshYi, col e⟩

theorem readRows_ok {name : String} {col : LmaEvent → Rat} (h : ∀ e, LmaEvent.column name e = .ok (col e))
    (ds : List LmaEvent) : readRows name "mesh_xi" "mesh_yi" ds = .ok (rowsOf col ds) := by
  unfold readRows
  apply mapM_ok_map
  intro e _
  rw [h]
  rfl

theorem rowsOf_ok {nx ny : Nat} {frames : List (List LmaEvent × List LmaParent)}
    (h : ChildrenOk nx ny frames) (col : LmaEvent → Rat) :
    (∀ ds ∈ frames.map fun f => rowsOf col f.1, OnGrid (Grid.zeros nx ny) ds) ∧
    (∀ ds ∈ frames.map fun f => rowsOf col f.1, OncePerCell ds) := by
  constructor
  · intro ds hds r hr
    obtain ⟨f, hf, rfl⟩ := List.mem_map.mp hds
    obtain ⟨e, he, rfl⟩ := List.mem_map.mp hr
    have := (h f hf).1 e he
    simp only [Grid.zeros]
    omega
  · intro ds hds
    obtain ⟨f, hf, rfl⟩ := List.mem_map.mp hds
    unfold OncePerCell rowsOf
    have hn := (h f hf).2
    rw [List.map_map]
    have : ((fun r : IdxRow => (r.yi, r.xi)) ∘ fun e : LmaEvent => (⟨e.meshXi, e.meshYi, col e⟩ : IdxRow)) =
        (fun p : Nat × Nat => ((p.1 : Int), (p.2 : Int))) ∘ fun e : LmaEvent => (e.meshYi, e.meshXi) := rfl
    rw [this, ← List.map_map]
    exact hn.map (by rintro ⟨a, b⟩ ⟨c, d⟩ h; simp only [Prod.mk.injEq] at h ⊢; omega)

theorem sentTo_rowsOf (col : LmaEvent → Rat) (i j : Nat) (frames : List (List LmaEvent × List LmaParent)) :
    sentTo i j (frames.map fun f => rowsOf col f.1).flatten = (onCell i j frames).map col := by
  unfold sentTo onCell
  have e : (frames.map fun f => rowsOf col f.1).flatten = rowsOf col (frames.flatMap Prod.fst) := by
    induction frames with
    | nil => rfl
    | cons f fs ih =>
      rw [List.map_cons, List.flatten_cons, ih, List.flatMap_cons]
      exact (List.map_append).symm
  rw [e]
  generalize frames.flatMap Prod.fst = evs
  unfold rowsOf
  rw [List.filter_map, List.map_map]
  have : ((fun r : IdxRow => decide (r.yi = (i : Int) ∧ r.xi = (j : Int))) ∘
      fun e : LmaEvent => (⟨e.meshXi, e.meshYi, col e⟩ : IdxRow)) =
      fun e : LmaEvent => decide (e.meshYi = i ∧ e.meshXi = j) := by
    funext e
    simp only [Function.comp, Int.natCast_inj]
  rw [this]
  rfl

/-- Frames arriving at an accumulator behave as data sets sent to it. -/
theorem receive_fold (points : Grid → List LmaParent → Grid) {name : String} {col : LmaEvent → Rat}
    (h : ∀ e, LmaEvent.column name e = .ok (col e)) (step : Grid → List IdxRow → Except Err Grid)
    (a : Accum) (ha : (a = .var name "mesh_xi" "mesh_yi" ∧ step = accumulateVar) ∨
      (a = .minvar name "mesh_xi" "mesh_yi" ∧ step = accumulateMinvar))
    (frames : List (List LmaEvent × List LmaParent)) (g g' : Grid)
    (hs : sendAll step g (frames.map fun f => rowsOf col f.1) = (g', none)) :
    frames.foldlM (a.receive points) g = .ok g' := by
  induction frames generalizing g with
  | nil => cases hs; rfl
  | cons f frames ih =>
    rw [List.map_cons, sendAll] at hs
    cases hst : step g (rowsOf col f.1) with
    | error e => rw [hst] at hs; cases hs
    | ok g1 =>
      rw [hst] at hs
      have hrec : a.receive points g f = .ok g1 := by
        rcases ha with ⟨rfl, rfl⟩ | ⟨rfl, rfl⟩
        all_goals
          unfold Accum.receive
          simp only
          split
          · rw [readRows_ok h]
            exact hst
          · rename_i hz
            have hz : f.1 = [] := List.eq_nil_of_length_eq_zero (by omega)
            rw [hz] at hst
            exact hst
      rw [List.foldlM_cons, hrec]
      exact ih g1 hs

theorem receive_var (points : Grid → List LmaParent → Grid) {name : String} {col : LmaEvent → Rat}
    (h : ∀ e, LmaEvent.column name e = .ok (col e)) {nx ny : Nat}
    {frames : List (List LmaEvent × List LmaParent)} (hf : ChildrenOk nx ny frames) :
    ∃ g', frames.foldlM ((Accum.var name "mesh_xi" "mesh_yi").receive points) (Grid.zeros nx ny) =
        .ok g' ∧ g'.n0 = nx ∧ g'.n1 = ny ∧
      ∀ i j, g'.val i j = ((onCell i j frames).map col).sum := by
  obtain ⟨o1, o2⟩ := rowsOf_ok hf col
  obtain ⟨g', e, s0, s1, v⟩ := C32_partial _ _ o1 o2
  refine ⟨g', receive_fold points h _ _ (Or.inl ⟨rfl, rfl⟩) _ _ _ e, s0, s1, fun i j => ?_⟩
  rw [v, sentTo_rowsOf]
  exact zero_add _

theorem receive_minvar (points : Grid → List LmaParent → Grid) {name : String} {col : LmaEvent → Rat}
    (h : ∀ e, LmaEvent.column name e = .ok (col e)) {nx ny : Nat}
    {frames : List (List LmaEvent × List LmaParent)} (hf : ChildrenOk nx ny frames)
    (hp : ∀ f ∈ frames, ∀ e ∈ f.1, 0 < col e) :
    ∃ g', frames.foldlM ((Accum.minvar name "mesh_xi" "mesh_yi").receive points) (Grid.zeros nx ny) =
        .ok g' ∧ g'.n0 = nx ∧ g'.n1 = ny ∧
      ∀ i j, LeastOrZero ((onCell i j frames).map col) (g'.val i j) := by
  obtain ⟨o1, o2⟩ := rowsOf_ok hf col
  obtain ⟨g', e, s0, s1, v⟩ := C33_partial nx ny _ o1 (by
    intro ds hds r hr
    obtain ⟨f, hf, rfl⟩ := List.mem_map.mp hds
    obtain ⟨e, he, rfl⟩ := List.mem_map.mp hr
    exact hp f hf e he) o2
  refine ⟨g', receive_fold points h _ _ (Or.inr ⟨rfl, rfl⟩) _ _ _ e, s0, s1, fun i j => ?_⟩
  rw [← sentTo_rowsOf]
  exact v i j

/-- The grid that is written under a name. -/
def gridNamed (label : String) (grids : List Grid) (name : String) : Option Grid :=
  ((lutOutputSetup label).names.zip grids).lookup name

/-- C35, contents: for all frames, the grid written under each name holds the quantity that its name
says: per cell the sum of the flash counts, of the group counts, of the flash areas, of the group
areas, of the energies, and the least flash area, each from its own pipeline; the centroid densities
are those of the parents of their own pipeline. -/
theorem C35_contents (points : Grid → List LmaParent → Grid) (label : String) (nx ny : Nat)
    (frames : String → List (List LmaEvent × List LmaParent))
    (h : ∀ k, ChildrenOk nx ny (frames k))
    (hp : ∀ f ∈ frames "flash", ∀ e ∈ f.1, 0 < e.minFlashArea) :
    ∃ outgrids grids fed fcd fa te ged gcd ga mfa,
      lutPipelineSetup = .ok outgrids ∧ gridFrame points nx ny outgrids frames = .ok grids ∧
      grids.length = 8 ∧ (∀ g ∈ [fed, fa, te, ged, ga, mfa], g.n0 = nx ∧ g.n1 = ny) ∧
      (gridNamed label grids "flash_extent_density" = some fed ∧
        ∀ i j, fed.val i j = ((onCell i j (frames "flash")).map LmaEvent.flashCount).sum) ∧
      (gridNamed label grids "flash_centroid_density" = some fcd ∧
        fcd = (frames "flash").foldl (fun g f => points g f.2) (Grid.zeros nx ny)) ∧
      (gridNamed label grids "average_flash_area" = some fa ∧
        ∀ i j, fa.val i j = ((onCell i j (frames "flash")).map LmaEvent.totalFlashArea).sum) ∧
      (gridNamed label grids "total_energy" = some te ∧
        ∀ i j, te.val i j = ((onCell i j (frames "event")).map LmaEvent.power).sum) ∧
      (gridNamed label grids "group_extent_density" = some ged ∧
        ∀ i j, ged.val i j = ((onCell i j (frames "group")).map LmaEvent.groupCount).sum) ∧
      (gridNamed label grids "group_centroid_density" = some gcd ∧
        gcd = (frames "group").foldl (fun g f => points g f.2) (Grid.zeros nx ny)) ∧
      (gridNamed label grids "average_group_area" = some ga ∧
        ∀ i j, ga.val i j = ((onCell i j (frames "group")).map LmaEvent.totalGroupArea).sum) ∧
      (gridNamed label grids "minimum_flash_area" = some mfa ∧
        ∀ i j, LeastOrZero ((onCell i j (frames "flash")).map LmaEvent.minFlashArea)
          (mfa.val i j)) := by
  have pts : ∀ (fs : List (List LmaEvent × List LmaParent)) (g : Grid),
      fs.foldlM (Accum.points.receive points) g =
        .ok (fs.foldl (fun g f => points g f.2) g) := by
    intro fs
    induction fs with
    | nil => intro g; rfl
    | cons f fs ih => intro g; rw [List.foldlM_cons]; exact ih _
  obtain ⟨fed, e1, a1, b1, v1⟩ := receive_var points (name := "lutevent_flash_count")
    (col := LmaEvent.flashCount) (fun e => rfl) (h "flash")
  obtain ⟨fa, e2, a2, b2, v2⟩ := receive_var points (name := "lutevent_total_flash_area")
    (col := LmaEvent.totalFlashArea) (fun e => rfl) (h "flash")
  obtain ⟨te, e3, a3, b3, v3⟩ := receive_var points (name := "power")
    (col := LmaEvent.power) (fun e => rfl) (h "event")
  obtain ⟨ged, e4, a4, b4, v4⟩ := receive_var points (name := "lutevent_group_count")
    (col := LmaEvent.groupCount) (fun e => rfl) (h "group")
  obtain ⟨ga, e5, a5, b5, v5⟩ := receive_var points (name := "lutevent_total_group_area")
    (col := LmaEvent.totalGroupArea) (fun e => rfl) (h "group")
  obtain ⟨mfa, e6, a6, b6, v6⟩ := receive_minvar points (name := "lutevent_min_flash_area")
    (col := LmaEvent.minFlashArea) (fun e => rfl) (h "flash") hp
  refine ⟨_, [fed, _, fa, te, ged, _, ga, mfa], fed, _, fa, te, ged, _, ga, mfa, rfl, ?_, rfl, ?_,
    ⟨rfl, v1⟩, ⟨rfl, rfl⟩, ⟨rfl, v2⟩, ⟨rfl, v3⟩, ⟨rfl, v4⟩, ⟨rfl, rfl⟩, ⟨rfl, v5⟩, ⟨rfl, v6⟩⟩
  · unfold gridFrame
    simp only [List.mapM_cons, List.mapM_nil, e1, e2, e3, e4, e5, e6, pts, bind, Except.bind, pure,
      Except.pure]
  · simp only [List.forall_mem_cons]
    simp [a1, b1, a2, b2, a3, b3, a4, b4, a5, b5, a6, b6]

/-- C35, tables: the five tables have one entry for each of the eight grids, with distinct names and
distinct files; the units go with the names; and the two averages, no other grid, are divided, each
by the extent density of its own kind. -/
theorem C35_tables (label : String) :
    (∀ o, lutPipelineSetup = .ok o → o.length = 8) ∧
    (lutOutputSetup label).names.length = 8 ∧ (lutOutputSetup label).postfixes.length = 8 ∧
    (lutOutputSetup label).descriptions.length = 8 ∧ (lutOutputSetup label).units.length = 8 ∧
    (lutOutputSetup label).formats = List.replicate 8 "f" ∧
    (lutOutputSetup label).names.Nodup ∧ (lutOutputSetup label).postfixes.Nodup ∧
    (∀ name unit, (name, unit) ∈ (lutOutputSetup label).names.zip (lutOutputSetup label).units →
      unit = if name = "total_energy" then "nJ" else if name = "average_flash_area" then
        "km^2 per flash" else if name = "average_group_area" then "km^2 per group" else
        if name = "minimum_flash_area" then "km^2" else label) ∧
    (∀ name text, (name, text) ∈
      (lutOutputSetup label).names.zip (lutOutputSetup label).descriptions →
      (text = "Total radiant energy" ↔ name = "total_energy") ∧
      (text = "Average flash area" ↔ name = "average_flash_area") ∧
      (text = "Average group area" ↔ name = "average_group_area") ∧
      (text = "Minimum flash area" ↔ name = "minimum_flash_area") ∧
      (text = "Flash extent density" ↔ name = "flash_extent_density") ∧
      (text = "Flash centroid density" ↔ name = "flash_centroid_density") ∧
      (text = "Group extent density" ↔ name = "group_extent_density") ∧
      (text = "Group centroid density" ↔ name = "group_centroid_density")) ∧
    (∀ num den : String, (∃ a b, (a, b) ∈ (lutOutputSetup label).divide ∧
        (lutOutputSetup label).names[a]? = some num ∧
        (lutOutputSetup label).names[b]? = some den) ↔
      (num = "average_flash_area" ∧ den = "flash_extent_density") ∨
      (num = "average_group_area" ∧ den = "group_extent_density")) := by
  refine ⟨?_, rfl, rfl, rfl, rfl, rfl, by simp [lutOutputSetup, outputSetup],
    by simp [lutOutputSetup, outputSetup], ?_, ?_, ?_⟩
  · intro o h
    cases h
    rfl
  · intro name unit h
    simp only [lutOutputSetup, outputSetup, List.zip_cons_cons, List.zip_nil_right, List.mem_cons,
      Prod.mk.injEq, List.not_mem_nil, or_false] at h
    rcases h with ⟨rfl, rfl⟩ | ⟨rfl, rfl⟩ | ⟨rfl, rfl⟩ | ⟨rfl, rfl⟩ | ⟨rfl, rfl⟩ | ⟨rfl, rfl⟩ |
      ⟨rfl, rfl⟩ | ⟨rfl, rfl⟩ <;> simp
  · intro name unit h
    simp only [lutOutputSetup, outputSetup, List.zip_cons_cons, List.zip_nil_right, List.mem_cons,
      Prod.mk.injEq, List.not_mem_nil, or_false] at h
    rcases h with ⟨rfl, rfl⟩ | ⟨rfl, rfl⟩ | ⟨rfl, rfl⟩ | ⟨rfl, rfl⟩ | ⟨rfl, rfl⟩ | ⟨rfl, rfl⟩ |
      ⟨rfl, rfl⟩ | ⟨rfl, rfl⟩ <;> simp
  · intro num den
    simp only [lutOutputSetup, outputSetup, List.mem_cons, Prod.mk.injEq, List.not_mem_nil, or_false]
    constructor
    · rintro ⟨a, b, ⟨rfl, rfl⟩ | ⟨rfl, rfl⟩, h1, h2⟩
      · left; simp at h1 h2; exact ⟨h1.symm, h2.symm⟩
      · right; simp at h1 h2; exact ⟨h1.symm, h2.symm⟩
    · rintro (⟨rfl, rfl⟩ | ⟨rfl, rfl⟩)
      · exact ⟨2, 0, Or.inl ⟨rfl, rfl⟩, rfl, rfl⟩
      · exact ⟨6, 4, Or.inr ⟨rfl, rfl⟩, rfl, rfl⟩

/-- Children that meet the hypotheses of `C35_contents`. -/
example : ChildrenOk 2 2 [([⟨1, 0, 0, 0, 1, 1, 0, 2, 1, 1, 1, 3, 3, 3⟩,
    ⟨2, 0, 0, 0, 1, 0, 1, 2, 1, 1, 1, 3, 3, 3⟩], [])] := by
  unfold ChildrenOk
  decide

/-- The rows that the regrouping sends name no cell twice, so C32 and C33 apply to them. -/
theorem C32_pipeline (split : List SplitLut) (basedate : Int) (evs : List LmaEvent)
    (h : fakeLmaEvents split basedate = .ok evs) (col : LmaEvent → Rat) :
    OncePerCell (rowsOf col evs) := by
  have hne : split ≠ [] := by rintro rfl; cases h
  obtain ⟨evs', h1, -, -, h2⟩ := C31_cells split basedate hne
  rw [h] at h1
  cases h1
  unfold OncePerCell rowsOf
  rw [List.map_map, List.Nodup, List.pairwise_map]
  refine h2.imp ?_
  intro e e' hlt
  simp only [Function.comp, ne_eq, Prod.mk.injEq, not_and, Int.natCast_inj]
  omega

end Verif.Props
