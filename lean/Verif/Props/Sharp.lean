import Verif.Props.Single
import Verif.Props.Traversal

/-!
# C06 and C108: what happens beyond the conditions
-/

namespace Verif.Props

open Verif.Py Verif.Model Verif.Spec Verif.Proofs Verif.Samples

/-- C06: if no row of the entity level has a requested id, the entity level is empty, and the next level has exactly the rows
that refer to a requested id, which are orphans. -/
theorem C06_unknown_ids {α : Type} {t above below : List (Level α)} {L B : Level α} (ids : List Int)
    (wf : Spec.WellFormed t) (ht : t = above ++ L :: B :: below) (hne : NoEmptyLevel t)
    (hun : ∀ q ∈ L.rows, q.id ∉ ids) :
    ∃ t' above' L' B' below', reduceToEntities t L.evar ids = .ok t' ∧
      SplitLike t' above L (B :: below) above' L' (B' :: below') ∧ L'.rows = [] ∧
      ∀ r, r ∈ B'.rows ↔ r ∈ B.rows ∧ r.pid ∈ ids := by
  obtain ⟨t', above', L', below', h1, h2, h3⟩ := C05_requested_rows ids wf ht hne
  obtain ⟨t2, above2, L2, below2, k1, k2, k3⟩ := C06_descendants_mem ids wf ht hne
  obtain rfl : t' = t2 := Except.ok.inj (h1.symm.trans k1)
  have e := k2.eq.symm.trans h2.eq
  obtain ⟨rfl, e2⟩ := List.append_inj e (k2.above_length.trans h2.above_length.symm)
  obtain ⟨rfl, rfl⟩ := List.cons.inj e2
  cases below2 with
  | nil => exact absurd k2.below_length (by simp)
  | cons B' below' =>
    refine ⟨t', above2, L2, B', below', k1, k2, ?_, fun r => ?_⟩
    · rw [h3]
      refine List.flatMap_eq_nil_iff.mpr fun i hi => List.filter_eq_nil_iff.mpr fun q hq => ?_
      rw [decide_eq_true_eq]
      rintro rfl
      exact hun q hq hi
    · have := k3 0 (by simp) (by simp) r
      simpa [Descends] using this

/-- C06: the sample with orphans. -/
example : (reduceToEntities bad "flash_id" [99]).map (fun t => t.map fun l => l.rows.map Row.id) =
    .ok [[], [15], [106]] ∧ Spec.WellFormed bad ∧ NoEmptyLevel bad ∧ (∀ q ∈ badFlashes.rows, q.id ∉ [(99 : Int)]) ∧
    bad = [] ++ badFlashes :: badGroups :: [badEvents] :=
  ⟨by rfl, bad_wf, bad_nonempty, by decide, rfl⟩

theorem round_next : roundSingle (2 ^ 24 + 1) = 2 ^ 24 := by decide +kernel

theorem ones_stop (k : Nat) (n : Nat) (hn : n ≤ 2 ^ 24) :
    addRounded roundSingle (n : Rat) (List.replicate k 1) = ((min (n + k) (2 ^ 24) : Nat) : Rat) := by
  induction k generalizing n with
  | zero => rw [Nat.add_zero, Nat.min_eq_left hn]; rfl
  | succ k ih =>
    unfold addRounded at ih ⊢
    rw [List.replicate_succ, List.foldl_cons]
    have h1 : roundSingle 1 = 1 := by have := C108_single.2.1 1 (by norm_num); exact_mod_cast this
    rw [h1]
    rcases Nat.lt_or_ge n (2 ^ 24) with h | h
    · have h2 : roundSingle ((n : Rat) + 1) = ((n + 1 : Nat) : Rat) := by
        have := C108_single.2.1 (n + 1) (by omega)
        push_cast at this ⊢
        exact this
      rw [h2, ih (n + 1) (by omega)]
      congr 2
      omega
    · have e : n = 2 ^ 24 := le_antisymm hn h
      subst e
      have h2 : roundSingle (((2 ^ 24 : Nat) : Rat) + 1) = ((2 ^ 24 : Nat) : Rat) := by
        have := round_next
        push_cast
        exact this
      rw [h2, ih _ le_rfl]
      congr 1
      omega

/-- C108: a cell that counts one by one in 32 bit floats counts up to 2^24 and stands still from then on. -/
theorem C108_counts_stop (n0 n1 : Nat) (dss : List (List IdxRow)) (h : ∀ ds ∈ dss, OnGrid (Grid.zeros n0 n1) ds)
    (ho : ∀ ds ∈ dss, OncePerCell ds) (hc : ∀ ds ∈ dss, ∀ r ∈ ds, r.v = 1) :
    ∃ g', sendAll (accumulateVarSingle roundSingle) (Grid.zeros n0 n1) dss = (g', none) ∧ g'.n0 = n0 ∧ g'.n1 = n1 ∧
      ∀ i j, g'.val i j = ((min (sentTo i j dss.flatten).length (2 ^ 24) : Nat) : Rat) := by
  obtain ⟨g', e, s0, s1, v⟩ := single_all roundSingle _ dss h ho
  refine ⟨g', e, s0, s1, fun i j => ?_⟩
  have hr : sentTo i j dss.flatten = List.replicate (sentTo i j dss.flatten).length 1 := by
    refine List.eq_replicate_iff.mpr ⟨rfl, fun w hw => ?_⟩
    obtain ⟨r, hr', rfl⟩ := mem_sentTo hw
    obtain ⟨ds, hds, hrd⟩ := List.mem_flatten.mp hr'
    exact hc ds hds r hrd
  rw [v]
  conv_lhs => rw [hr]
  have := ones_stop (sentTo i j dss.flatten).length 0 (by norm_num)
  rw [Nat.zero_add] at this
  exact_mod_cast this

/-- Datasets that count. -/
example : ∀ ds ∈ [[(⟨0, 0, 1⟩ : IdxRow), ⟨1, 0, 1⟩], [⟨0, 0, 1⟩]],
    OnGrid (Grid.zeros 1 2) ds ∧ OncePerCell ds ∧ ∀ r ∈ ds, r.v = 1 := by
  unfold OnGrid OncePerCell
  decide +kernel

end Verif.Props
