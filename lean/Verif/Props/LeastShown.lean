import Verif.Props.FileAgreement

/-!
# C157: where the minimum flash area can be above the average
-/

namespace Verif.Props

open Verif.Py Verif.Model Verif.Spec Verif.Proofs

section
variable {env : Surroundings} {order : List Int → List Int} {nav : Rat → Rat → Rat × Rat} {kw shared sh : Dict}
  {xlo ylo dx dy X Y : Rat} {M N s : Nat} {me mg : Option Int} {files opened : List GFile}
  {runs : List (TileRun TileState ImageFile)} {sc : Bool}

/-- C157: the least area at a pixel is not above the average, except with scaled integers at pixels with the least density
that can be stored. -/
theorem C157_least_dense_partial (h : ConvexCall env kw xlo ylo dx dy M N s me mg files opened) (hpos : PositiveData opened)
    (hr : gridGlmFlashes (lutGridder env) files kw shared = .ok (runs, sh)) (hsc : Scaled runs sc) {u v w : Rat}
    (hu : Shows runs "minimum_flash_area" X Y u) (hv : Shows runs "average_flash_area" X Y v)
    (hw : Shows runs "flash_extent_density" X Y w) : u ≤ v ∨ sc = true ∧ w = 1/16 := by
  cases sc with
  | false => exact Or.inl (C157_least_partial h hpos hr hsc hu hv)
  | true =>
    rw [or_iff_not_imp_right]
    intro hw1
    obtain ⟨fed, fa, te, ged, ga, mfa, p⟩ := h.good.pixel hr ⟨_, u, hu⟩
    have e1 := (shown_of (h.good.value hr hsc p (by decide) hu)).2.2.2.2.2 rfl
    have e2 := (shown_of (h.good.value hr hsc p (by decide) hv)).2.1 rfl
    have e3 := (shown_of (h.good.value hr hsc p (by decide) hw)).1 rfl
    have t1 := C157_together h hpos hr hsc (by decide) hu
    have t2 := C157_together h hpos hr hsc (by decide) hv
    rw [h.clip] at p
    by_cases hl : LightningIn env.foot me mg opened dx dy X Y
    · have hmfa := (atLeastStep_pos_iff (by norm_num)).mp (e1 ▸ t1.2.mpr hl)
      have hv0 := t2.2.mpr hl
      have same : atLeastStep true (1/16) fed = fed := by
        unfold atLeastStep at e3 ⊢
        split
        · rename_i k; rw [if_pos k] at e3; exact absurd ⟨rfl, e3⟩ hw1
        · rfl
      rw [same] at e2
      rw [e1, e2]
      refine atLeastStep_mono hmfa ?_
      rw [e2, atLeastStep_pos_iff (by norm_num)] at hv0
      obtain ⟨A, hA⟩ : ∃ A : Rat, ∀ d ∈ opened, ∀ f ∈ countedFlashes me mg d,
        (∃ p ∈ flashPlaces d f, convexClip (env.foot p) (pixelAt dx dy X Y) ≠ []) → f.val.area ≤ A := area_bound _ _ _
      obtain ⟨B, hB⟩ : ∃ B : Rat, ∀ d ∈ opened, ∀ g ∈ countedGroups me mg d,
        (∃ p ∈ groupPlaces d g, convexClip (env.foot p) (pixelAt dx dy X Y) ≠ []) → g.val.area ≤ B := area_bound _ _ _
      have hb := (p.between h.xPos h.yPos hA hB).1
      unfold averageOf at hv0 ⊢
      split
      · rename_i h1; rw [if_pos h1] at hv0; exact absurd hv0 (lt_irrefl _)
      · rename_i h1
        rw [le_div_iff₀ (lt_of_le_of_ne (p.nonneg h.xPos h.yPos).1 (Ne.symm h1))]
        exact hb
    · exact (not_lt.mp fun h0 => hl (t1.2.mp h0)).trans t2.1

/-- The same for files as they are recorded. -/
theorem C157_least_files_partial (h : FileCall env order nav kw xlo ylo dx dy M N s me mg files) (hpos : PositiveData files)
    (hr : gridGlmFlashes (lutGridder env) files kw shared = .ok (runs, sh)) (hsc : Scaled runs sc) {u v w : Rat}
    (hu : Shows runs "minimum_flash_area" X Y u) (hv : Shows runs "average_flash_area" X Y v)
    (hw : Shows runs "flash_extent_density" X Y w) : u ≤ v ∨ sc = true ∧ w = 1/16 := by
  obtain ⟨parts, opened, hp, ho, hc, -⟩ := call_opening h
  exact C157_least_dense_partial hc (opened_positive hpos hp ho) hr hsc hu hv hw

end

/-- The sample: at a pixel with a density above one sixteenth. -/
example {runs : List (TileRun TileState ImageFile)} {sh : Dict} {u v w : Rat}
    (hr : gridGlmFlashes (lutGridder plainEnv) [plainFile] wideCall [] = .ok (runs, sh)) (hsc : Scaled runs true)
    (hu : Shows runs "minimum_flash_area" (3/2000) (3/2000) u) (hv : Shows runs "average_flash_area" (3/2000) (3/2000) v)
    (hw : Shows runs "flash_extent_density" (3/2000) (3/2000) w) (hd : w ≠ 1/16) : u ≤ v :=
  (C157_least_files_partial plain_call ⟨by decide +kernel, by decide +kernel⟩ hr hsc hu hv hw).resolve_right fun k => hd k.2

end Verif.Props
