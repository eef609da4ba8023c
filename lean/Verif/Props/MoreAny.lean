import Verif.Props.AnyDivision
import Verif.Props.MoreFiles

/-!
# C163 for boxes, footprints and flashes of any size

More files do not take anything away from images, whatever the sizes and positions of boxes, tiles, footprints and flashes.
-/

namespace Verif.Props

open Verif.Py Verif.Model Verif.Spec Verif.Proofs

/-- What a pixel holds of some of the lightning is not above what it holds of all of it. -/
theorem lightning_more {clip : Poly → Poly → List Poly} {foot : Pt → Poly} {me mg : Option Int} {fl flB flC : List FlashOf}
    {dx dy X Y fed fa te ged ga mfa fed' fa' te' ged' ga' mfa' : Rat} (hdx : 0 < dx) (hdy : 0 < dy)
    (h : LightningHolds clip foot me mg fl dx dy X Y fed fa te ged ga mfa)
    (h' : LightningHolds clip foot me mg flC dx dy X Y fed' fa' te' ged' ga' mfa') (hall : flC.Perm (fl ++ flB))
    (hf : ∀ F ∈ flC, 0 < F.area) (hg : ∀ F ∈ flC, ∀ G ∈ F.groups, 0 ≤ G.area) (he : ∀ F ∈ flC, ∀ p ∈ F.events, 0 ≤ p.2) :
    fed ≤ fed' ∧ fa ≤ fa' ∧ (0 ≤ te ∧ te ≤ te') ∧ ged ≤ ged' ∧ ga ≤ ga' ∧ 0 ≤ mfa ∧ (mfa ≠ 0 → 0 < mfa' ∧ mfa' ≤ mfa) := by
  classical
  obtain ⟨mfaB, hm⟩ := leastOrZero_some (((counted me mg flB).filter fun F =>
    ∃ p ∈ F.places, clip (foot p) (pixelAt dx dy X Y) ≠ []).map fun F => F.area)
  have hB : LightningHolds clip foot me mg flB dx dy X Y _ _ _ _ _ mfaB := ⟨rfl, rfl, rfl, rfl, rfl, by convert hm⟩
  have inB : ∀ F ∈ flB, F ∈ flC := fun F hF => hall.mem_iff.mpr (List.mem_append_right _ hF)
  have inA : ∀ F ∈ fl, F ∈ flC := fun F hF => hall.mem_iff.mpr (List.mem_append_left _ hF)
  obtain ⟨n1, n2, n3, -, -⟩ := lightning_nonneg hB hdx hdy
  have part := pixelShare_nonneg clip foot hdx hdy X Y
  have n4 : 0 ≤ ((counted me mg flB).map fun F => F.area * (F.places.map (pixelShare clip foot dx dy X Y)).sum).sum :=
    sum_nonneg_map _ _ fun F hF => mul_nonneg (hf F (inB F (List.mem_filter.mp hF).1)).le (sum_nonneg_map _ _ fun p _ => part p)
  have n5 : 0 ≤ ((counted me mg flB).map fun F => (F.groups.map fun G => G.area *
      (G.places.map (pixelShare clip foot dx dy X Y)).sum).sum).sum :=
    sum_nonneg_map _ _ fun F hF => sum_nonneg_map _ _ fun G hG => mul_nonneg (hg F (inB F (List.mem_filter.mp hF).1) G hG)
      (sum_nonneg_map _ _ fun p _ => part p)
  have n3 := n3 fun F hF => he F (inB F hF)
  have n0 := (lightning_nonneg h hdx hdy).2.2.1 fun F hF => he F (inA F hF)
  obtain ⟨e1, e2, e3, e4, e5, e6, l1, l2⟩ := lightning_append h hB h' hall hf
  refine ⟨by linarith, by linarith, ⟨n0, by linarith⟩, by linarith, by linarith, l1, fun h0 => ?_⟩
  have p1 := lt_of_le_of_ne l1 (Ne.symm h0)
  rw [e6]
  unfold leastOf
  rw [if_neg h0]
  split
  · exact ⟨p1, le_refl _⟩
  · rename_i h2
    exact ⟨lt_min p1 (lt_of_le_of_ne l2 (Ne.symm h2)), min_le_left _ _⟩

/-- **C163**, for boxes, footprints and flashes of any size, wherever they are.  Two images, of a call for some files and a call for
these and others, have the same pixels.  Densities and energies of the first are not above those of the second; where the first
shows a minimum flash area the second shows one that is not above it; and without scaled integers the areas behind the averages are
not above those of the second. -/
theorem C163_any_size {env : Surroundings} {order : List Int → List Int} {nav : Rat → Rat → Rat × Rat}
    {kwA kwB sA sB sA' sB' : Dict} {xA yA xB yB dx dy : Rat} {MA NA kA MB NB kB : Nat} {me mg : Option Int}
    {files rest files' : List GFile} {runsA runsB : List (TileRun TileState ImageFile)}
    (hA : AnyBoxFiles env order nav kwA xA yA dx dy MA NA kA me mg files)
    (hB : AnyBoxFiles env order nav kwB xB yB dx dy MB NB kB me mg files') (hall : files'.Perm (files ++ rest))
    (hg : ∀ d ∈ files', ∀ g ∈ d.groups, 0 ≤ g.val.area) (hpos : EnergiesHold files')
    (rA : gridGlmFlashes (lutGridder env) files kwA sA = .ok (runsA, sA'))
    (rB : gridGlmFlashes (lutGridder env) files' kwB sB = .ok (runsB, sB'))
    {tA tB : TileRun TileState ImageFile} (htA : tA ∈ runsA) (htB : tB ∈ runsB) {fA fB : String × ImageFile}
    (hfA : fA ∈ tA.written) (hfB : fB ∈ tB.written) {sc : Bool} (scA : (tA.scale != .bool false) = sc)
    (scB : (tB.scale != .bool false) = sc) (hx : fB.2.x = fA.2.x) (hy : fB.2.y = fA.2.y) {row col : Nat}
    (hcol : col < fA.2.x.length) (hrow : row < fA.2.y.length) :
    (∀ name ∈ ["flash_extent_density", "total_energy", "group_extent_density"], ∀ a b,
      (name, a) ∈ fA.2.fields → (name, b) ∈ fB.2.fields → 0 ≤ a.val row col ∧ a.val row col ≤ b.val row col) ∧
    (∀ a b, ("minimum_flash_area", a) ∈ fA.2.fields → ("minimum_flash_area", b) ∈ fB.2.fields →
      a.val row col ≠ 0 → 0 < b.val row col ∧ b.val row col ≤ a.val row col) ∧
    (sc = false → ∀ name density, (name, density) ∈ [("average_flash_area", "flash_extent_density"),
        ("average_group_area", "group_extent_density")] →
      ∀ a b u w, (name, a) ∈ fA.2.fields → (name, b) ∈ fB.2.fields → (density, u) ∈ fA.2.fields → (density, w) ∈ fB.2.fields →
        a.val row col * u.val row col ≤ b.val row col * w.val row col) := by
  have hX : fA.2.x[col]? = some fA.2.x[col] := List.getElem?_eq_getElem hcol
  have hY : fA.2.y[row]? = some fA.2.y[row] := List.getElem?_eq_getElem hrow
  obtain ⟨fed, fa, te, ged, ga, mfa, p, q⟩ := C168_files hA rA htA hfA hX hY
  obtain ⟨fed', fa', te', ged', ga', mfa', p', q'⟩ := C168_files hB rB htB hfB (by rw [hx]; exact hX) (by rw [hy]; exact hY)
  rw [scA] at q
  rw [scB] at q'
  rw [hx, hy] at p'
  have mem : ∀ {F : FlashOf}, F ∈ (files'.flatMap fun d => (d.flashes.filter fun f =>
      FlashInside nav dx dy (padding dx) (padding dy) fA.2.x fA.2.y d f).map (flashOf nav d)) →
      ∃ d ∈ files', ∃ f ∈ d.flashes, flashOf nav d f = F := by
    intro F hF
    obtain ⟨d, hd, hF⟩ := List.mem_flatMap.mp hF
    obtain ⟨f, hf, rfl⟩ := List.mem_map.mp hF
    exact ⟨d, hd, f, (List.mem_filter.mp hf).1, rfl⟩
  have more := lightning_more (flB := rest.flatMap fun d => (d.flashes.filter fun f =>
      FlashInside nav dx dy (padding dx) (padding dy) fA.2.x fA.2.y d f).map (flashOf nav d)) hA.xPos hA.yPos p p'
    (by rw [← List.flatMap_append]; exact hall.flatMap_right _)
    (fun F hF => by obtain ⟨d, hd, f, hf, rfl⟩ := mem hF; exact (hB.fit d hd).areas f hf)
    (fun F hF G hG => by
      obtain ⟨d, hd, f, hf, rfl⟩ := mem hF
      obtain ⟨g, hgg, rfl⟩ := List.mem_map.mp hG
      exact hg d hd g (List.mem_filter.mp hgg).1)
    (fun F hF => by obtain ⟨d, hd, f, hf, rfl⟩ := mem hF; exact flashOf_energies (hpos d hd) f)
  obtain ⟨n1, n2, -, n3, n4⟩ := lightning_nonneg p hA.xPos hA.yPos
  obtain ⟨-, -, -, n3', n4'⟩ := lightning_nonneg p' hA.xPos hA.yPos
  have key := shown_grows (sc := sc) (A := fun name v => ∃ img, (name, img) ∈ fA.2.fields ∧ img.val row col = v)
    (B := fun name v => ∃ img, (name, img) ∈ fB.2.fields ∧ img.val row col = v) (fun _ _ =>
      ⟨fed, fa, te, ged, ga, mfa, fed', fa', te', ged', ga', mfa', ⟨n1, n2, n3, n4⟩, ⟨n3', n4'⟩, more,
        fun name v hn ⟨img, hi, hv⟩ => by
          obtain ⟨w, hw⟩ := shown_names sc fed fa te ged ga mfa hn
          rw [← hv, q name img w hi hw]
          exact hw,
        fun name v hn ⟨img, hi, hv⟩ => by
          obtain ⟨w, hw⟩ := shown_names sc fed' fa' te' ged' ga' mfa' hn
          rw [← hv, q' name img w hi hw]
          exact hw⟩)
  exact ⟨fun name hn a b ha hb => key.1 name hn _ _ ⟨a, ha, rfl⟩ ⟨b, hb, rfl⟩,
    fun a b ha hb => key.2.1 _ _ ⟨a, ha, rfl⟩ ⟨b, hb, rfl⟩,
    fun h name density hn a b u w ha hb hu hw => key.2.2 h name density hn _ _ _ _ ⟨a, ha, rfl⟩ ⟨b, hb, rfl⟩ ⟨u, hu, rfl⟩
      ⟨w, hw, rfl⟩⟩

/-! ## Sample -/

/-- The image of one of the samples is not above that of both. -/
example {runsA runsB : List (TileRun TileState ImageFile)} {sA' sB' : Dict} {tA tB : TileRun TileState ImageFile}
    {fA fB : String × ImageFile} {row col : Nat} {a b : Image}
    (rA : gridGlmFlashes (lutGridder plainEnv) [seamAlone] largeBoxCall [] = .ok (runsA, sA'))
    (rB : gridGlmFlashes (lutGridder plainEnv) [seamAlone, seamPlain] largeBoxCall [] = .ok (runsB, sB'))
    (htA : tA ∈ runsA) (htB : tB ∈ runsB) (hfA : fA ∈ tA.written) (hfB : fB ∈ tB.written)
    (sc : (tB.scale != .bool false) = (tA.scale != .bool false)) (hx : fB.2.x = fA.2.x) (hy : fB.2.y = fA.2.y)
    (hcol : col < fA.2.x.length) (hrow : row < fA.2.y.length) (ha : ("total_energy", a) ∈ fA.2.fields)
    (hb : ("total_energy", b) ∈ fB.2.fields) : a.val row col ≤ b.val row col :=
  ((C163_any_size (rest := [seamPlain]) seamAlone_call seamBoth_call (List.Perm.refl _) (by decide +kernel)
    (by unfold EnergiesHold; decide +kernel) rA rB htA htB hfA hfB rfl sc hx hy hcol hrow).1 "total_energy" (by simp) a b ha hb).2

end Verif.Props
