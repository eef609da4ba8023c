import Verif.Props.CoarseFiles
import Verif.Props.Extents

/-!
# C134 and C165 for boxes, footprints and flashes of any size

Without any condition on sizes and positions images can show less than is recorded (C166 to C168), so that what is recorded
bounds what they show together.  Nothing is counted twice at the seams between tiles.
-/

namespace Verif.Props

open Verif.Py Verif.Model Verif.Spec Verif.Proofs

theorem leastOrZero_some (l : List Rat) : ∃ v, LeastOrZero l v := by
  induction l with
  | nil => exact ⟨0, fun _ => rfl, fun h => absurd rfl h⟩
  | cons a l ih =>
    obtain ⟨v, h0, h1⟩ := ih
    by_cases hl : l = []
    · subst hl
      exact ⟨a, fun h => absurd h (List.cons_ne_nil _ _), fun _ => ⟨List.mem_cons_self, fun u hu => by
        rw [List.mem_singleton] at hu
        exact hu.ge⟩⟩
    · obtain ⟨k1, k2⟩ := h1 hl
      refine ⟨min a v, fun h => absurd h (List.cons_ne_nil _ _), fun _ => ⟨?_, fun u hu => ?_⟩⟩
      · rcases min_choice a v with e | e
        · rw [e]
          exact List.mem_cons_self
        · rw [e]
          exact List.mem_cons_of_mem _ k1
      · rcases List.mem_cons.mp hu with rfl | hu
        · exact min_le_left _ _
        · exact (min_le_right _ _).trans (k2 u hu)

section
variable {foot : Pt → Poly} {me mg : Option Int} {files : List GFile} {xlo ylo dx dy : Rat} {M N : Nat}

theorem shares_at_most (hd : 0 < dx * dy) {l : List Pt}
    (h : ∀ p ∈ l, overBoxes M N (fun m n => partArea convexClip (foot p)
      (pixelAt dx dy (xlo + (m + 1/2) * dx) (ylo + (n + 1/2) * dy))) ≤ |signedArea (foot p)|) :
    overBoxes M N (fun m n => (l.map (pixelShare convexClip foot dx dy (xlo + (m + 1/2) * dx) (ylo + (n + 1/2) * dy))).sum) *
      (dx * dy) ≤ extentOf foot l := by
  rw [overBoxes_sum M N l fun p m n => pixelShare convexClip foot dx dy (xlo + (m + 1/2) * dx) (ylo + (n + 1/2) * dy) p]
  unfold extentOf
  rw [← List.sum_map_mul_right]
  refine sum_le_sum_map _ _ _ fun p hp => le_of_eq_of_le ?_ (h p hp)
  unfold pixelShare
  simp only [div_eq_inv_mul]
  rw [overBoxes_mul, mul_comm, ← mul_assoc, mul_inv_cancel₀ hd.ne', one_mul]

theorem extents_at_most {α : Type} (hd : 0 < dx * dy) (rows : GFile → List α) (places : GFile → α → List Pt)
    (h : ∀ d ∈ files, ∀ a, ∀ p ∈ places d a, overBoxes M N (fun m n => partArea convexClip (foot p)
      (pixelAt dx dy (xlo + (m + 1/2) * dx) (ylo + (n + 1/2) * dy))) ≤ |signedArea (foot p)|) :
    overBoxes M N (fun m n => (files.map fun d => ((rows d).map fun a => ((places d a).map
      (pixelShare convexClip foot dx dy (xlo + (m + 1/2) * dx) (ylo + (n + 1/2) * dy))).sum).sum).sum) * (dx * dy) ≤
      (files.map fun d => ((rows d).map fun a => 1 * extentOf foot (places d a)).sum).sum := by
  rw [overBoxes_sum M N files fun d m n => ((rows d).map fun a => ((places d a).map
      (pixelShare convexClip foot dx dy (xlo + (m + 1/2) * dx) (ylo + (n + 1/2) * dy))).sum).sum, ← List.sum_map_mul_right]
  refine sum_le_sum_map _ _ _ fun d hdd => ?_
  rw [overBoxes_sum M N (rows d) fun a m n => ((places d a).map
      (pixelShare convexClip foot dx dy (xlo + (m + 1/2) * dx) (ylo + (n + 1/2) * dy))).sum, ← List.sum_map_mul_right]
  refine sum_le_sum_map _ _ _ fun a _ => ?_
  rw [one_mul]
  exact shares_at_most hd (h d hdd a)

theorem steps_at_most {sc : Bool} {step : Rat} (hs : 0 < step) {v t : Nat → Nat → Rat}
    (hv : ∀ m n, m < M → n < N → v m n ≤ atLeastStep sc step (t m n)) :
    overBoxes M N v ≤ overBoxes M N t + step * (M * N) ∧ (sc = false → overBoxes M N v ≤ overBoxes M N t) := by
  refine ⟨?_, ?_⟩
  · rw [← overBoxes_add_const]
    exact overBoxes_le fun m n hm hn => (hv m n hm hn).trans (atLeastStep_bounds sc hs).2
  · rintro rfl
    refine overBoxes_le fun m n hm hn => ?_
    have := hv m n hm hn
    rwa [atLeastStep_false] at this

end

/-- A pixel shows no density and no energy higher than what all files put there, and none that is negative. -/
def PixelAtMost (foot : Pt → Poly) (nav : Rat → Rat → Rat × Rat) (me mg : Option Int) (files : List GFile) (dx dy : Rat) (sc : Bool)
    (X Y : Rat) (shows : String → Rat → Prop) : Prop :=
  ∃ fed fa te ged ga mfa, FilesHold convexClip foot nav me mg files dx dy X Y fed fa te ged ga mfa ∧
    (∀ v, shows "flash_extent_density" v → 0 ≤ v ∧ v ≤ atLeastStep sc (1/16) fed) ∧
    (∀ v, EnergiesHold files → shows "total_energy" v → 0 ≤ v ∧ v ≤ atLeastStep sc (152597 / 100000000000) te) ∧
    ∀ v, shows "group_extent_density" v → 0 ≤ v ∧ v ≤ atLeastStep sc (1/4) ged

theorem energy_at_most {foot : Pt → Poly} {nav : Rat → Rat → Rat × Rat} {me mg : Option Int} {files : List GFile}
    {xlo ylo dx dy : Rat} {M N : Nat} {sc : Bool} {V : String → Rat → Rat → Rat → Prop} (hdx : 0 < dx) (hdy : 0 < dy)
    (hM : 0 < M) (hN : 0 < N)
    (hfit : ∀ d ∈ files, ∀ e ∈ d.events, ConvexPoly (foot (navPlace nav e)) ∧ signedArea (foot (navPlace nav e)) ≠ 0)
    (hpx : ∀ X Y, PixelAtMost foot nav me mg files dx dy sc X Y fun name v => V name X Y v)
    (hpos : EnergiesHold files) (v : Nat → Nat → Rat) (hv : ∀ m n, m < M → n < N →
      V "total_energy" (xlo + (m + 1/2) * dx) (ylo + (n + 1/2) * dy) (v m n)) :
    (∀ m n, m < M → n < N → 0 ≤ v m n) ∧
    overBoxes M N v ≤ recordedEnergy me mg files + 152597 / 100000000000 * (M * N) ∧
    (sc = false → overBoxes M N v ≤ recordedEnergy me mg files) := by
  choose fed fa te ged ga mfa hall _h1 hte _h2 using fun (m n : Nat) =>
    hpx (xlo + (m + 1/2) * dx) (ylo + (n + 1/2) * dy)
  have total : overBoxes M N te ≤ recordedEnergy me mg files := by
    unfold recordedEnergy
    rw [overBoxes_congr fun m n _ _ => (hall m n).energy,
      overBoxes_sum M N files fun d m n => ((fileEvents me mg d).map fun e => e.val.energy *
        (partArea convexClip (foot (navPlace nav e)) (pixelAt dx dy (xlo + (m + 1/2) * dx) (ylo + (n + 1/2) * dy)) /
          |signedArea (foot (navPlace nav e))|)).sum]
    refine sum_le_sum_map _ _ _ fun d hd => ?_
    rw [overBoxes_sum M N (fileEvents me mg d) fun e m n => e.val.energy *
      (partArea convexClip (foot (navPlace nav e)) (pixelAt dx dy (xlo + (m + 1/2) * dx) (ylo + (n + 1/2) * dy)) /
        |signedArea (foot (navPlace nav e))|)]
    refine sum_le_sum_map _ _ _ fun e he => ?_
    have he := (List.mem_filter.mp he).1
    have ha := (hfit d hd e he).2
    have hp := parts_le (xlo := xlo) (ylo := ylo) (M := M) (N := N) ((hfit d hd e he).1) ha hdx hdy hM hN
    rw [overBoxes_mul]
    refine mul_le_of_le_one_right (hpos d hd e he) ?_
    simp only [div_eq_inv_mul _ |signedArea (foot (navPlace nav e))|]
    rw [overBoxes_mul, inv_mul_le_iff₀ (abs_pos.mpr ha), mul_one]
    exact hp
  have k := steps_at_most (sc := sc) (t := te) (show (0 : Rat) < 152597 / 100000000000 by norm_num)
    fun m n hm hn => (hte m n _ hpos (hv m n hm hn)).2
  exact ⟨fun m n hm hn => (hte m n _ hpos (hv m n hm hn)).1, k.1.trans (add_le_add_left total _),
    fun e => (k.2 e).trans total⟩

theorem densities_at_most {foot : Pt → Poly} {nav : Rat → Rat → Rat × Rat} {me mg : Option Int} {files : List GFile}
    {xlo ylo dx dy : Rat} {M N : Nat} {sc : Bool} {V : String → Rat → Rat → Rat → Prop} (hdx : 0 < dx) (hdy : 0 < dy)
    (hM : 0 < M) (hN : 0 < N)
    (hfit : ∀ d ∈ files, ∀ e ∈ d.events, ConvexPoly (foot (navPlace nav e)) ∧ signedArea (foot (navPlace nav e)) ≠ 0)
    (hpx : ∀ X Y, PixelAtMost foot nav me mg files dx dy sc X Y fun name v => V name X Y v)
    {name : String} {step : Rat} {extents : (Row GVal → Rat) → Rat}
    (hname : (name, step, extents) ∈
      [("flash_extent_density", 1/16, flashExtents foot nav me mg files),
       ("group_extent_density", 1/4, groupExtents foot nav me mg files)])
    (v : Nat → Nat → Rat)
    (hv : ∀ m n, m < M → n < N → V name (xlo + (m + 1/2) * dx) (ylo + (n + 1/2) * dy) (v m n)) :
    (∀ m n, m < M → n < N → 0 ≤ v m n) ∧
    overBoxes M N v * (dx * dy) ≤ extents (fun _ => 1) + step * (M * N) * (dx * dy) ∧
    (sc = false → overBoxes M N v * (dx * dy) ≤ extents (fun _ => 1)) := by
  have hd := mul_pos hdx hdy
  choose fed fa te ged ga mfa hall hfed _h1 hged using fun (m n : Nat) =>
    hpx (xlo + (m + 1/2) * dx) (ylo + (n + 1/2) * dy)
  have feet : ∀ d ∈ files, ∀ e ∈ d.events, overBoxes M N (fun m n => partArea convexClip (foot (navPlace nav e))
      (pixelAt dx dy (xlo + (m + 1/2) * dx) (ylo + (n + 1/2) * dy))) ≤ |signedArea (foot (navPlace nav e))| :=
    fun d hdd e he => parts_le ((hfit d hdd e he).1) ((hfit d hdd e he).2) hdx hdy hM hN
  have bound : ∀ {t : Nat → Nat → Rat} {E : Rat}, 0 < step → overBoxes M N t * (dx * dy) ≤ E →
      (∀ m n, m < M → n < N → v m n ≤ atLeastStep sc step (t m n)) →
      overBoxes M N v * (dx * dy) ≤ E + step * (M * N) * (dx * dy) ∧ (sc = false → overBoxes M N v * (dx * dy) ≤ E) := by
    intro t E hs hE hle
    have k := steps_at_most hs hle
    refine ⟨?_, fun e => (mul_le_mul_of_nonneg_right (k.2 e) hd.le).trans hE⟩
    have := mul_le_mul_of_nonneg_right k.1 hd.le
    rw [add_mul] at this
    linarith
  simp only [List.mem_cons, Prod.mk.injEq, List.not_mem_nil, or_false] at hname
  rcases hname with ⟨rfl, rfl, rfl⟩ | ⟨rfl, rfl, rfl⟩
  · refine ⟨fun m n hm hn => (hfed m n _ (hv m n hm hn)).1, bound (t := fed) (by norm_num) ?_
      fun m n hm hn => (hfed m n _ (hv m n hm hn)).2⟩
    rw [overBoxes_congr fun m n _ _ => (hall m n).flashes]
    refine extents_at_most hd _ _ fun d hdd f p hp => ?_
    obtain ⟨e, he, rfl⟩ := List.mem_map.mp (List.mem_dedup.mp hp)
    exact feet d hdd e (List.mem_filter.mp he).1
  · refine ⟨fun m n hm hn => (hged m n _ (hv m n hm hn)).1, bound (t := ged) (by norm_num) ?_
      fun m n hm hn => (hged m n _ (hv m n hm hn)).2⟩
    rw [overBoxes_congr fun m n _ _ => (hall m n).groups]
    refine extents_at_most hd _ _ fun d hdd f p hp => ?_
    obtain ⟨e, he, rfl⟩ := List.mem_map.mp (List.mem_dedup.mp hp)
    exact feet d hdd e (List.mem_filter.mp he).1

section
variable {env : Surroundings} {order : List Int → List Int} {nav : Rat → Rat → Rat × Rat} {kw shared sh : Dict}
  {xlo ylo dx dy : Rat} {M N s : Nat} {me mg : Option Int} {files : List GFile} {runs : List (TileRun TileState ImageFile)}
  {sc : Bool}

theorem any_pixel (h : AnyBoxFiles env order nav kw xlo ylo dx dy M N s me mg files)
    (hr : gridGlmFlashes (lutGridder env) files kw shared = .ok (runs, sh)) (hsc : Scaled runs sc) (X Y : Rat) :
    PixelAtMost env.foot nav me mg files dx dy sc X Y fun name v => Shows runs name X Y v := by
  classical
  obtain ⟨parts, opened, hp, ho, hc⟩ := h.opened
  obtain ⟨mfa, hm⟩ := leastOrZero_some (opened.flatMap fun d => ((countedFlashes me mg d).filter fun (f : Row GVal) =>
    ∃ p ∈ flashPlaces d f, convexClip (env.foot p) (pixelAt dx dy X Y) ≠ []).map fun f => f.val.area)
  have hall : PixelHolds convexClip env.foot me mg opened dx dy X Y _ _ _ _ _ mfa := ⟨rfl, rfl, rfl, rfl, rfl, hm⟩
  refine ⟨_, _, _, _, _, mfa, part_holds hp (opened_holds ho hall), ?_, ?_, ?_⟩
  · rintro v ⟨r, hrr, nf, hnf, row, col, img, hX, hY, hi, rfl⟩
    obtain ⟨fed1, fa1, te1, ged1, ga1, mfa1, hpx, hs⟩ := C168_exact hc hr hrr hnf hX hY
    rw [h.clip] at hpx
    rw [hs _ img (atLeastStep (r.scale != .bool false) (1/16) fed1) hi (by simp [shown]), hsc r hrr]
    exact ⟨(hpx.nonneg h.xPos h.yPos).1.trans (atLeastStep_bounds sc (by norm_num)).1,
      shown_mono _ (range_at_most h.xPos h.yPos hall hpx).1⟩
  · rintro v hpos ⟨r, hrr, nf, hnf, row, col, img, hX, hY, hi, rfl⟩
    obtain ⟨fed1, fa1, te1, ged1, ga1, mfa1, hpx, hs⟩ := C168_exact hc hr hrr hnf hX hY
    rw [h.clip] at hpx
    have hpos' : ∀ d ∈ opened, ∀ e ∈ d.events, 0 ≤ e.val.energy := by
      intro d' hd' e' he'
      obtain ⟨d, hd, e, he, e1, -⟩ := opened_event hp ho d' hd' e' he'
      rw [e1]
      exact hpos d hd e he
    rw [hs _ img (atLeastStep (r.scale != .bool false) (152597 / 100000000000) te1) hi (by simp [shown]), hsc r hrr]
    refine ⟨(hpx.energy_nonneg ?_).trans (atLeastStep_bounds sc (by norm_num)).1,
      shown_mono _ ((range_at_most h.xPos h.yPos hall hpx).2.1 hpos')⟩
    intro d hd e he
    obtain ⟨d0, hd0, rfl⟩ := List.mem_map.mp hd
    exact hpos' d0 hd0 e he
  · rintro v ⟨r, hrr, nf, hnf, row, col, img, hX, hY, hi, rfl⟩
    obtain ⟨fed1, fa1, te1, ged1, ga1, mfa1, hpx, hs⟩ := C168_exact hc hr hrr hnf hX hY
    rw [h.clip] at hpx
    rw [hs _ img (atLeastStep (r.scale != .bool false) (1/4) ged1) hi (by simp [shown]), hsc r hrr]
    exact ⟨(hpx.nonneg h.xPos h.yPos).2.1.trans (atLeastStep_bounds sc (by norm_num)).1,
      shown_mono _ (range_at_most h.xPos h.yPos hall hpx).2.2⟩

/-- **C134** for files with boxes, footprints and flashes of any size, wherever they are: the images hold no more energy than is
recorded for the events of the flashes that are large enough; with scaled integers, but for one step in each pixel. -/
theorem C134_any_size (h : AnyBoxFiles env order nav kw xlo ylo dx dy M N s me mg files)
    (hr : gridGlmFlashes (lutGridder env) files kw shared = .ok (runs, sh)) (hsc : Scaled runs sc)
    (hpos : EnergiesHold files) (v : Nat → Nat → Rat) (hv : ∀ m n, m < M → n < N →
      Shows runs "total_energy" (xlo + (m + 1/2) * dx) (ylo + (n + 1/2) * dy) (v m n)) :
    (∀ m n, m < M → n < N → 0 ≤ v m n) ∧
    overBoxes M N v ≤ recordedEnergy me mg files + 152597 / 100000000000 * (M * N) ∧
    (sc = false → overBoxes M N v ≤ recordedEnergy me mg files) :=
  energy_at_most (V := fun name X Y v => Shows runs name X Y v) h.xPos h.yPos
    (by have := h.tiles; have := h.xTiles; omega) (by have := h.tiles; have := h.yTiles; omega)
    (fun d hd e he => ⟨(h.fit d hd).convex e he, (h.fit d hd).area e he⟩) (any_pixel h hr hsc) hpos v hv

/-- **C165** for files with boxes, footprints and flashes of any size, wherever they are: the flash (group) extent densities of
all pixels, times the area of a pixel, add up to no more than the extents of the flashes (groups) that count; with scaled
integers, but for one step in each pixel. -/
theorem C165_at_most (h : AnyBoxFiles env order nav kw xlo ylo dx dy M N s me mg files)
    (hr : gridGlmFlashes (lutGridder env) files kw shared = .ok (runs, sh)) (hsc : Scaled runs sc)
    {name : String} {step : Rat} {extents : (Row GVal → Rat) → Rat}
    (hname : (name, step, extents) ∈
      [("flash_extent_density", 1/16, flashExtents env.foot nav me mg files),
       ("group_extent_density", 1/4, groupExtents env.foot nav me mg files)])
    (v : Nat → Nat → Rat)
    (hv : ∀ m n, m < M → n < N → Shows runs name (xlo + (m + 1/2) * dx) (ylo + (n + 1/2) * dy) (v m n)) :
    (∀ m n, m < M → n < N → 0 ≤ v m n) ∧
    overBoxes M N v * (dx * dy) ≤ extents (fun _ => 1) + step * (M * N) * (dx * dy) ∧
    (sc = false → overBoxes M N v * (dx * dy) ≤ extents (fun _ => 1)) :=
  densities_at_most (V := fun name X Y v => Shows runs name X Y v) h.xPos h.yPos
    (by have := h.tiles; have := h.xTiles; omega) (by have := h.tiles; have := h.yTiles; omega)
    (fun d hd e he => ⟨(h.fit d hd).convex e he, (h.fit d hd).area e he⟩) (any_pixel h hr hsc) hname v hv

end

/-! ## Sample -/

/-- The flash next to the seam: its energy of two, and the energy of two outside of the domain. -/
example {runs : List (TileRun TileState ImageFile)} {sh : Dict} {v : Nat → Nat → Rat}
    (hr : gridGlmFlashes (lutGridder plainEnv) [seamPlain] largeBoxCall [] = .ok (runs, sh)) (hsc : Scaled runs false)
    (hv : ∀ m n : Nat, m < 4 → n < 2 →
      Shows runs "total_energy" (0 + ((m : Rat) + 1/2) * (1/200)) (0 + ((n : Rat) + 1/2) * (1/200)) (v m n)) :
    overBoxes 4 2 v ≤ recordedEnergy (some 1) none [seamPlain] :=
  (C134_any_size seamPlain_call hr hsc (by unfold EnergiesHold; decide +kernel) v hv).2.2 rfl

example {runs : List (TileRun TileState ImageFile)} {sh : Dict} {v : Nat → Nat → Rat}
    (hr : gridGlmFlashes (lutGridder plainEnv) [seamPlain] largeBoxCall [] = .ok (runs, sh)) (hsc : Scaled runs false)
    (hv : ∀ m n : Nat, m < 4 → n < 2 →
      Shows runs "flash_extent_density" (0 + ((m : Rat) + 1/2) * (1/200)) (0 + ((n : Rat) + 1/2) * (1/200)) (v m n)) :
    overBoxes 4 2 v * (1/200 * (1/200)) ≤ flashExtents plainEnv.foot sampleNav (some 1) none [seamPlain] (fun _ => 1) :=
  (C165_at_most seamPlain_call hr hsc (List.mem_cons_self ..) v hv).2.2 rfl

end Verif.Props
