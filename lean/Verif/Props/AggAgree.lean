import Verif.Props.Aggregate

/-!
C159: the aggregated fields agree with each other wherever the fields of the images do.
-/

namespace Verif.Props

open Verif.Py Verif.Model

/-- The fields of one image agree at a pixel: either none of them has a value, or all of them do, and
then there are flashes, at least as many groups as flashes, and the least area of a flash is positive and
not above the average area of a flash. -/
def AgreeAt (value : String → Pixel → Option Rat) (p : Pixel) : Prop :=
  (value "flash_extent_density" p = none ∧ value "group_extent_density" p = none ∧
    value "average_flash_area" p = none ∧ value "average_group_area" p = none ∧
    value "minimum_flash_area" p = none) ∨
  ∃ fed ged avg gavg least : Rat,
    value "flash_extent_density" p = some fed ∧ value "group_extent_density" p = some ged ∧
    value "average_flash_area" p = some avg ∧ value "average_group_area" p = some gavg ∧
    value "minimum_flash_area" p = some least ∧
    0 < fed ∧ fed ≤ ged ∧ 0 < least ∧ least ≤ avg

/-- No image of the interval has a value there. -/
def QuietIn (glm : TimeSeries) (lo hi : Int) (p : Pixel) : Prop :=
  ∀ f ∈ framesBetween glm.frames lo hi, f.value "flash_extent_density" p = none

/-- Sums of the pairs of values of images that agree. -/
theorem agree_sums (frames : List Frame) (p : Pixel) (h : ∀ f ∈ frames, AgreeAt f.value p) :
    let l := weighted frames "average_flash_area" "flash_extent_density" p
    total (frames.map fun f => f.value "flash_extent_density" p) = (l.map Prod.snd).sum ∧
    total (frames.map fun f => f.value "flash_extent_density" p) ≤
      total (frames.map fun f => f.value "group_extent_density" p) ∧
    (∀ q ∈ l, 0 < q.2 ∧ ∃ least ∈ frames.filterMap (fun f => f.value "minimum_flash_area" p),
      least ≤ q.1) ∧
    ((∃ f ∈ frames, f.value "flash_extent_density" p ≠ none) → l ≠ []) := by
  induction frames with
  | nil => exact ⟨rfl, le_refl _, fun q hq => by simp [weighted] at hq, by simp⟩
  | cons f rest ih =>
    obtain ⟨i1, i2, i3, i4⟩ := ih (fun g hg => h g (List.mem_cons_of_mem _ hg))
    rcases h f List.mem_cons_self with ⟨h1, h2, h3, -, h5⟩ |
      ⟨fed, ged, avg, gavg, least, h1, h2, h3, -, h5, p1, p2, p3, p4⟩
    · refine ⟨?_, ?_, ?_, ?_⟩
      · simpa [weighted, total, h1, h3] using i1
      · simpa [total, h1, h2] using i2
      · simpa [weighted, h1, h3, h5] using i3
      · rintro ⟨g, hg, hv⟩
        rcases List.mem_cons.mp hg with rfl | hg
        · exact absurd h1 hv
        · simpa [weighted, h1, h3] using i4 ⟨g, hg, hv⟩
    · refine ⟨?_, ?_, ?_, ?_⟩
      · simpa [weighted, total, h1, h3] using i1
      · simp only [total, List.map_cons, h1, h2, Option.getD_some, List.sum_cons] at i2 ⊢
        linarith
      · intro q hq
        simp only [weighted, List.filterMap_cons, h1, h3, List.mem_cons] at hq
        simp only [List.filterMap_cons, h5, List.mem_cons]
        rcases hq with rfl | hq
        · exact ⟨p1, least, .inl rfl, p4⟩
        · obtain ⟨a, m, hm, b⟩ := i3 q hq
          exact ⟨a, m, .inr hm, b⟩
      · intro _
        simp [weighted, h1, h3]

theorem sum_snd_pos (l : List (Rat × Rat)) (h : ∀ q ∈ l, 0 < q.2) (hne : l ≠ []) :
    0 < (l.map Prod.snd).sum := by
  induction l with
  | nil => exact absurd rfl hne
  | cons q l ih =>
    simp only [List.map_cons, List.sum_cons]
    have hq := h q List.mem_cons_self
    by_cases hl : l = []
    · subst hl; simpa using hq
    · exact add_pos hq (ih (fun r hr => h r (List.mem_cons_of_mem _ hr)) hl)

/-- A weighted sum is not below its weights times a lower bound. -/
theorem weighted_lower (l : List (Rat × Rat)) (lo : Rat) (h : ∀ q ∈ l, 0 < q.2 ∧ lo ≤ q.1) :
    lo * (l.map Prod.snd).sum ≤ (l.map fun q => q.1 * q.2).sum := by
  induction l with
  | nil => simp
  | cons q l ih =>
    have i1 := ih (fun r hr => h r (List.mem_cons_of_mem _ hr))
    obtain ⟨a, b⟩ := h q List.mem_cons_self
    simp only [List.map_cons, List.sum_cons]
    nlinarith [mul_le_mul_of_nonneg_right b a.le]

/-- A weighted sum is not above its weights times an upper bound. -/
theorem weighted_upper (l : List (Rat × Rat)) (hi : Rat) (h : ∀ q ∈ l, 0 < q.2 ∧ q.1 ≤ hi) :
    (l.map fun q => q.1 * q.2).sum ≤ hi * (l.map Prod.snd).sum := by
  induction l with
  | nil => simp
  | cons q l ih =>
    have i1 := ih (fun r hr => h r (List.mem_cons_of_mem _ hr))
    obtain ⟨a, b⟩ := h q List.mem_cons_self
    simp only [List.map_cons, List.sum_cons]
    nlinarith [mul_le_mul_of_nonneg_right b a.le]

/-- A weighted mean lies between every lower and every upper bound of its values. -/
theorem weightedMean_between {l : List (Rat × Rat)} {m lo hi : Rat} (hm : IsWeightedMean l m)
    (hne : l ≠ []) (h : ∀ q ∈ l, 0 < q.2 ∧ lo ≤ q.1 ∧ q.1 ≤ hi) : lo ≤ m ∧ m ≤ hi := by
  have hs := sum_snd_pos l (fun q hq => (h q hq).1) hne
  have a := weighted_lower l lo fun q hq => ⟨(h q hq).1, (h q hq).2.1⟩
  have b := weighted_upper l hi fun q hq => ⟨(h q hq).1, (h q hq).2.2⟩
  unfold IsWeightedMean at hm
  rw [← hm] at a b
  exact ⟨le_of_mul_le_mul_right a hs, le_of_mul_le_mul_right b hs⟩

/-- The images of an interval agree if all images do. -/
theorem agree_inside {glm : TimeSeries} {p : Pixel} (hag : ∀ f ∈ glm.frames, AgreeAt f.value p)
    (lo hi : Int) : ∀ f ∈ framesBetween glm.frames lo hi, AgreeAt f.value p :=
  fun f hf => hag f (List.mem_filter.mp hf).1

theorem agree_same {frames : List Frame} {p : Pixel} (hag : ∀ f ∈ frames, AgreeAt f.value p)
    (f : Frame) (hf : f ∈ frames) :
    f.value "average_flash_area" p = none ↔ f.value "flash_extent_density" p = none := by
  rcases hag f hf with ⟨h1, -, h3, -, -⟩ | ⟨fed, ged, avg, gavg, least, h1, -, h3, -⟩
  · simp [h1, h3]
  · simp [h1, h3]

/-- The sums of an interval of a successful call. -/
theorem bin_sum {glm : TimeSeries} {minutes : Nat} {startEnd : Option (Int × Int)}
    {out : Aggregated} (h : aggregate glm minutes startEnd = .ok out) {b : AggBin}
    (hb : b ∈ out.bins) (name : String) (hname : name ∈ additiveFields) (p : Pixel) :
    b.value name p =
      if (framesBetween glm.frames b.left b.right).isEmpty then none
      else some (total ((framesBetween glm.frames b.left b.right).map fun f => f.value name p)) := by
  obtain ⟨start, stop, -, -, -, -, -, hbins, -⟩ := aggregate_ok h
  rw [hbins] at hb
  obtain ⟨k, -, rfl⟩ := List.mem_map.mp hb
  exact aggregateBin_sum _ _ _ hname p

/-- C159, pixels with lightning: if the fields of the images agree at a pixel, and at least one image of
the interval has a value there, then all aggregated fields have a value there and agree. -/
theorem C159_agree (glm : TimeSeries) (minutes : Nat) (startEnd : Option (Int × Int))
    (out : Aggregated) (h : aggregate glm minutes startEnd = .ok out) (p : Pixel)
    (hag : ∀ f ∈ glm.frames, AgreeAt f.value p) (b : AggBin) (hb : b ∈ out.bins)
    (hloud : ¬ QuietIn glm b.left b.right p) :
    ∃ fed ged avg gavg least : Rat,
      b.value "flash_extent_density" p = some fed ∧ b.value "group_extent_density" p = some ged ∧
      b.value "average_flash_area" p = some avg ∧ b.value "average_group_area" p = some gavg ∧
      b.value "minimum_flash_area" p = some least ∧
      0 < fed ∧ fed ≤ ged ∧ 0 < least ∧ least ≤ avg := by
  have hin := agree_inside hag b.left b.right
  have h1 := bin_sum h hb "flash_extent_density" (by simp [additiveFields]) p
  have h2 := bin_sum h hb "group_extent_density" (by simp [additiveFields]) p
  obtain ⟨h3, h4⟩ := bin_average h hb p
  obtain ⟨-, h5⟩ := C74_minimum glm minutes startEnd out h b hb p
  obtain ⟨e1, e2⟩ := sum_of_weighted _ _ _ p (agree_same hin)
  unfold QuietIn at hloud
  push Not at hloud
  generalize framesBetween glm.frames b.left b.right = inside at *
  obtain ⟨s1, s2, s3, s4⟩ := agree_sums inside p hin
  have hl := s4 hloud
  obtain ⟨g, hg, hgv⟩ := hloud
  have hne : inside ≠ [] := List.ne_nil_of_mem hg
  have hpos := sum_snd_pos _ (fun q hq => (s3 q hq).1) hl
  have hfed : 0 < total (inside.map fun f => f.value "flash_extent_density" p) := by rw [s1]; exact hpos
  have hged := lt_of_lt_of_le hfed s2
  have hpres : inside.filterMap (fun f => f.value "minimum_flash_area" p) ≠ [] := by
    obtain ⟨q, hq⟩ := List.exists_mem_of_ne_nil _ hl
    obtain ⟨-, m, hm, -⟩ := s3 q hq
    exact List.ne_nil_of_mem hm
  obtain ⟨m, hm, hleast⟩ := h5 hpres
  rw [e1, e2] at h3
  have hgroups : ¬ (inside = [] ∨ nanSum (inside.map fun f => f.value "group_extent_density" p) = 0) := by
    rintro (hc | hc)
    · exact hne hc
    · exact absurd hc (ne_of_gt hged)
  rw [if_neg hgroups] at h4
  rw [if_neg (by simp [hne, hpos.ne'])] at h3
  have hem : inside.isEmpty = false := by simpa using hne
  rw [hem] at h1 h2
  refine ⟨_, _, _, _, m, h1, h2, h3, h4, hm, hfed, s2, ?_, ?_⟩
  · obtain ⟨f, hf, hv⟩ := List.mem_filterMap.mp hleast.1
    rcases hin f hf with ⟨-, -, -, -, h5'⟩ | ⟨_, _, _, _, l', -, -, -, -, h5', -, -, hp, -⟩
    · rw [h5'] at hv; cases hv
    · rw [h5'] at hv; cases hv; exact hp
  · rw [le_div_iff₀ hpos]
    refine weighted_lower _ m ?_
    intro q hq
    obtain ⟨a, m', hm', hle⟩ := s3 q hq
    exact ⟨a, le_trans (hleast.2 _ hm') hle⟩

/-- C159, pixels without lightning: no average and no least area is reported where no image of the
interval has a value, and the densities are reported as zero unless the interval has no images. -/
theorem C159_quiet (glm : TimeSeries) (minutes : Nat) (startEnd : Option (Int × Int))
    (out : Aggregated) (h : aggregate glm minutes startEnd = .ok out) (p : Pixel)
    (hag : ∀ f ∈ glm.frames, AgreeAt f.value p) (b : AggBin) (hb : b ∈ out.bins)
    (hquiet : QuietIn glm b.left b.right p) :
    b.value "average_flash_area" p = none ∧ b.value "average_group_area" p = none ∧
    b.value "minimum_flash_area" p = none ∧
    ∀ name ∈ ["flash_extent_density", "group_extent_density"],
      b.value name p =
        if framesBetween glm.frames b.left b.right = [] then none else some 0 := by
  have hin := agree_inside hag b.left b.right
  have h1 := bin_sum h hb "flash_extent_density" (by simp [additiveFields]) p
  have h2 := bin_sum h hb "group_extent_density" (by simp [additiveFields]) p
  obtain ⟨h3, h4⟩ := bin_average h hb p
  obtain ⟨h5, -⟩ := C74_minimum glm minutes startEnd out h b hb p
  unfold QuietIn at hquiet
  generalize framesBetween glm.frames b.left b.right = inside at *
  have hall : ∀ f ∈ inside, f.value "flash_extent_density" p = none ∧
      f.value "group_extent_density" p = none ∧ f.value "minimum_flash_area" p = none := by
    intro f hf
    rcases hin f hf with ⟨a, b', -, -, c⟩ | ⟨_, _, _, _, _, a, -⟩
    · exact ⟨a, b', c⟩
    · rw [hquiet f hf] at a; cases a
  have z1 : total (inside.map fun f => f.value "flash_extent_density" p) = 0 := by
    unfold total
    refine List.sum_eq_zero ?_
    intro x hx
    simp only [List.map_map, List.mem_map, Function.comp] at hx
    obtain ⟨f, hf, rfl⟩ := hx
    rw [(hall f hf).1]; rfl
  have z2 : total (inside.map fun f => f.value "group_extent_density" p) = 0 := by
    unfold total
    refine List.sum_eq_zero ?_
    intro x hx
    simp only [List.map_map, List.mem_map, Function.comp] at hx
    obtain ⟨f, hf, rfl⟩ := hx
    rw [(hall f hf).2.1]; rfl
  have hp : inside.filterMap (fun f => f.value "minimum_flash_area" p) = [] := by
    rw [List.filterMap_eq_nil_iff]
    exact fun f hf => (hall f hf).2.2
  refine ⟨?_, ?_, h5 hp, ?_⟩
  · rw [h3, if_pos (.inr z1)]
  · rw [h4, if_pos (.inr z2)]
  · intro name hn
    simp only [List.mem_cons, List.not_mem_nil, or_false] at hn
    rcases hn with rfl | rfl
    · rw [h1, z1]; cases inside <;> simp
    · rw [h2, z2]; cases inside <;> simp

/-- C159, the range of the averages: where the fields of the images agree, the average area of a flash
over an interval lies between the least and the greatest of the averages of its images. -/
theorem C159_range (glm : TimeSeries) (minutes : Nat) (startEnd : Option (Int × Int))
    (out : Aggregated) (h : aggregate glm minutes startEnd = .ok out) (p : Pixel)
    (hag : ∀ f ∈ glm.frames, AgreeAt f.value p) (b : AggBin) (hb : b ∈ out.bins) (avg : Rat)
    (havg : b.value "average_flash_area" p = some avg) :
    ∃ f ∈ framesBetween glm.frames b.left b.right, ∃ g ∈ framesBetween glm.frames b.left b.right,
    ∃ lo hi : Rat, f.value "average_flash_area" p = some lo ∧
      g.value "average_flash_area" p = some hi ∧ lo ≤ avg ∧ avg ≤ hi := by
  have hin := agree_inside hag b.left b.right
  by_cases hq : QuietIn glm b.left b.right p
  · rw [(C159_quiet glm minutes startEnd out h p hag b hb hq).1] at havg; cases havg
  have hsame : ∀ f ∈ framesBetween glm.frames b.left b.right,
      f.value "average_flash_area" p = none ↔ f.value "flash_extent_density" p = none := agree_same hin
  obtain ⟨e1, e2⟩ := sum_of_weighted _ _ _ p hsame
  obtain ⟨h3, -⟩ := bin_average h hb p
  rw [havg, e1, e2] at h3
  unfold QuietIn at hq
  push Not at hq
  generalize framesBetween glm.frames b.left b.right = inside at *
  obtain ⟨s1, s2, s3, s4⟩ := agree_sums inside p hin
  have hl := s4 hq
  have hpos := sum_snd_pos _ (fun q hq => (s3 q hq).1) hl
  obtain ⟨g0, hg0, -⟩ := hq
  rw [if_neg (by simp [List.ne_nil_of_mem hg0, hpos.ne'])] at h3
  cases h3
  generalize hw : weighted inside "average_flash_area" "flash_extent_density" p = l at *
  have hof : ∀ q ∈ l, ∃ f ∈ inside, f.value "average_flash_area" p = some q.1 := by
    intro q hq
    rw [← hw] at hq
    obtain ⟨f, hf, hv⟩ := List.mem_filterMap.mp hq
    refine ⟨f, hf, ?_⟩
    cases hx : f.value "average_flash_area" p with
    | none => rw [hx] at hv; cases hv
    | some v =>
      cases hy : f.value "flash_extent_density" p with
      | none => rw [hx, hy] at hv; cases hv
      | some w => rw [hx, hy] at hv; cases hv; rfl
  cases l with
  | nil => exact absurd rfl hl
  | cons q0 rest =>
    obtain ⟨hm1, hm2⟩ := foldl_min_isMin (rest.map Prod.fst) q0.1
    obtain ⟨hM1, hM2⟩ := foldl_max_isMax (rest.map Prod.fst) q0.1
    have hfst : ∀ x ∈ q0.1 :: rest.map Prod.fst, ∃ f ∈ inside,
        f.value "average_flash_area" p = some x := by
      intro x hx
      rw [← List.map_cons (f := Prod.fst)] at hx
      obtain ⟨q, hq, rfl⟩ := List.mem_map.mp hx
      exact hof q hq
    obtain ⟨f, hf, hfv⟩ := hfst _ hm1
    obtain ⟨g, hg, hgv⟩ := hfst _ hM1
    refine ⟨f, hf, g, hg, _, _, hfv, hgv, ?_⟩
    refine weightedMean_between (div_mul_cancel₀ _ hpos.ne') hl ?_
    intro q hq
    have hq1 : q.1 ∈ q0.1 :: rest.map Prod.fst := by
      rw [← List.map_cons (f := Prod.fst)]; exact List.mem_map_of_mem hq
    exact ⟨(s3 q hq).1, hm2 _ hq1, hM2 _ hq1⟩

/-- C159 for the average area of a group. -/
def C159_full : Prop :=
  ∀ (glm : TimeSeries) (minutes : Nat) (startEnd : Option (Int × Int)) (out : Aggregated),
  aggregate glm minutes startEnd = .ok out → ∀ p, (∀ f ∈ glm.frames, AgreeAt f.value p) →
  ∀ b ∈ out.bins, ∀ field ∈ ["average_flash_area", "average_group_area"], ∀ avg : Rat,
  b.value field p = some avg →
  ∃ f ∈ framesBetween glm.frames b.left b.right, ∃ g ∈ framesBetween glm.frames b.left b.right,
  ∃ lo hi : Rat, f.value field p = some lo ∧ g.value field p = some hi ∧ lo ≤ avg ∧ avg ≤ hi

/-- The images of the sample agree at every pixel. -/
theorem sample_agree (p : Pixel) : ∀ f ∈ (sampleSeries 100 5 20 8).frames, AgreeAt f.value p := by
  intro f hf
  simp only [sampleSeries, List.mem_map, List.mem_cons, List.not_mem_nil, or_false] at hf
  by_cases hp : p = (0, 0)
  · refine .inr ?_
    obtain ⟨i, rfl | rfl | rfl, rfl⟩ := hf
    · exact ⟨5, 8, 100, 20, 70, by simp [hp], by simp [hp], by simp [hp], by simp [hp], by simp [hp],
        by norm_num, by norm_num, by norm_num, by norm_num⟩
    · exact ⟨5, 8, 200, 20, 69, by simp [hp], by simp [hp], by simp [hp]; norm_num, by simp [hp],
        by simp [hp]; norm_num, by norm_num, by norm_num, by norm_num, by norm_num⟩
    · exact ⟨5, 8, 300, 20, 68, by simp [hp], by simp [hp], by simp [hp]; norm_num, by simp [hp],
        by simp [hp]; norm_num, by norm_num, by norm_num, by norm_num, by norm_num⟩
  · refine .inl ?_
    obtain ⟨i, -, rfl⟩ := hf
    simp [hp]

/-- The second interval of the sample, at the pixel with lightning. -/
theorem sample_second : ∃ out, aggregate (sampleSeries 100 5 20 8) 2
    (some (-60000000000, 180000000000)) = .ok out ∧ ∃ b ∈ out.bins, b.left = 60000000000 ∧
    b.right = 180000000000 ∧ b.value "average_group_area" (0, 0) = some (1500 / 8) := by
  have hv : (aggregate (sampleSeries 100 5 20 8) 2
      (some (-60000000000, 180000000000))).toOption.map
      (fun o => o.bins.map fun b => (b.left, b.right, b.value "average_group_area" (0, 0))) =
      some [(-60000000000, 60000000000, some (1500 / 16)),
        (60000000000, 180000000000, some (1500 / 8))] := by decide +kernel
  cases ho : aggregate (sampleSeries 100 5 20 8) 2 (some (-60000000000, 180000000000)) with
  | error e => rw [ho] at hv; cases hv
  | ok out =>
    rw [ho] at hv
    simp only [Except.toOption, Option.map_some, Option.some.injEq] at hv
    have hm : ((60000000000 : Int), (180000000000 : Int), some (1500 / 8 : Rat)) ∈
        out.bins.map fun b => (b.left, b.right, b.value "average_group_area" (0, 0)) := by
      rw [hv]; simp
    obtain ⟨b, hb, he⟩ := List.mem_map.mp hm
    simp only [Prod.mk.injEq] at he
    exact ⟨out, rfl, b, hb, he.1, he.2.1, he.2.2⟩

/-- C159 is violated for groups: all groups have 20 square kilometres, their average over an interval is
187.5. -/
theorem C159_full_false : ¬ C159_full := by
  intro h
  obtain ⟨out, ho, b, hb, hl, hr, hv⟩ := sample_second
  obtain ⟨f, hf, g, hg, lo, hi, -, hgv, -, hle⟩ :=
    h _ _ _ out ho (0, 0) (sample_agree _) b hb "average_group_area" (by simp) _ hv
  have hg' := (List.mem_filter.mp hg).1
  simp only [sampleSeries, List.mem_map] at hg'
  obtain ⟨i, -, rfl⟩ := hg'
  simp at hgv
  subst hgv
  norm_num at hle

/-- An interval of the sample that has lightning. -/
example : ¬ QuietIn (sampleSeries 100 5 20 8) 60000000000 180000000000 (0, 0) := by
  intro h
  have := h { time := 120000000000, value := _ } (List.mem_filter.mpr
    ⟨List.mem_map.mpr ⟨2, by simp, rfl⟩, by decide⟩)
  simp at this

/-- The same interval has none at another pixel. -/
example : QuietIn (sampleSeries 100 5 20 8) 60000000000 180000000000 (1, 1) := by
  intro f hf
  have := (List.mem_filter.mp hf).1
  simp only [sampleSeries, List.mem_map] at this
  obtain ⟨i, -, rfl⟩ := this
  simp

end Verif.Props
