import Verif.Props.Whole
import Verif.Props.Bounds

/-!
# C139 to C141: relations between the images of calls

Consequences of C137 for the values that a user finds at a place: they do not depend on how the domain is cut, extended or
numbered (C139), they add up over files (C140), and the energy in all images of a call is the energy of the data (C141).
-/

namespace Verif.Props

open Verif.Py Verif.Model Verif.Spec Verif.Proofs

/-- A call as in C137: what is asked for, and what is assumed of the clipper, the table of footprints and the files. -/
structure GoodCall (env : Surroundings) (kw : Dict) (xlo ylo dx dy : Rat) (M N s : Nat) (me mg : Option Int)
    (files opened : List GFile) : Prop where
  asked : FixedGridAsked kw xlo ylo dx dy M N s me mg
  xPos : 0 < dx
  yPos : 0 < dy
  tiles : 0 < s
  xTiles : 2 * s ≤ M
  yTiles : s ≤ N
  xPad : 2 * dx ≤ 28 / 10000
  yPad : 2 * dy ≤ 28 / 10000
  edges : MakesEdges env.edges
  parts : ∀ p q s, s ∈ env.clip p q → s ≠ []
  beside : ∀ x y p i j, Beside x y p i j → env.clip p (cellRect x y j i) = []
  order : ∀ l, (env.order l).Perm l
  opens : ∀ rev, kw.get "ellipse_rev" = .ok rev → List.Forall₂ (fun f d => env.openFile rev f = .ok d) files opened
  some : ∃ d ∈ opened, d.events ≠ []
  compact : ∀ d ∈ opened, d.events ≠ [] →
    CompactFile env.foot env.loc dx dy (padBoxes (28 / 10000) dx * dx) (padBoxes (28 / 10000) dy * dy) d
  centred : ∀ d ∈ opened, ∀ e ∈ d.events, CentredAt env.clip env.foot dx dy (placeOf e)

/-- One of the files that a call wrote shows the value `v` in the field `name`, in the pixel with its centre at `X`, `Y`. -/
def Shows (runs : List (TileRun TileState ImageFile)) (name : String) (X Y v : Rat) : Prop :=
  ∃ r ∈ runs, ∃ nf ∈ r.written, ∃ row col img, nf.2.x[col]? = some X ∧ nf.2.y[row]? = some Y ∧
    (name, img) ∈ nf.2.fields ∧ img.val row col = v

/-- All images of a call are written with scaled integers, or none of them. -/
def Scaled (runs : List (TileRun TileState ImageFile)) (sc : Bool) : Prop := ∀ r ∈ runs, (r.scale != .bool false) = sc

section
variable {env : Surroundings} {kw shared sh : Dict} {xlo ylo dx dy : Rat} {M N s : Nat} {me mg : Option Int}
  {files opened : List GFile} {runs : List (TileRun TileState ImageFile)} {sc : Bool}

theorem GoodCall.works (h : GoodCall env kw xlo ylo dx dy M N s me mg files opened)
    (hr : gridGlmFlashes (lutGridder env) files kw shared = .ok (runs, sh)) :
    (∀ r ∈ runs, ∃ f, r.written = [(f.name, f)] ∧
      ImageShows env.clip env.foot me mg opened dx dy (r.scale != .bool false) env.frame
        (boxCentres xlo dx (tileStart M s r.ij.1) (tileStart M s (r.ij.1 + 1)))
        (boxCentres ylo dy (tileStart N s r.ij.2) (tileStart N s (r.ij.2 + 1))) f) ∧
    ∀ m n, m < M → n < N → ∃ r ∈ runs, ∃ f, r.written = [(f.name, f)] ∧ xlo + (m + 1/2) * dx ∈ f.x ∧
      ylo + (n + 1/2) * dy ∈ f.y := by
  obtain ⟨runs', sh', h1, -, h3, h4⟩ := C137_end_to_end env kw shared xlo ylo dx dy M N s me mg files opened h.asked h.xPos
    h.yPos h.tiles h.xTiles h.yTiles h.xPad h.yPad h.edges h.parts h.beside h.order h.opens h.some h.compact h.centred
  rw [hr] at h1
  simp only [Except.ok.injEq, Prod.mk.injEq] at h1
  obtain ⟨rfl, -⟩ := h1
  exact ⟨h3, h4⟩

theorem shown_names (sc : Bool) (fed fa te ged ga mfa : Rat) {name : String} (h : name ∈ sixNames) :
    ∃ v, (name, v) ∈ shown sc fed fa te ged ga mfa := by
  unfold sixNames at h
  unfold shown
  simp only [List.mem_cons, List.not_mem_nil, or_false] at h
  simp only [List.mem_cons, Prod.mk.injEq, List.not_mem_nil, or_false]
  rcases h with rfl | rfl | rfl | rfl | rfl | rfl <;> simp

/-- What is shown at a place. -/
theorem GoodCall.pixel (h : GoodCall env kw xlo ylo dx dy M N s me mg files opened)
    (hr : gridGlmFlashes (lutGridder env) files kw shared = .ok (runs, sh)) {X Y : Rat} :
    (∃ name v, Shows runs name X Y v) → ∃ fed fa te ged ga mfa,
      PixelHolds env.clip env.foot me mg opened dx dy X Y fed fa te ged ga mfa := by
  rintro ⟨name, v, r, hrr, nf, hnf, row, col, img, hx, hy, -, -⟩
  obtain ⟨f, hf, hs⟩ := (h.works hr).1 r hrr
  rw [hf, List.mem_singleton] at hnf
  subst hnf
  obtain ⟨fed, fa, te, ged, ga, mfa, hp, -⟩ := hs.pixels row col X Y hx hy
  exact ⟨fed, fa, te, ged, ga, mfa, hp⟩

/-- What should be in a pixel is determined by the data and its place. -/
theorem pixelHolds_unique {clip : Poly → Poly → List Poly} {foot : Pt → Poly} {files files' : List GFile} {X Y : Rat}
    {fed fa te ged ga mfa fed' fa' te' ged' ga' mfa' : Rat} (hp : files'.Perm files)
    (h : PixelHolds clip foot me mg files dx dy X Y fed fa te ged ga mfa)
    (h' : PixelHolds clip foot me mg files' dx dy X Y fed' fa' te' ged' ga' mfa') :
    fed' = fed ∧ fa' = fa ∧ te' = te ∧ ged' = ged ∧ ga' = ga ∧ mfa' = mfa := by
  refine ⟨?_, ?_, ?_, ?_, ?_, leastOrZero_unique (hp.flatMap_right _) h'.least h.least⟩
  · rw [h.flashes, h'.flashes]; exact (hp.map _).sum_eq
  · rw [h.flashArea, h'.flashArea]; exact (hp.map _).sum_eq
  · rw [h.energy, h'.energy]; exact (hp.map _).sum_eq
  · rw [h.groups, h'.groups]; exact (hp.map _).sum_eq
  · rw [h.groupArea, h'.groupArea]; exact (hp.map _).sum_eq

theorem GoodCall.value (h : GoodCall env kw xlo ylo dx dy M N s me mg files opened)
    (hr : gridGlmFlashes (lutGridder env) files kw shared = .ok (runs, sh)) (hsc : Scaled runs sc) {X Y : Rat}
    {fed fa te ged ga mfa : Rat} (hp : PixelHolds env.clip env.foot me mg opened dx dy X Y fed fa te ged ga mfa)
    {name : String} {v : Rat} (hn : name ∈ sixNames) (hv : Shows runs name X Y v) :
    (name, v) ∈ shown sc fed fa te ged ga mfa := by
  obtain ⟨r, hrr, nf, hnf, row, col, img, hx, hy, hi, rfl⟩ := hv
  obtain ⟨f, hf, hs⟩ := (h.works hr).1 r hrr
  rw [hf, List.mem_singleton] at hnf
  subst hnf
  obtain ⟨fed', fa', te', ged', ga', mfa', hp', hall⟩ := hs.pixels row col X Y hx hy
  obtain ⟨rfl, rfl, rfl, rfl, rfl, rfl⟩ := pixelHolds_unique (List.Perm.refl _) hp hp'
  rw [hsc r hrr] at hall
  obtain ⟨v, hv⟩ := shown_names sc fed' fa' te' ged' ga' mfa' hn
  rw [hall name img v hi hv]
  exact hv

theorem shown_unique {sc : Bool} {fed fa te ged ga mfa v v' : Rat} {name : String}
    (h : (name, v) ∈ shown sc fed fa te ged ga mfa) (h' : (name, v') ∈ shown sc fed fa te ged ga mfa) : v = v' := by
  have nodup : ((shown sc fed fa te ged ga mfa).map Prod.fst).Nodup := by
    unfold shown
    simp only [List.map_cons, List.map_nil]
    decide
  have := List.inj_on_of_nodup_map nodup h h' rfl
  exact congrArg Prod.snd this

/-- Every box of the domain has a value in every one of the fields. -/
theorem GoodCall.shows (h : GoodCall env kw xlo ylo dx dy M N s me mg files opened)
    (hr : gridGlmFlashes (lutGridder env) files kw shared = .ok (runs, sh)) {m n : Nat} (hm : m < M) (hn : n < N)
    {name : String} (hname : name ∈ sixNames) : ∃ v, Shows runs name (xlo + (m + 1/2) * dx) (ylo + (n + 1/2) * dy) v := by
  obtain ⟨r, hrr, f, hf, hx, hy⟩ := (h.works hr).2 m n hm hn
  obtain ⟨f', hf', hs⟩ := (h.works hr).1 r hrr
  rw [hf] at hf'
  simp only [List.cons.injEq, Prod.mk.injEq, and_true] at hf'
  obtain ⟨-, rfl⟩ := hf'
  obtain ⟨col, hcol⟩ := List.mem_iff_getElem?.mp hx
  obtain ⟨row, hrow⟩ := List.mem_iff_getElem?.mp hy
  have hmem : name ∈ f.fields.map Prod.fst := by
    rw [hs.names]
    unfold sixNames at hname
    unfold eightNames
    simp only [List.mem_cons, List.not_mem_nil, or_false] at hname
    rcases hname with rfl | rfl | rfl | rfl | rfl | rfl <;> simp
  obtain ⟨⟨_, img⟩, hi, rfl⟩ := List.mem_map.mp hmem
  exact ⟨_, r, hrr, _, by rw [hf]; exact List.mem_singleton_self _, row, col, img, hcol, hrow, hi, rfl⟩

/-- **C139**.  Two calls for the same data, thresholds and size of boxes.  The domains, the number of tiles, the order of the
files, the order of sets, the hash of places, the padding and the search for neighbours may differ.  In every pixel that both
have written they show the same values. -/
theorem C139_same_pixels {env' : Surroundings} {kw' shared' sh' : Dict} {xlo' ylo' : Rat} {M' N' s' : Nat}
    {files' opened' : List GFile} {runs' : List (TileRun TileState ImageFile)}
    (h : GoodCall env kw xlo ylo dx dy M N s me mg files opened)
    (h' : GoodCall env' kw' xlo' ylo' dx dy M' N' s' me mg files' opened')
    (hclip : env'.clip = env.clip) (hfoot : env'.foot = env.foot) (hsame : opened'.Perm opened)
    (hr : gridGlmFlashes (lutGridder env) files kw shared = .ok (runs, sh))
    (hr' : gridGlmFlashes (lutGridder env') files' kw' shared' = .ok (runs', sh'))
    (hsc : Scaled runs sc) (hsc' : Scaled runs' sc) (name : String) (hname : name ∈ sixNames) (X Y v v' : Rat)
    (hv : Shows runs name X Y v) (hv' : Shows runs' name X Y v') : v' = v := by
  obtain ⟨fed, fa, te, ged, ga, mfa, hp⟩ := h.pixel hr ⟨name, v, hv⟩
  obtain ⟨fed', fa', te', ged', ga', mfa', hp'⟩ := h'.pixel hr' ⟨name, v', hv'⟩
  have k := h.value hr hsc hp hname hv
  have k' := h'.value hr' hsc' hp' hname hv'
  rw [hclip, hfoot] at hp'
  obtain ⟨rfl, rfl, rfl, rfl, rfl, rfl⟩ := pixelHolds_unique hsame hp hp'
  exact shown_unique k' k

/-- C139 for one call: every box of the domain has exactly one value in each of the fields. -/
theorem C139_one_value (h : GoodCall env kw xlo ylo dx dy M N s me mg files opened)
    (hr : gridGlmFlashes (lutGridder env) files kw shared = .ok (runs, sh)) (hsc : Scaled runs sc) (m n : Nat) (hm : m < M)
    (hn : n < N) (name : String) (hname : name ∈ sixNames) :
    ∃! v, Shows runs name (xlo + (m + 1/2) * dx) (ylo + (n + 1/2) * dy) v := by
  obtain ⟨v, hv⟩ := h.shows hr hm hn hname
  exact ⟨v, hv, fun v' hv' => C139_same_pixels h h rfl rfl (List.Perm.refl _) hr hr hsc hsc name hname _ _ v v' hv hv'⟩

end

/-! ## Files together and apart -/

theorem atLeastStep_bounds (sc : Bool) {step v : Rat} (hs : 0 < step) :
    v ≤ atLeastStep sc step v ∧ atLeastStep sc step v ≤ v + step := by
  unfold atLeastStep
  split
  · rename_i h
    exact ⟨h.2.2.le, by linarith [h.2.1]⟩
  · exact ⟨le_refl _, by linarith⟩

theorem atLeastStep_zero (sc : Bool) (step : Rat) : atLeastStep sc step 0 = 0 := by
  unfold atLeastStep
  rw [if_neg fun h => lt_irrefl _ h.2.1]

theorem atLeastStep_false (step v : Rat) : atLeastStep false step v = v := by
  unfold atLeastStep
  rw [if_neg fun h => nomatch h.1]

theorem atLeastStep_pos {step v : Rat} (h : 0 < v) : atLeastStep true step v = max v step := by
  unfold atLeastStep
  by_cases hv : v < step
  · rw [if_pos ⟨rfl, h, hv⟩, max_eq_right hv.le]
  · rw [if_neg fun h => hv h.2.2, max_eq_left (not_lt.mp hv)]

theorem atLeastStep_add (sc : Bool) {step a b : Rat} (hs : 0 < step) (ha : 0 ≤ a) (hb : 0 ≤ b) :
    atLeastStep sc step (a + b) ≤ atLeastStep sc step a + atLeastStep sc step b ∧
    atLeastStep sc step a + atLeastStep sc step b ≤ atLeastStep sc step (a + b) + step := by
  cases sc with
  | false => simp only [atLeastStep_false]; exact ⟨le_refl _, by linarith⟩
  | true =>
    rcases eq_or_lt_of_le ha with rfl | ha'
    · rw [zero_add, atLeastStep_zero, zero_add]
      exact ⟨le_refl _, by linarith⟩
    rcases eq_or_lt_of_le hb with rfl | hb'
    · rw [add_zero, atLeastStep_zero, add_zero]
      exact ⟨le_refl _, by linarith⟩
    rw [atLeastStep_pos ha', atLeastStep_pos hb', atLeastStep_pos (by linarith)]
    have h1 := le_max_left (a + b) step
    have h2 := le_max_right (a + b) step
    constructor
    · exact max_le (add_le_add (le_max_left _ _) (le_max_left _ _)) (by linarith [le_max_right a step, le_max_right b step])
    · rcases le_total a step with h | h <;> rcases le_total b step with h' | h' <;>
        simp only [max_eq_left, max_eq_right, h, h'] <;> linarith

/-- The least of two minima that are zero where there is nothing. -/
def leastOf (a b : Rat) : Rat := if a = 0 then b else if b = 0 then a else min a b

theorem atLeastStep_least (sc : Bool) {step a b : Rat} (ha : 0 ≤ a) (hb : 0 ≤ b) :
    atLeastStep sc step (leastOf a b) = leastOf (atLeastStep sc step a) (atLeastStep sc step b) := by
  cases sc with
  | false => simp only [atLeastStep_false]
  | true =>
    rcases eq_or_lt_of_le ha with rfl | ha'
    · unfold leastOf
      rw [atLeastStep_zero, if_pos rfl, if_pos rfl]
    rcases eq_or_lt_of_le hb with rfl | hb'
    · unfold leastOf
      rw [atLeastStep_zero, if_neg ha'.ne', if_pos rfl, atLeastStep_pos ha', if_neg (by positivity), if_pos rfl]
    unfold leastOf
    rw [if_neg ha'.ne', if_neg hb'.ne', atLeastStep_pos ha', atLeastStep_pos hb', if_neg (by positivity),
      if_neg (by positivity), atLeastStep_pos (lt_min ha' hb'), max_min_distrib_right]

theorem leastOrZero_append {l l' : List Rat} {a b v : Rat} (hl : ∀ u ∈ l, 0 < u) (hl' : ∀ u ∈ l', 0 < u)
    (ha : LeastOrZero l a) (hb : LeastOrZero l' b) (hv : LeastOrZero (l ++ l') v) : v = leastOf a b := by
  by_cases h : l = []
  · subst h
    rw [List.nil_append] at hv
    unfold leastOf
    rw [if_pos (ha.1 rfl), leastOrZero_unique (List.Perm.refl _) hv hb]
  · have hap := hl _ (ha.2 h).1
    by_cases h' : l' = []
    · subst h'
      rw [List.append_nil] at hv
      unfold leastOf
      rw [if_neg hap.ne', if_pos (hb.1 rfl), leastOrZero_unique (List.Perm.refl _) hv ha]
    · have hbp := hl' _ (hb.2 h').1
      unfold leastOf
      rw [if_neg hap.ne', if_neg hbp.ne']
      obtain ⟨hm, hle⟩ := hv.2 (by simp [h])
      refine le_antisymm (le_min (hle a (List.mem_append_left _ (ha.2 h).1)) (hle b (List.mem_append_right _ (hb.2 h').1))) ?_
      rcases List.mem_append.mp hm with hm | hm
      · exact (min_le_left _ _).trans ((ha.2 h).2 v hm)
      · exact (min_le_right _ _).trans ((hb.2 h').2 v hm)

theorem partArea_nonneg (clip : Poly → Poly → List Poly) (p cell : Poly) : 0 ≤ partArea clip p cell := by
  unfold partArea
  apply sum_nonneg_map
  intro s _
  exact abs_nonneg _

section
variable {clip : Poly → Poly → List Poly} {foot : Pt → Poly} {me mg : Option Int} {files : List GFile} {dx dy X Y : Rat}
  {fed fa te ged ga mfa : Rat}

/-- Densities are not negative, and without density there is no area. -/
theorem PixelHolds.nonneg (h : PixelHolds clip foot me mg files dx dy X Y fed fa te ged ga mfa) (hdx : 0 < dx) (hdy : 0 < dy) :
    0 ≤ fed ∧ 0 ≤ ged ∧ (fed = 0 → fa = 0) ∧ (ged = 0 → ga = 0) := by
  have part : ∀ p, 0 ≤ partArea clip (foot p) (pixelAt dx dy X Y) / (dx * dy) := fun p =>
    div_nonneg (partArea_nonneg _ _ _) (mul_pos hdx hdy).le
  have zero : ∀ {α : Type} {l : List α} {w : α → Rat}, (∀ a ∈ l, 0 ≤ w a) → (l.map w).sum = 0 → ∀ a ∈ l, w a = 0 := by
    intro α l w hw h0
    have := (kept_equal (l := l) (f := fun _ => 0) (g := w) hw).2.mp (by rw [h0]; simp)
    exact fun a ha => (this a ha).symm
  refine ⟨?_, ?_, fun h0 => ?_, fun h0 => ?_⟩
  · rw [h.flashes]
    exact sum_nonneg_map _ _ fun d _ => sum_nonneg_map _ _ fun f _ => sum_nonneg_map _ _ fun p _ => part p
  · rw [h.groups]
    exact sum_nonneg_map _ _ fun d _ => sum_nonneg_map _ _ fun f _ => sum_nonneg_map _ _ fun p _ => part p
  · rw [h.flashes] at h0
    rw [h.flashArea]
    refine List.sum_eq_zero fun v hv => ?_
    obtain ⟨d, hd, rfl⟩ := List.mem_map.mp hv
    have h1 := zero (fun d _ => sum_nonneg_map _ _ fun f _ => sum_nonneg_map _ _ fun p _ => part p) h0 d hd
    refine List.sum_eq_zero fun v hv => ?_
    obtain ⟨f, hf, rfl⟩ := List.mem_map.mp hv
    rw [zero (fun f _ => sum_nonneg_map _ _ fun p _ => part p) h1 f hf, mul_zero]
  · rw [h.groups] at h0
    rw [h.groupArea]
    refine List.sum_eq_zero fun v hv => ?_
    obtain ⟨d, hd, rfl⟩ := List.mem_map.mp hv
    have h1 := zero (fun d _ => sum_nonneg_map _ _ fun f _ => sum_nonneg_map _ _ fun p _ => part p) h0 d hd
    refine List.sum_eq_zero fun v hv => ?_
    obtain ⟨f, hf, rfl⟩ := List.mem_map.mp hv
    rw [zero (fun f _ => sum_nonneg_map _ _ fun p _ => part p) h1 f hf, mul_zero]

theorem PixelHolds.energy_nonneg (h : PixelHolds clip foot me mg files dx dy X Y fed fa te ged ga mfa)
    (hpos : ∀ d ∈ files, ∀ e ∈ d.events, 0 ≤ e.val.energy) : 0 ≤ te := by
  rw [h.energy]
  exact sum_nonneg_map _ _ fun d hd => sum_nonneg_map _ _ fun e he => mul_nonneg (hpos d hd e (List.mem_filter.mp he).1)
    (div_nonneg (partArea_nonneg _ _ _) (abs_nonneg _))

theorem PixelHolds.append {filesB : List GFile} {fed' fa' te' ged' ga' mfa' fedB faB teB gedB gaB mfaB : Rat}
    (h : PixelHolds clip foot me mg files dx dy X Y fed fa te ged ga mfa)
    (hB : PixelHolds clip foot me mg filesB dx dy X Y fedB faB teB gedB gaB mfaB)
    (h' : PixelHolds clip foot me mg (files ++ filesB) dx dy X Y fed' fa' te' ged' ga' mfa')
    (hpos : ∀ d ∈ files ++ filesB, ∀ f ∈ countedFlashes me mg d, flashPlaces d f ≠ [] → 0 < f.val.area) :
    fed' = fed + fedB ∧ fa' = fa + faB ∧ te' = te + teB ∧ ged' = ged + gedB ∧ ga' = ga + gaB ∧ mfa' = leastOf mfa mfaB ∧
    0 ≤ mfa ∧ 0 ≤ mfaB := by
  have areas : ∀ l : List GFile, (∀ d ∈ l, d ∈ files ++ filesB) →
      ∀ u ∈ l.flatMap fun d => ((countedFlashes me mg d).filter fun (f : Row GVal) =>
        ∃ p ∈ flashPlaces d f, clip (foot p) (pixelAt dx dy X Y) ≠ []).map fun f => f.val.area, 0 < u := by
    classical
    intro l hl u hu
    obtain ⟨d, hd, hu⟩ := List.mem_flatMap.mp hu
    obtain ⟨f, hf, rfl⟩ := List.mem_map.mp hu
    obtain ⟨hf, hp⟩ := List.mem_filter.mp hf
    obtain ⟨p, hp, -⟩ := of_decide_eq_true hp
    exact hpos d (hl d hd) f hf (List.ne_nil_of_mem hp)
  have a1 := areas files fun d hd => List.mem_append_left _ hd
  have a2 := areas filesB fun d hd => List.mem_append_right _ hd
  have nonneg : ∀ {l : List Rat} {v : Rat}, LeastOrZero l v → (∀ u ∈ l, 0 < u) → 0 ≤ v := by
    intro l v hv hl
    by_cases h0 : l = []
    · rw [hv.1 h0]
    · exact (hl v (hv.2 h0).1).le
  refine ⟨?_, ?_, ?_, ?_, ?_, ?_, nonneg h.least a1, nonneg hB.least a2⟩
  · rw [h.flashes, hB.flashes, h'.flashes, List.map_append, List.sum_append]
  · rw [h.flashArea, hB.flashArea, h'.flashArea, List.map_append, List.sum_append]
  · rw [h.energy, hB.energy, h'.energy, List.map_append, List.sum_append]
  · rw [h.groups, hB.groups, h'.groups, List.map_append, List.sum_append]
  · rw [h.groupArea, hB.groupArea, h'.groupArea, List.map_append, List.sum_append]
  · have := h'.least
    rw [List.flatMap_append] at this
    exact leastOrZero_append a1 a2 h.least hB.least this

theorem averageOf_mul {a b : Rat} (h : b = 0 → a = 0) : averageOf a b * b = a := by
  unfold averageOf
  split
  · rename_i h0; rw [h h0, zero_mul]
  · rename_i h0; exact div_mul_cancel₀ a h0

end

theorem shown_of {sc : Bool} {fed fa te ged ga mfa v : Rat} {name : String} (h : (name, v) ∈ shown sc fed fa te ged ga mfa) :
    (name = "flash_extent_density" → v = atLeastStep sc (1/16) fed) ∧
    (name = "average_flash_area" → v = atLeastStep sc 10 (averageOf fa (atLeastStep sc (1/16) fed))) ∧
    (name = "total_energy" → v = atLeastStep sc (152597 / 100000000000) te) ∧
    (name = "group_extent_density" → v = atLeastStep sc (1/4) ged) ∧
    (name = "average_group_area" → v = atLeastStep sc 1 (averageOf ga (atLeastStep sc (1/4) ged))) ∧
    (name = "minimum_flash_area" → v = atLeastStep sc 10 mfa) := by
  refine ⟨?_, ?_, ?_, ?_, ?_, ?_⟩ <;> rintro rfl <;> refine shown_unique h ?_ <;> unfold shown <;>
    simp only [List.mem_cons, true_or, or_true]

theorem leastOrZero_perm {l l' : List Rat} {v : Rat} (hp : l.Perm l') (h : LeastOrZero l v) : LeastOrZero l' v := by
  refine ⟨fun h' => h.1 ?_, fun h' => ?_⟩
  · rw [h'] at hp; exact hp.eq_nil
  · obtain ⟨h1, h2⟩ := h.2 fun h0 => h' (by rw [h0] at hp; exact hp.nil_eq.symm)
    exact ⟨hp.mem_iff.mp h1, fun u hu => h2 u (hp.mem_iff.mpr hu)⟩

theorem PixelHolds.perm {clip : Poly → Poly → List Poly} {foot : Pt → Poly} {me mg : Option Int} {files files' : List GFile}
    {dx dy X Y fed fa te ged ga mfa : Rat} (h : PixelHolds clip foot me mg files dx dy X Y fed fa te ged ga mfa)
    (hp : files.Perm files') : PixelHolds clip foot me mg files' dx dy X Y fed fa te ged ga mfa where
  energy := by rw [h.energy]; exact (hp.map _).sum_eq
  flashes := by rw [h.flashes]; exact (hp.map _).sum_eq
  groups := by rw [h.groups]; exact (hp.map _).sum_eq
  flashArea := by rw [h.flashArea]; exact (hp.map _).sum_eq
  groupArea := by rw [h.groupArea]; exact (hp.map _).sum_eq
  least := leastOrZero_perm (hp.flatMap_right _) h.least

/-- **C140**.  Three calls with the same thresholds and size of boxes: for two lists of files, and for all the files together
in any order.  In every pixel that all three show, densities and energies of the third are the sums of those of the others,
but for one step of the scaled integers at most; the minimum flash area is the least of the two; and the averages are the
averages of the two, weighted by the densities. -/
theorem C140_files_add {envA envB envC : Surroundings} {kwA kwB kwC sA sB sC sA' sB' sC' : Dict}
    {xA yA xB yB xC yC dx dy : Rat} {MA NA kA MB NB kB MC NC kC : Nat} {me mg : Option Int}
    {filesA filesB filesC openedA openedB openedC : List GFile} {runsA runsB runsC : List (TileRun TileState ImageFile)}
    {sc : Bool} (hA : GoodCall envA kwA xA yA dx dy MA NA kA me mg filesA openedA)
    (hB : GoodCall envB kwB xB yB dx dy MB NB kB me mg filesB openedB)
    (hC : GoodCall envC kwC xC yC dx dy MC NC kC me mg filesC openedC)
    (hclipB : envB.clip = envA.clip) (hfootB : envB.foot = envA.foot)
    (hclipC : envC.clip = envA.clip) (hfootC : envC.foot = envA.foot) (hall : openedC.Perm (openedA ++ openedB))
    (hpos : ∀ d ∈ openedC, ∀ e ∈ d.events, 0 ≤ e.val.energy)
    (rA : gridGlmFlashes (lutGridder envA) filesA kwA sA = .ok (runsA, sA'))
    (rB : gridGlmFlashes (lutGridder envB) filesB kwB sB = .ok (runsB, sB'))
    (rC : gridGlmFlashes (lutGridder envC) filesC kwC sC = .ok (runsC, sC'))
    (scA : Scaled runsA sc) (scB : Scaled runsB sc) (scC : Scaled runsC sc) (X Y : Rat) :
    (∀ name step, (name, step) ∈ [("flash_extent_density", (1/16 : Rat)), ("total_energy", 152597 / 100000000000),
        ("group_extent_density", 1/4)] →
      ∀ a b c, Shows runsA name X Y a → Shows runsB name X Y b → Shows runsC name X Y c →
        c ≤ a + b ∧ a + b ≤ c + step ∧ (sc = false → c = a + b)) ∧
    (∀ a b c, Shows runsA "minimum_flash_area" X Y a → Shows runsB "minimum_flash_area" X Y b →
      Shows runsC "minimum_flash_area" X Y c → c = leastOf a b) ∧
    (sc = false → ∀ name density, (name, density) ∈ [("average_flash_area", "flash_extent_density"),
        ("average_group_area", "group_extent_density")] →
      ∀ a b c u v w, Shows runsA name X Y a → Shows runsB name X Y b → Shows runsC name X Y c →
        Shows runsA density X Y u → Shows runsB density X Y v → Shows runsC density X Y w → c * w = a * u + b * v) := by
  have key : ∀ name, name ∈ sixNames → ∀ a b c, Shows runsA name X Y a → Shows runsB name X Y b → Shows runsC name X Y c →
      ∃ fedA faA teA gedA gaA mfaA fedB faB teB gedB gaB mfaB,
        PixelHolds envA.clip envA.foot me mg openedA dx dy X Y fedA faA teA gedA gaA mfaA ∧
        PixelHolds envA.clip envA.foot me mg openedB dx dy X Y fedB faB teB gedB gaB mfaB ∧ 0 ≤ mfaA ∧ 0 ≤ mfaB ∧
        (∀ name a, name ∈ sixNames → Shows runsA name X Y a → (name, a) ∈ shown sc fedA faA teA gedA gaA mfaA) ∧
        (∀ name b, name ∈ sixNames → Shows runsB name X Y b → (name, b) ∈ shown sc fedB faB teB gedB gaB mfaB) ∧
        ∀ name c, name ∈ sixNames → Shows runsC name X Y c → (name, c) ∈ shown sc (fedA + fedB) (faA + faB) (teA + teB)
          (gedA + gedB) (gaA + gaB) (leastOf mfaA mfaB) := by
    intro name hn a b c ha hb hc
    obtain ⟨fedA, faA, teA, gedA, gaA, mfaA, pA⟩ := hA.pixel rA ⟨name, a, ha⟩
    obtain ⟨fedB, faB, teB, gedB, gaB, mfaB, pB⟩ := hB.pixel rB ⟨name, b, hb⟩
    obtain ⟨fedC, faC, teC, gedC, gaC, mfaC, pC⟩ := hC.pixel rC ⟨name, c, hc⟩
    have vA := fun name a h1 h2 => hA.value rA scA pA (name := name) (v := a) h1 h2
    have vB := fun name a h1 h2 => hB.value rB scB pB (name := name) (v := a) h1 h2
    have vC := fun name a h1 h2 => hC.value rC scC pC (name := name) (v := a) h1 h2
    rw [hclipB, hfootB] at pB
    rw [hclipC, hfootC] at pC
    obtain ⟨rfl, rfl, rfl, rfl, rfl, rfl, n1, n2⟩ := pA.append pB (pC.perm hall) fun d hd f hf hpl =>
      (hC.compact d (hall.mem_iff.mpr hd) (by
        obtain ⟨p, hp⟩ := List.exists_mem_of_ne_nil _ hpl
        exact events_of_place hp)).areas f (List.mem_filter.mp hf).1
    exact ⟨fedA, faA, teA, gedA, gaA, mfaA, fedB, faB, teB, gedB, gaB, mfaB, pA, pB, n1, n2, vA, vB, vC⟩
  have posA : ∀ d ∈ openedA, ∀ e ∈ d.events, 0 ≤ e.val.energy := fun d hd =>
    hpos d (hall.mem_iff.mpr (List.mem_append_left _ hd))
  have posB : ∀ d ∈ openedB, ∀ e ∈ d.events, 0 ≤ e.val.energy := fun d hd =>
    hpos d (hall.mem_iff.mpr (List.mem_append_right _ hd))
  have six : ∀ name ∈ ["flash_extent_density", "average_flash_area", "total_energy", "group_extent_density",
    "average_group_area", "minimum_flash_area"], name ∈ sixNames := fun _ h => h
  refine ⟨?_, ?_, ?_⟩
  · intro name step hname a b c ha hb hc
    have hn : name ∈ sixNames := by
      simp only [List.mem_cons, Prod.mk.injEq, List.not_mem_nil, or_false] at hname
      rcases hname with ⟨rfl, -⟩ | ⟨rfl, -⟩ | ⟨rfl, -⟩ <;> exact six _ (by simp)
    obtain ⟨fedA, faA, teA, gedA, gaA, mfaA, fedB, faB, teB, gedB, gaB, mfaB, pA, pB, -, -, vA, vB, vC⟩ :=
      key name hn a b c ha hb hc
    have wA := shown_of (vA name a hn ha)
    have wB := shown_of (vB name b hn hb)
    have wC := shown_of (vC name c hn hc)
    obtain ⟨fA, gA, -, -⟩ := pA.nonneg hA.xPos hA.yPos
    obtain ⟨fB, gB, -, -⟩ := pB.nonneg hA.xPos hA.yPos
    have sums : ∀ {st u v : Rat}, 0 < st → 0 ≤ u → 0 ≤ v → a = atLeastStep sc st u → b = atLeastStep sc st v →
        c = atLeastStep sc st (u + v) → c ≤ a + b ∧ a + b ≤ c + st ∧ (sc = false → c = a + b) := by
      intro st u v h0 hu hv e1 e2 e3
      obtain ⟨k1, k2⟩ := atLeastStep_add sc h0 hu hv
      refine ⟨by rw [e1, e2, e3]; exact k1, by rw [e1, e2, e3]; exact k2, fun h => ?_⟩
      subst h
      rw [e1, e2, e3]
      simp only [atLeastStep_false]
    simp only [List.mem_cons, Prod.mk.injEq, List.not_mem_nil, or_false] at hname
    rcases hname with ⟨rfl, rfl⟩ | ⟨rfl, rfl⟩ | ⟨rfl, rfl⟩
    · exact sums (by norm_num) fA fB (wA.1 rfl) (wB.1 rfl) (wC.1 rfl)
    · exact sums (by norm_num) (pA.energy_nonneg posA) (pB.energy_nonneg posB) (wA.2.2.1 rfl) (wB.2.2.1 rfl) (wC.2.2.1 rfl)
    · exact sums (by norm_num) gA gB (wA.2.2.2.1 rfl) (wB.2.2.2.1 rfl) (wC.2.2.2.1 rfl)
  · intro a b c ha hb hc
    have hn := six "minimum_flash_area" (by simp)
    obtain ⟨fedA, faA, teA, gedA, gaA, mfaA, fedB, faB, teB, gedB, gaB, mfaB, -, -, n1, n2, vA, vB, vC⟩ :=
      key _ hn a b c ha hb hc
    rw [(shown_of (vA _ a hn ha)).2.2.2.2.2 rfl, (shown_of (vB _ b hn hb)).2.2.2.2.2 rfl,
      (shown_of (vC _ c hn hc)).2.2.2.2.2 rfl]
    exact atLeastStep_least sc n1 n2
  · intro h name density hname a b c u v w ha hb hc hu hv hw
    subst h
    simp only [List.mem_cons, Prod.mk.injEq, List.not_mem_nil, or_false] at hname
    have comb : ∀ {x y x' y' : Rat}, (y = 0 → x = 0) → (y' = 0 → x' = 0) → 0 ≤ y → 0 ≤ y' →
        averageOf (x + x') (y + y') * (y + y') = averageOf x y * y + averageOf x' y' * y' := by
      intro x y x' y' h1 h2 h3 h4
      rw [averageOf_mul h1, averageOf_mul h2, averageOf_mul]
      intro h0
      rw [h1 (by linarith), h2 (by linarith), zero_add]
    rcases hname with ⟨rfl, rfl⟩ | ⟨rfl, rfl⟩
    · have hn := six "average_flash_area" (by simp)
      have hn' := six "flash_extent_density" (by simp)
      obtain ⟨fedA, faA, teA, gedA, gaA, mfaA, fedB, faB, teB, gedB, gaB, mfaB, pA, pB, -, -, vA, vB, vC⟩ :=
        key _ hn a b c ha hb hc
      obtain ⟨fA, -, zA, -⟩ := pA.nonneg hA.xPos hA.yPos
      obtain ⟨fB, -, zB, -⟩ := pB.nonneg hA.xPos hA.yPos
      rw [(shown_of (vA _ a hn ha)).2.1 rfl, (shown_of (vB _ b hn hb)).2.1 rfl, (shown_of (vC _ c hn hc)).2.1 rfl,
        (shown_of (vA _ u hn' hu)).1 rfl, (shown_of (vB _ v hn' hv)).1 rfl, (shown_of (vC _ w hn' hw)).1 rfl]
      simp only [atLeastStep_false]
      exact comb zA zB fA fB
    · have hn := six "average_group_area" (by simp)
      have hn' := six "group_extent_density" (by simp)
      obtain ⟨fedA, faA, teA, gedA, gaA, mfaA, fedB, faB, teB, gedB, gaB, mfaB, pA, pB, -, -, vA, vB, vC⟩ :=
        key _ hn a b c ha hb hc
      obtain ⟨-, gA, -, zA⟩ := pA.nonneg hA.xPos hA.yPos
      obtain ⟨-, gB, -, zB⟩ := pB.nonneg hA.xPos hA.yPos
      rw [(shown_of (vA _ a hn ha)).2.2.2.2.1 rfl, (shown_of (vB _ b hn hb)).2.2.2.2.1 rfl,
        (shown_of (vC _ c hn hc)).2.2.2.2.1 rfl, (shown_of (vA _ u hn' hu)).2.2.2.1 rfl,
        (shown_of (vB _ v hn' hv)).2.2.2.1 rfl, (shown_of (vC _ w hn' hw)).2.2.2.1 rfl]
      simp only [atLeastStep_false]
      exact comb zA zB gA gB

/-! ## The energy in the images -/

/-- The sum over the boxes of the domain. -/
def overBoxes (M N : Nat) (v : Nat → Nat → Rat) : Rat :=
  ((List.range M).map fun m => ((List.range N).map fun n => v m n).sum).sum

/-- The parts of a footprint in the boxes of a domain add up to it. -/
def PartsAddUp (clip : Poly → Poly → List Poly) (xlo ylo dx dy : Rat) (M N : Nat) (p : Poly) : Prop :=
  overBoxes M N (fun m n => partArea clip p (pixelAt dx dy (xlo + (m + 1/2) * dx) (ylo + (n + 1/2) * dy))) = |signedArea p|

/-- The energy of the events of the flashes that count. -/
noncomputable def countedEnergy (me mg : Option Int) (files : List GFile) : Rat :=
  (files.map fun d => ((countedEvents me mg d).map fun e => e.val.energy).sum).sum

theorem sum_map_comm {α β : Type} (l : List α) (k : List β) (f : α → β → Rat) :
    (l.map fun a => (k.map fun b => f a b).sum).sum = (k.map fun b => (l.map fun a => f a b).sum).sum := by
  induction l with
  | nil => simp
  | cons a l ih => simp only [List.map_cons, List.sum_cons, ih, List.sum_map_add]

theorem overBoxes_sum {α : Type} (M N : Nat) (l : List α) (f : α → Nat → Nat → Rat) :
    overBoxes M N (fun m n => (l.map fun a => f a m n).sum) = (l.map fun a => overBoxes M N (f a)).sum := by
  unfold overBoxes
  simp only [sum_map_comm (List.range N) l]
  rw [sum_map_comm]

theorem overBoxes_mul (M N : Nat) (c : Rat) (f : Nat → Nat → Rat) :
    overBoxes M N (fun m n => c * f m n) = c * overBoxes M N f := by
  unfold overBoxes
  simp only [List.sum_map_mul_left]

theorem overBoxes_le {M N : Nat} {f g : Nat → Nat → Rat} (h : ∀ m n, m < M → n < N → f m n ≤ g m n) :
    overBoxes M N f ≤ overBoxes M N g := by
  unfold overBoxes
  exact sum_le_sum_map _ _ _ fun m hm => sum_le_sum_map _ _ _ fun n hn => h m n (List.mem_range.mp hm) (List.mem_range.mp hn)

theorem overBoxes_congr {M N : Nat} {f g : Nat → Nat → Rat} (h : ∀ m n, m < M → n < N → f m n = g m n) :
    overBoxes M N f = overBoxes M N g :=
  le_antisymm (overBoxes_le fun m n hm hn => (h m n hm hn).le) (overBoxes_le fun m n hm hn => (h m n hm hn).ge)

theorem overBoxes_add_const (M N : Nat) (f : Nat → Nat → Rat) (c : Rat) :
    overBoxes M N (fun m n => f m n + c) = overBoxes M N f + c * (M * N) := by
  unfold overBoxes
  simp only [List.sum_map_add, List.map_const', List.sum_replicate, List.length_range]
  simp only [nsmul_eq_mul]
  ring

/-- The energy that should be in a pixel. -/
noncomputable def pixelEnergy (clip : Poly → Poly → List Poly) (foot : Pt → Poly) (me mg : Option Int) (files : List GFile)
    (dx dy X Y : Rat) : Rat :=
  (files.map fun d => ((countedEvents me mg d).map fun e => e.val.energy *
    (partArea clip (foot (placeOf e)) (pixelAt dx dy X Y) / |signedArea (foot (placeOf e))|)).sum).sum

theorem pixelEnergy_total {clip : Poly → Poly → List Poly} {foot : Pt → Poly} {me mg : Option Int} {files : List GFile}
    {xlo ylo dx dy : Rat} {M N : Nat} (hA : ∀ d ∈ files, ∀ e ∈ d.events, signedArea (foot (placeOf e)) ≠ 0)
    (hin : ∀ d ∈ files, ∀ e ∈ countedEvents me mg d, PartsAddUp clip xlo ylo dx dy M N (foot (placeOf e))) :
    overBoxes M N (fun m n => pixelEnergy clip foot me mg files dx dy (xlo + (m + 1/2) * dx) (ylo + (n + 1/2) * dy)) =
      countedEnergy me mg files := by
  unfold pixelEnergy countedEnergy
  rw [overBoxes_sum M N files fun d m n => ((countedEvents me mg d).map fun e => e.val.energy *
    (partArea clip (foot (placeOf e)) (pixelAt dx dy (xlo + (m + 1/2) * dx) (ylo + (n + 1/2) * dy)) /
      |signedArea (foot (placeOf e))|)).sum]
  refine congrArg List.sum (List.map_congr_left fun d hd => ?_)
  rw [overBoxes_sum M N (countedEvents me mg d) fun e m n => e.val.energy *
    (partArea clip (foot (placeOf e)) (pixelAt dx dy (xlo + (m + 1/2) * dx) (ylo + (n + 1/2) * dy)) /
      |signedArea (foot (placeOf e))|)]
  refine congrArg List.sum (List.map_congr_left fun e he => ?_)
  have hp := hin d hd e he
  unfold PartsAddUp at hp
  rw [overBoxes_mul]
  have e1 : overBoxes M N (fun m n => partArea clip (foot (placeOf e)) (pixelAt dx dy (xlo + (m + 1/2) * dx)
      (ylo + (n + 1/2) * dy)) / |signedArea (foot (placeOf e))|) = 1 := by
    simp only [div_eq_inv_mul]
    rw [overBoxes_mul]
    simp only [one_div, mul_one] at hp ⊢
    rw [hp]
    exact inv_mul_cancel₀ (abs_ne_zero.mpr (hA d hd e (List.mem_filter.mp he).1))
  rw [e1, mul_one]

/-- **C141**.  If the footprints of the events lie in the domain, so that their parts add up, the energies in all boxes of
the images of a call sum to the energy of the events, exactly if values are not scaled, and otherwise with an excess of at
most one step for each box; no box is negative. -/
theorem C141_energy {env : Surroundings} {kw shared sh : Dict} {xlo ylo dx dy : Rat} {M N s : Nat} {me mg : Option Int}
    {files opened : List GFile} {runs : List (TileRun TileState ImageFile)} {sc : Bool}
    (h : GoodCall env kw xlo ylo dx dy M N s me mg files opened)
    (hr : gridGlmFlashes (lutGridder env) files kw shared = .ok (runs, sh)) (hsc : Scaled runs sc)
    (hpos : ∀ d ∈ opened, ∀ e ∈ d.events, 0 ≤ e.val.energy)
    (hin : ∀ d ∈ opened, ∀ e ∈ countedEvents me mg d, PartsAddUp env.clip xlo ylo dx dy M N (env.foot (placeOf e)))
    (v : Nat → Nat → Rat) (hv : ∀ m n, m < M → n < N →
      Shows runs "total_energy" (xlo + (m + 1/2) * dx) (ylo + (n + 1/2) * dy) (v m n)) :
    (∀ m n, m < M → n < N → 0 ≤ v m n) ∧ countedEnergy me mg opened ≤ overBoxes M N v ∧
    overBoxes M N v ≤ countedEnergy me mg opened + 152597 / 100000000000 * (M * N) ∧
    (sc = false → overBoxes M N v = countedEnergy me mg opened) := by
  have hn : "total_energy" ∈ sixNames := by simp [sixNames]
  let te : Nat → Nat → Rat := fun m n =>
    pixelEnergy env.clip env.foot me mg opened dx dy (xlo + (m + 1/2) * dx) (ylo + (n + 1/2) * dy)
  have hte : ∀ m n, m < M → n < N → 0 ≤ te m n ∧ v m n = atLeastStep sc (152597 / 100000000000) (te m n) := by
    intro m n hm hn'
    obtain ⟨fed, fa, t, ged, ga, mfa, hp⟩ := h.pixel hr ⟨_, _, hv m n hm hn'⟩
    have h1 := (shown_of (h.value hr hsc hp hn (hv m n hm hn'))).2.2.1 rfl
    have h2 := hp.energy_nonneg hpos
    rw [hp.energy] at h1 h2
    exact ⟨h2, h1⟩
  have total : overBoxes M N te = countedEnergy me mg opened :=
    pixelEnergy_total (fun d hd e he => ((h.compact d hd (List.ne_nil_of_mem he)).polygons e he).2) hin
  have hst : (0 : Rat) < 152597 / 100000000000 := by norm_num
  have lower : ∀ m n, m < M → n < N → te m n ≤ v m n := fun m n hm hn' => by
    rw [(hte m n hm hn').2]; exact (atLeastStep_bounds sc hst).1
  refine ⟨fun m n hm hn' => (hte m n hm hn').1.trans (lower m n hm hn'), ?_, ?_, ?_⟩
  · rw [← total]
    exact overBoxes_le lower
  · rw [← total, ← overBoxes_add_const]
    refine overBoxes_le fun m n hm hn' => ?_
    rw [(hte m n hm hn').2]
    exact (atLeastStep_bounds sc hst).2
  · rintro rfl
    rw [← total]
    refine overBoxes_congr fun m n hm hn' => ?_
    rw [(hte m n hm hn').2, atLeastStep_false]

/-! ## Samples -/

/-- Another file: one flash of two groups. -/
def secondSample : GFile where
  flashes := [⟨8, 0, { x := 3/2000, y := 9/4000, area := 80, nGroups := 2, nEvents := 2 }⟩]
  groups := [⟨21, 8, { nEvents := 1, area := 35 }⟩, ⟨22, 8, { nEvents := 1, area := 45 }⟩]
  events := [⟨200, 21, { x := 2/1000, y := 2/1000, energy := 7, flashOf := 8 }⟩,
    ⟨201, 22, { x := 1/1000, y := 5/2000, energy := 6, flashOf := 8 }⟩]

/-- A call for a wider domain, with one tile. -/
def wideCall : Dict :=
  [("proj_name", .str "geos"), ("fixed_grid", .bool true), ("dx", .num (1/1000)), ("dy", .num (1/1000)),
   ("x_bnd", .bnd 0 (6/1000)), ("y_bnd", .bnd (-1/1000) (5/1000)), ("clip_events", .bool true),
   ("ellipse_rev", .nat 1), ("nadir_lon", .num (-75)), ("output_filename_prefix", .str "GLM"),
   ("output_writer", .function "write_cf_netcdf"), ("min_points_per_flash", .nat 2)]

theorem wholeCall_asked : FixedGridAsked wholeCall 0 0 (1/1000) (1/1000) 4 4 2 (some 2) none :=
  { proj := ⟨_, rfl⟩
    fixed := ⟨by decide +kernel, by decide +kernel⟩
    xBox := rfl
    yBox := rfl
    x := by decide +kernel
    y := by decide +kernel
    subdivide := Or.inl rfl
    given := by decide +kernel
    minEvents := Or.inl ⟨2, rfl, rfl⟩
    minGroups := Or.inr ⟨Or.inr rfl, rfl⟩ }

theorem wideCall_asked : FixedGridAsked wideCall 0 (-1/1000) (1/1000) (1/1000) 6 6 1 (some 2) none :=
  { proj := ⟨_, rfl⟩
    fixed := ⟨by decide +kernel, by decide +kernel⟩
    xBox := rfl
    yBox := rfl
    x := by decide +kernel
    y := by decide +kernel
    subdivide := Or.inr ⟨rfl, rfl⟩
    given := by decide +kernel
    minEvents := Or.inl ⟨2, rfl, rfl⟩
    minGroups := Or.inr ⟨Or.inr rfl, rfl⟩ }

theorem samples_compact : ∀ d ∈ [noFlashes, wholeSample, secondSample], d.events ≠ [] →
    CompactFile wholeEnv.foot wholeEnv.loc (1/1000) (1/1000) (padBoxes (28 / 10000) (1/1000) * (1/1000))
      (padBoxes (28 / 10000) (1/1000) * (1/1000)) d := by
  have hpads : padBoxes (28 / 10000) (1 / 1000) = 2 := by decide +kernel
  intro d hd hne
  rw [hpads]
  simp only [List.mem_cons, List.not_mem_nil, or_false] at hd
  rcases hd with rfl | rfl | rfl
  · exact absurd rfl hne
  all_goals exact
    { hasData := by unfold HasData; decide +kernel
      consistent := by decide +kernel
      derived := ⟨by decide +kernel, by decide +kernel, by decide +kernel, by decide +kernel⟩
      flashes := by unfold UniqueIds; decide +kernel
      groups := by unfold UniqueIds; decide +kernel
      areas := by decide +kernel
      pixels := by unfold PixelExact placeOf; decide +kernel
      polygons := by decide +kernel
      narrow := by decide +kernel
      view := by decide +kernel
      event := by decide +kernel
      flash := by decide +kernel }

theorem opens_same (files : List GFile) : List.Forall₂ (fun f d => wholeEnv.openFile (.nat 1) f = .ok d) files files := by
  induction files with
  | nil => exact .nil
  | cons a l ih => exact .cons rfl ih

/-- Calls for the samples are as C139 to C141 assume. -/
theorem samples_good {kw : Dict} {xlo ylo : Rat} {M N s : Nat} (hs : 0 < s) (hM : 2 * s ≤ M) (hN : s ≤ N)
    (h : FixedGridAsked kw xlo ylo (1/1000) (1/1000) M N s (some 2) none) {files : List GFile}
    (hf : ∀ d ∈ files, d ∈ [noFlashes, wholeSample, secondSample]) (hne : ∃ d ∈ files, d.events ≠ []) :
    GoodCall wholeEnv kw xlo ylo (1/1000) (1/1000) M N s (some 2) none files files :=
  { asked := h
    xPos := by norm_num
    yPos := by norm_num
    tiles := hs
    xTiles := hM
    yTiles := hN
    xPad := by norm_num
    yPad := by norm_num
    edges := arange_makesEdges
    parts := fun p q s => rectClip_ne_nil p q s
    beside := fun x y p i j => rectClip_beside x y p i j
    order := fun l => List.Perm.refl l
    opens := fun _ _ => opens_same files
    some := hne
    compact := fun d hd => samples_compact d (hf d hd)
    centred := fun _ _ _ _ => square_centred (by norm_num) (by norm_num) (by norm_num) _ }

theorem wholeCall_good : GoodCall wholeEnv wholeCall 0 0 (1/1000) (1/1000) 4 4 2 (some 2) none
    [noFlashes, wholeSample, secondSample] [noFlashes, wholeSample, secondSample] :=
  samples_good (by omega) (by omega) (by omega) wholeCall_asked (fun _ h => h) ⟨wholeSample, by simp, by simp [wholeSample]⟩

theorem wideCall_good {files : List GFile} (hf : ∀ d ∈ files, d ∈ [noFlashes, wholeSample, secondSample])
    (hne : ∃ d ∈ files, d.events ≠ []) :
    GoodCall wholeEnv wideCall 0 (-1/1000) (1/1000) (1/1000) 6 6 1 (some 2) none files files :=
  samples_good (by omega) (by omega) (by omega) wideCall_asked hf hne

/-- The energy that a call shows at a place. -/
def energyAt (kw : Dict) (files : List GFile) (X Y : Rat) : List Rat :=
  match gridGlmFlashes (lutGridder wholeEnv) files kw [] with
  | .ok (runs, _) => runs.flatMap fun (r : TileRun TileState ImageFile) => r.written.flatMap fun nf =>
      (List.range nf.2.y.length).flatMap fun row => (List.range nf.2.x.length).flatMap fun col =>
        if nf.2.x[col]? = some X ∧ nf.2.y[row]? = some Y then
          nf.2.fields.filterMap fun p => if p.1 = "total_energy" then some (p.2.val row col) else none
        else []
  | .error _ => []

/-- Whether all images of a call are written with scaled integers. -/
def scales (kw : Dict) (files : List GFile) : List Bool :=
  match gridGlmFlashes (lutGridder wholeEnv) files kw [] with
  | .ok (runs, _) => runs.map fun (r : TileRun TileState ImageFile) => r.scale != .bool false
  | .error _ => []

/-- C139 for the samples: four tiles, or one tile of a wider domain and the files in another order. -/
example : scales wholeCall [noFlashes, wholeSample, secondSample] = [true, true, true, true] ∧
    scales wideCall [secondSample, wholeSample, noFlashes] = [true] ∧
    energyAt wholeCall [noFlashes, wholeSample, secondSample] (3/2000) (3/2000) = [15/4] ∧
    energyAt wideCall [secondSample, wholeSample, noFlashes] (3/2000) (3/2000) = [15/4] := by
  decide +kernel

example {runs runs' : List (TileRun TileState ImageFile)} {sh sh' : Dict}
    (hr : gridGlmFlashes (lutGridder wholeEnv) [noFlashes, wholeSample, secondSample] wholeCall [] = .ok (runs, sh))
    (hr' : gridGlmFlashes (lutGridder wholeEnv) [secondSample, wholeSample, noFlashes] wideCall [] = .ok (runs', sh'))
    (hsc : Scaled runs true) (hsc' : Scaled runs' true) {v v' : Rat}
    (hv : Shows runs "total_energy" (3/2000) (3/2000) v) (hv' : Shows runs' "total_energy" (3/2000) (3/2000) v') : v' = v :=
  C139_same_pixels wholeCall_good
    (wideCall_good (files := [secondSample, wholeSample, noFlashes]) (by simp) ⟨wholeSample, by simp, by simp [wholeSample]⟩)
    rfl rfl (List.reverse_perm [noFlashes, wholeSample, secondSample]) hr hr' hsc hsc' _ (by simp [sixNames]) _ _ _ _ hv hv'

/-- C140 for the samples: two files apart and together. -/
example : energyAt wideCall [wholeSample] (3/2000) (3/2000) = [3/2] ∧
    energyAt wideCall [secondSample] (3/2000) (3/2000) = [9/4] ∧
    energyAt wholeCall [wholeSample, secondSample] (3/2000) (3/2000) = [15/4] := by
  decide +kernel

example {runsA runsB runsC : List (TileRun TileState ImageFile)} {sA sB sC : Dict}
    (rA : gridGlmFlashes (lutGridder wholeEnv) [wholeSample] wideCall [] = .ok (runsA, sA))
    (rB : gridGlmFlashes (lutGridder wholeEnv) [secondSample] wideCall [] = .ok (runsB, sB))
    (rC : gridGlmFlashes (lutGridder wholeEnv) [wholeSample, secondSample] wholeCall [] = .ok (runsC, sC))
    (scA : Scaled runsA true) (scB : Scaled runsB true) (scC : Scaled runsC true) (X Y a b c : Rat)
    (hA : Shows runsA "total_energy" X Y a) (hB : Shows runsB "total_energy" X Y b) (hC : Shows runsC "total_energy" X Y c) :
    c ≤ a + b ∧ a + b ≤ c + 152597 / 100000000000 := by
  have := (C140_files_add
    (wideCall_good (files := [wholeSample]) (by simp) ⟨wholeSample, by simp, by simp [wholeSample]⟩)
    (wideCall_good (files := [secondSample]) (by simp) ⟨secondSample, by simp, by simp [secondSample]⟩)
    (samples_good (files := [wholeSample, secondSample]) (by omega) (by omega) (by omega) wholeCall_asked (by simp)
      ⟨wholeSample, by simp, by simp [wholeSample]⟩)
    rfl rfl rfl rfl (List.Perm.refl _) (by decide +kernel) rA rB rC scA scB scC X Y).1 "total_energy" _
      (.tail _ (.head _)) a b c hA hB hC
  exact ⟨this.1, this.2.1⟩

/-- C141 for the samples: all footprints are in the domain. -/
example {runs : List (TileRun TileState ImageFile)} {sh : Dict} {v : Nat → Nat → Rat}
    (hr : gridGlmFlashes (lutGridder wholeEnv) [wholeSample, secondSample] wideCall [] = .ok (runs, sh))
    (hsc : Scaled runs true) (hv : ∀ m n : Nat, m < 6 → n < 6 →
      Shows runs "total_energy" (0 + (m + 1/2) * (1/1000)) (-1/1000 + (n + 1/2) * (1/1000)) (v m n)) :
    countedEnergy (some 2) none [wholeSample, secondSample] ≤ overBoxes 6 6 v := by
  have hin : ∀ d ∈ [wholeSample, secondSample], ∀ e ∈ d.events,
      PartsAddUp rectClip 0 (-1/1000) (1/1000) (1/1000) 6 6 (wholeEnv.foot (placeOf e)) := by
    unfold PartsAddUp overBoxes partArea
    decide +kernel
  exact (C141_energy
    (wideCall_good (files := [wholeSample, secondSample]) (by simp) ⟨wholeSample, by simp, by simp [wholeSample]⟩)
    hr hsc (by decide +kernel) (fun d hd e he => hin d hd e (List.mem_filter.mp he).1) v hv).2.1

end Verif.Props
