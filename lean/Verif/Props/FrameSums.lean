import Verif.Props.FrameCentroids
import Verif.Props.FramesAgg

/-!
# C162: frames share out the lightning of a period

A period can be gridded with one frame or be cut into frames.  The images of the frames together hold what the image of the
period holds: nothing is lost at the edges of frames and nothing is counted in two of them.
-/

namespace Verif.Props

open Verif.Py Verif.Model Verif.Spec Verif.Proofs

/-! ## Pixels of frames -/

section
variable {env : Surroundings} {F : Framing} {kw shared sh : Dict} {xlo ylo dx dy : Rat} {M N s : Nat} {me mg : Option Int}
  {files opened : List GFile} {runs : List (TileRun TileState ImageFile)} {sc : Bool}

theorem frames_written (h : GoodCall env kw xlo ylo dx dy M N s me mg files opened) (hF : PicksByTime F)
    (hr : gridGlmFlashes (framesGridder env F) files kw shared = .ok (runs, sh)) {k : Nat} {t : Rat × Rat}
    (ht : (pairwise F.tEdges)[k]? = some t) {r : TileRun TileState ImageFile} (hrr : r ∈ runs) :
    ∃ f, r.written[k]? = some (f.name, f) ∧ ∃ xs ys,
      ImageShows env.clip env.foot me mg (filesOf env t opened) dx dy (r.scale != .bool false) t xs ys f := by
  obtain ⟨runs', sh', h1, -, h3, -⟩ := call_runs (env := env) (G := framesGridder env F)
    (P := fun sc xs ys (w : List (String × ImageFile)) => ∃ imgs : List ImageFile, w = imgs.map (fun f => (f.name, f)) ∧
      List.Forall₂ (fun tf f => ImageShows env.clip env.foot me mg (filesOf env tf opened) dx dy sc tf xs ys f)
        (pairwise F.tEdges) imgs) rfl rfl rfl shared
    h.asked h.xPos h.yPos h.tiles h.xTiles h.yTiles h.xPad h.yPad h.opens h.some (by
      intro tl a b c d p q hab hcd hp hq ep eq tx ty tp
      subst ep eq
      obtain ⟨fakes, hread, himg⟩ := tile_frames (env := env) hF h.xPos h.yPos h.edges hab hcd hp hq tx ty tp me mg
        (files := opened) h.parts h.beside h.order h.compact h.centred
      refine ⟨fakes, hread, fun out scale => ?_⟩
      obtain ⟨imgs, hi, hsh⟩ := himg out scale
      refine ⟨imgs.map fun f => (f.name, f), ?_, imgs, rfl, hsh⟩
      show (do let files ← framesImages env F _ out _ scale; pure (files.map fun (f : ImageFile) => (f.name, f))) = _
      rw [hi]
      rfl)
  rw [hr] at h1
  simp only [Except.ok.injEq, Prod.mk.injEq] at h1
  obtain ⟨rfl, -⟩ := h1
  obtain ⟨imgs, hw, hall⟩ := h3 r hrr
  obtain ⟨f, hf, hsh⟩ := forall₂_get hall ht
  exact ⟨f, by rw [hw, List.getElem?_map, hf]; rfl, _, _, hsh⟩

/-- What the image of a frame shows in a pixel. -/
theorem frame_pixel (h : GoodCall env kw xlo ylo dx dy M N s me mg files opened) (hF : PicksByTime F)
    (hr : gridGlmFlashes (framesGridder env F) files kw shared = .ok (runs, sh)) (hsc : Scaled runs sc) {k : Nat} {t : Rat × Rat}
    (ht : (pairwise F.tEdges)[k]? = some t) {X Y : Rat} (hex : ∃ name v, ShowsIn runs k name X Y v) :
    ∃ fed fa te ged ga mfa,
      PixelHolds env.clip env.foot me mg (filesOf env t opened) dx dy X Y fed fa te ged ga mfa ∧
      ∀ name v, name ∈ sixNames → ShowsIn runs k name X Y v → (name, v) ∈ shown sc fed fa te ged ga mfa := by
  obtain ⟨_, _, r, hrr, nf, hnf, row, col, img, hx, hy, -, -⟩ := hex
  obtain ⟨f, hf, xs, ys, hs⟩ := frames_written h hF hr ht hrr
  rw [hnf] at hf
  obtain rfl := Option.some.inj hf
  obtain ⟨fed, fa, te, ged, ga, mfa, hp, -⟩ := hs.pixels row col X Y hx hy
  refine ⟨fed, fa, te, ged, ga, mfa, hp, ?_⟩
  rintro name v hn ⟨r', hrr', nf', hnf', row', col', img', hx', hy', hi', rfl⟩
  obtain ⟨f', hf', xs', ys', hs'⟩ := frames_written h hF hr ht hrr'
  rw [hnf'] at hf'
  obtain rfl := Option.some.inj hf'
  obtain ⟨fed', fa', te', ged', ga', mfa', hp', hall⟩ := hs'.pixels row' col' X Y hx' hy'
  obtain ⟨rfl, rfl, rfl, rfl, rfl, rfl⟩ := pixelHolds_unique (List.Perm.refl _) hp hp'
  rw [hsc r' hrr'] at hall
  obtain ⟨v, hv⟩ := shown_names sc fed' fa' te' ged' ga' mfa' hn
  rw [hall name img' v hi' hv]
  exact hv

end

/-! ## Files and frames -/

theorem filter_or_perm {α : Type} (l : List α) (p q r : α → Bool) (h : ∀ a ∈ l, r a = (p a || q a))
    (hd : ∀ a ∈ l, ¬ (p a = true ∧ q a = true)) : (l.filter r).Perm (l.filter p ++ l.filter q) := by
  induction l with
  | nil => exact List.Perm.refl _
  | cons a l ih =>
    have ih := ih (fun b hb => h b (List.mem_cons_of_mem _ hb)) fun b hb => hd b (List.mem_cons_of_mem _ hb)
    have ha := h a List.mem_cons_self
    have hda := hd a List.mem_cons_self
    rw [List.filter_cons, List.filter_cons, List.filter_cons, ha]
    cases hp : p a <;> cases hq : q a
    · simpa using ih
    · simpa using (ih.cons a).trans List.perm_middle.symm
    · simpa using ih.cons a
    · exact absurd ⟨hp, hq⟩ hda

/-- The files of a period are those of its frames. -/
theorem period_files (env : Surroundings) (files : List GFile) (first : Rat) (rest : List Rat)
    (ha : (first :: rest).Pairwise (· ≤ ·)) :
    (filesOf env (first, (first :: rest).getLast (List.cons_ne_nil _ _)) files).Perm
      ((pairwise (first :: rest)).flatMap fun t => filesOf env t files) := by
  induction rest generalizing first with
  | nil =>
    rw [List.getLast_singleton, filesOf, List.filter_eq_nil_iff.mpr]
    · exact List.Perm.refl _
    · intro d _ h
      have := of_decide_eq_true h
      unfold InFrame at this
      exact absurd this.2 (not_lt.mpr this.1)
  | cons e rest ih =>
    have ha' := List.pairwise_cons.mp ha
    have h1 : first ≤ e := ha'.1 e List.mem_cons_self
    have h2 : e ≤ (e :: rest).getLast (List.cons_ne_nil _ _) := by
      rcases List.mem_cons.mp (List.getLast_mem (List.cons_ne_nil e rest)) with h | h
      · exact h.ge
      · exact (List.pairwise_cons.mp ha'.2).1 _ h
    have hp : pairwise (first :: e :: rest) = (first, e) :: pairwise (e :: rest) := rfl
    rw [hp, List.flatMap_cons, List.getLast_cons (List.cons_ne_nil _ _)]
    refine List.Perm.trans ?_ ((ih e ha'.2).append_left _)
    unfold filesOf
    apply filter_or_perm
    · intro d _
      rw [← Bool.decide_or, decide_eq_decide]
      unfold InFrame
      generalize ((env.productTime d - env.basedate : Int) : Rat) / 1000000000 = q
      constructor
      · rintro ⟨a, b⟩
        rcases lt_or_ge q e with h | h
        · exact .inl ⟨a, h⟩
        · exact .inr ⟨h, b⟩
      · rintro (⟨a, b⟩ | ⟨a, b⟩)
        · exact ⟨a, b.trans_le h2⟩
        · exact ⟨h1.trans a, b⟩
    · intro d _ h
      have a := of_decide_eq_true h.1
      have b := of_decide_eq_true h.2
      unfold InFrame at a b
      exact absurd a.2 (not_lt.mpr b.1)

/-! ## Sums over frames -/

theorem leastOrZero_flatMap {α : Type} (l : List α) (L : α → List Rat) (m : α → Rat) {c : Rat} (hL : ∀ a ∈ l, ∀ u ∈ L a, 0 < u)
    (hm : ∀ a ∈ l, LeastOrZero (L a) (m a)) (hc : LeastOrZero (l.flatMap L) c) :
    LeastOrZero ((l.map m).filter fun u => u ≠ 0) c := by
  have pos : ∀ a ∈ l, m a ≠ 0 ↔ L a ≠ [] := by
    intro a ha
    constructor
    · exact fun h h0 => h ((hm a ha).1 h0)
    · exact fun h => (hL a ha _ ((hm a ha).2 h).1).ne'
  constructor
  · intro h0
    refine hc.1 (List.flatMap_eq_nil_iff.mpr fun a ha => ?_)
    by_contra hne
    have : m a ∈ (l.map m).filter fun u => u ≠ 0 :=
      List.mem_filter.mpr ⟨List.mem_map_of_mem ha, decide_eq_true ((pos a ha).mpr hne)⟩
    rw [h0] at this
    cases this
  · intro hne
    obtain ⟨u, hu⟩ := List.exists_mem_of_ne_nil _ hne
    obtain ⟨hu, hu0⟩ := List.mem_filter.mp hu
    obtain ⟨a, ha, rfl⟩ := List.mem_map.mp hu
    have hLa := (pos a ha).mp (of_decide_eq_true hu0)
    obtain ⟨c1, c2⟩ := hc.2 fun h => hLa (List.flatMap_eq_nil_iff.mp h a ha)
    obtain ⟨b, hb, hcb⟩ := List.mem_flatMap.mp c1
    have hbne : L b ≠ [] := List.ne_nil_of_mem hcb
    obtain ⟨m1, m2⟩ := (hm b hb).2 hbne
    have e : c = m b := le_antisymm (c2 _ (List.mem_flatMap.mpr ⟨b, hb, m1⟩)) (m2 c hcb)
    refine ⟨List.mem_filter.mpr ⟨by rw [e]; exact List.mem_map_of_mem hb, decide_eq_true (by rw [e]; exact (pos b hb).mpr hbne)⟩, ?_⟩
    intro u hu
    obtain ⟨hu, hu0⟩ := List.mem_filter.mp hu
    obtain ⟨a', ha', rfl⟩ := List.mem_map.mp hu
    exact c2 _ (List.mem_flatMap.mpr ⟨a', ha', ((hm a' ha').2 ((pos a' ha').mp (of_decide_eq_true hu0))).1⟩)

theorem atLeastStep_total (sc : Bool) {step : Rat} (hs : 0 < step) (l : List Rat) (hl : ∀ u ∈ l, 0 ≤ u) :
    atLeastStep sc step l.sum ≤ (l.map (atLeastStep sc step)).sum ∧
    (l.map (atLeastStep sc step)).sum ≤ atLeastStep sc step l.sum + (l.length - 1 : Nat) * step := by
  induction l with
  | nil => simp [atLeastStep_zero]
  | cons a l ih =>
    obtain ⟨i1, i2⟩ := ih fun u hu => hl u (List.mem_cons_of_mem _ hu)
    have hsum : 0 ≤ l.sum := List.sum_nonneg fun u hu => hl u (List.mem_cons_of_mem _ hu)
    obtain ⟨k1, k2⟩ := atLeastStep_add sc hs (hl a List.mem_cons_self) hsum
    rw [List.sum_cons, List.map_cons, List.sum_cons]
    refine ⟨by linarith, ?_⟩
    cases l with
    | nil => simp
    | cons b l =>
      simp only [List.length_cons, Nat.add_sub_cancel] at i2 ⊢
      push_cast
      linarith

/-- The least value after small ones were raised. -/
theorem atLeastStep_leastIn (sc : Bool) {step : Rat} (hs : 0 < step) (l : List Rat) (hl : ∀ u ∈ l, 0 ≤ u) {c : Rat}
    (h : LeastOrZero (l.filter fun u => u ≠ 0) c) :
    LeastOrZero ((l.map (atLeastStep sc step)).filter fun u => u ≠ 0) (atLeastStep sc step c) := by
  have nz : ∀ u, 0 ≤ u → (atLeastStep sc step u ≠ 0 ↔ u ≠ 0) := by
    intro u hu
    unfold atLeastStep
    split
    · rename_i h; exact ⟨fun _ => h.2.1.ne', fun _ => hs.ne'⟩
    · rfl
  have mono : ∀ u v : Rat, 0 < u → u ≤ v → atLeastStep sc step u ≤ atLeastStep sc step v := by
    intro u v hu huv
    cases sc with
    | false => simpa only [atLeastStep_false] using huv
    | true => rw [atLeastStep_pos hu, atLeastStep_pos (hu.trans_le huv)]; exact max_le_max_right _ huv
  constructor
  · intro h0
    rw [h.1, atLeastStep_zero]
    rw [List.filter_eq_nil_iff]
    intro u hu hu0
    have : atLeastStep sc step u ∈ (l.map (atLeastStep sc step)).filter fun u => u ≠ 0 :=
      List.mem_filter.mpr ⟨List.mem_map_of_mem hu, decide_eq_true ((nz u (hl u hu)).mpr (of_decide_eq_true hu0))⟩
    rw [h0] at this
    cases this
  · intro hne
    obtain ⟨u, hu⟩ := List.exists_mem_of_ne_nil _ hne
    obtain ⟨hu, hu0⟩ := List.mem_filter.mp hu
    obtain ⟨u, hul, rfl⟩ := List.mem_map.mp hu
    obtain ⟨c1, c2⟩ := h.2 (List.ne_nil_of_mem (List.mem_filter.mpr
      ⟨hul, decide_eq_true ((nz u (hl u hul)).mp (of_decide_eq_true hu0))⟩))
    obtain ⟨hcl, hc0⟩ := List.mem_filter.mp c1
    refine ⟨List.mem_filter.mpr ⟨List.mem_map_of_mem hcl, decide_eq_true ((nz c (hl c hcl)).mpr (of_decide_eq_true hc0))⟩, ?_⟩
    intro w hw
    obtain ⟨hw, hw0⟩ := List.mem_filter.mp hw
    obtain ⟨w, hwl, rfl⟩ := List.mem_map.mp hw
    have hwn := (nz w (hl w hwl)).mp (of_decide_eq_true hw0)
    exact mono c w (lt_of_le_of_ne (hl c hcl) (of_decide_eq_true hc0).symm) (c2 w (List.mem_filter.mpr ⟨hwl, decide_eq_true hwn⟩))

section
variable {clip : Poly → Poly → List Poly} {foot : Pt → Poly} {me mg : Option Int} {dx dy X Y : Rat}

/-- What is in a pixel for files that are taken from several lists. -/
theorem PixelHolds.parts {n : Nat} (parts : Nat → List GFile) {fed fa te ged ga mfa : Nat → Rat} {fed' fa' te' ged' ga' mfa' : Rat}
    (h : ∀ k, k < n → PixelHolds clip foot me mg (parts k) dx dy X Y (fed k) (fa k) (te k) (ged k) (ga k) (mfa k))
    (h' : PixelHolds clip foot me mg ((List.range n).flatMap parts) dx dy X Y fed' fa' te' ged' ga' mfa')
    (hpos : ∀ k, k < n → ∀ d ∈ parts k, ∀ f ∈ countedFlashes me mg d, flashPlaces d f ≠ [] → 0 < f.val.area) :
    fed' = ((List.range n).map fed).sum ∧ fa' = ((List.range n).map fa).sum ∧ te' = ((List.range n).map te).sum ∧
    ged' = ((List.range n).map ged).sum ∧ ga' = ((List.range n).map ga).sum ∧
    LeastOrZero (((List.range n).map mfa).filter fun u => u ≠ 0) mfa' ∧ ∀ k, k < n → 0 ≤ mfa k := by
  classical
  have sums : ∀ (g : GFile → Rat) (v : Nat → Rat), (∀ k, k < n → v k = ((parts k).map g).sum) →
      (((List.range n).flatMap parts).map g).sum = ((List.range n).map v).sum := by
    intro g v hv
    rw [sum_flatMap_map]
    exact congrArg List.sum (List.map_congr_left fun k hk => (hv k (List.mem_range.mp hk)).symm)
  have areas : ∀ k, k < n → ∀ u ∈ (parts k).flatMap fun d => ((countedFlashes me mg d).filter fun (f : Row GVal) =>
      ∃ p ∈ flashPlaces d f, clip (foot p) (pixelAt dx dy X Y) ≠ []).map fun f => f.val.area, 0 < u := by
    intro k hk u hu
    obtain ⟨d, hd, hu⟩ := List.mem_flatMap.mp hu
    obtain ⟨f, hf, rfl⟩ := List.mem_map.mp hu
    obtain ⟨hf, hp⟩ := List.mem_filter.mp hf
    obtain ⟨p, hp, -⟩ := of_decide_eq_true hp
    exact hpos k hk d hd f hf (List.ne_nil_of_mem hp)
  refine ⟨?_, ?_, ?_, ?_, ?_, ?_, ?_⟩
  · rw [h'.flashes]; exact sums _ _ fun k hk => (h k hk).flashes
  · rw [h'.flashArea]; exact sums _ _ fun k hk => (h k hk).flashArea
  · rw [h'.energy]; exact sums _ _ fun k hk => (h k hk).energy
  · rw [h'.groups]; exact sums _ _ fun k hk => (h k hk).groups
  · rw [h'.groupArea]; exact sums _ _ fun k hk => (h k hk).groupArea
  · have hl := h'.least
    rw [List.flatMap_assoc] at hl
    refine leastOrZero_flatMap _ _ mfa (fun k hk => areas k (List.mem_range.mp hk)) (fun k hk => ?_) hl
    exact (h k (List.mem_range.mp hk)).least
  · intro k hk
    have hl := (h k hk).least
    by_cases h0 : ((parts k).flatMap fun d => ((countedFlashes me mg d).filter fun (f : Row GVal) =>
      ∃ p ∈ flashPlaces d f, clip (foot p) (pixelAt dx dy X Y) ≠ []).map fun f => f.val.area) = []
    · rw [hl.1 h0]
    · exact (areas k hk _ (hl.2 h0).1).le

end

/-! ## C162 -/

/-- A frame of the given number of a call shows the value `v k` in a pixel, for all of the first `n` frames. -/
def ShowsEach (runs : List (TileRun TileState ImageFile)) (n : Nat) (name : String) (X Y : Rat) (v : Nat → Rat) : Prop :=
  ∀ k, k < n → ShowsIn runs k name X Y (v k)

section
variable {envA envC : Surroundings} {F G : Framing} {kwA kwC sA sC sA' sC' : Dict}
  {xA yA xC yC dx dy : Rat} {MA NA kA MC NC kC : Nat} {me mg : Option Int}
  {filesA filesC openedA openedC : List GFile} {runsA runsC : List (TileRun TileState ImageFile)} {sc : Bool}

theorem period_pixel (hA : GoodCall envA kwA xA yA dx dy MA NA kA me mg filesA openedA)
    (hC : GoodCall envC kwC xC yC dx dy MC NC kC me mg filesC openedC) (hF : PicksByTime F) (hG : PicksByTime G)
    (hclip : envC.clip = envA.clip) (hfoot : envC.foot = envA.foot) (hbase : envC.basedate = envA.basedate)
    (htime : envC.productTime = envA.productTime) (hall : openedC.Perm openedA)
    (rA : gridGlmFlashes (framesGridder envA F) filesA kwA sA = .ok (runsA, sA'))
    (rC : gridGlmFlashes (framesGridder envC G) filesC kwC sC = .ok (runsC, sC'))
    (scA : Scaled runsA sc) (scC : Scaled runsC sc) {first : Rat} {rest : List Rat} (hE : F.tEdges = first :: rest)
    (ha : F.tEdges.Pairwise (· ≤ ·)) {n : Nat}
    (hn : (pairwise G.tEdges)[n]? = some (first, (first :: rest).getLast (List.cons_ne_nil _ _))) {X Y : Rat}
    (exA : ∀ k, k < rest.length → ∃ name v, ShowsIn runsA k name X Y v) (exC : ∃ name v, ShowsIn runsC n name X Y v) :
    ∃ fed fa te ged ga mfa : Nat → Rat, ∃ least, (∀ k, k < rest.length → ∃ t, (pairwise F.tEdges)[k]? = some t ∧
        PixelHolds envA.clip envA.foot me mg (filesOf envA t openedA) dx dy X Y (fed k) (fa k) (te k) (ged k) (ga k) (mfa k)) ∧
      (∀ k, k < rest.length → 0 ≤ mfa k) ∧
      LeastOrZero (((List.range rest.length).map mfa).filter fun u => u ≠ 0) least ∧
      (∀ k, k < rest.length → ∀ name v, name ∈ sixNames → ShowsIn runsA k name X Y v →
        (name, v) ∈ shown sc (fed k) (fa k) (te k) (ged k) (ga k) (mfa k)) ∧
      ∀ name v, name ∈ sixNames → ShowsIn runsC n name X Y v → (name, v) ∈ shown sc ((List.range rest.length).map fed).sum
        ((List.range rest.length).map fa).sum ((List.range rest.length).map te).sum ((List.range rest.length).map ged).sum
        ((List.range rest.length).map ga).sum least := by
  have hlen : (pairwise F.tEdges).length = rest.length := by rw [pairwise_length, hE]; rfl
  have hk : ∀ k, ∃ t, k < rest.length → (pairwise F.tEdges)[k]? = some t := by
    intro k
    by_cases h : k < rest.length
    · exact ⟨_, fun _ => List.getElem?_eq_getElem (by rw [hlen]; exact h)⟩
    · exact ⟨(0, 0), fun h' => absurd h' h⟩
  choose t ht using hk
  have hpix : ∀ k, ∃ fed fa te ged ga mfa, k < rest.length →
      PixelHolds envA.clip envA.foot me mg (filesOf envA (t k) openedA) dx dy X Y fed fa te ged ga mfa ∧
      ∀ name v, name ∈ sixNames → ShowsIn runsA k name X Y v → (name, v) ∈ shown sc fed fa te ged ga mfa := by
    intro k
    by_cases h : k < rest.length
    · obtain ⟨fed, fa, te, ged, ga, mfa, hp⟩ := frame_pixel hA hF rA scA (ht k h) (exA k h)
      exact ⟨fed, fa, te, ged, ga, mfa, fun _ => hp⟩
    · exact ⟨0, 0, 0, 0, 0, 0, fun h' => absurd h' h⟩
  choose fed fa te ged ga mfa hp using hpix
  obtain ⟨fedC, faC, teC, gedC, gaC, mfaC, pC, vC⟩ := frame_pixel hC hG rC scC hn exC
  have hfiles : ∀ u l, filesOf envC u l = filesOf envA u l := by
    intro u l
    unfold filesOf
    rw [hbase, htime]
  have hpairs : pairwise (first :: rest) = (List.range rest.length).map t := by
    rw [← hE]
    apply List.ext_getElem
    · rw [hlen, List.length_map, List.length_range]
    intro k h1 h2
    rw [List.getElem_map, List.getElem_range]
    have := ht k (by rw [← hlen]; exact h1)
    rw [List.getElem?_eq_getElem h1] at this
    exact Option.some.inj this
  have hperm : (filesOf envC (first, (first :: rest).getLast (List.cons_ne_nil _ _)) openedC).Perm
      ((List.range rest.length).flatMap fun k => filesOf envA (t k) openedA) := by
    rw [hfiles]
    have h1 : (filesOf envA (first, (first :: rest).getLast (List.cons_ne_nil _ _)) openedC).Perm
        (filesOf envA (first, (first :: rest).getLast (List.cons_ne_nil _ _)) openedA) := hall.filter _
    refine (h1.trans (period_files envA openedA first rest (by rw [← hE]; exact ha))).trans ?_
    rw [hpairs, List.flatMap_map]
  rw [hclip, hfoot] at pC
  obtain ⟨rfl, rfl, rfl, rfl, rfl, hleast, hnn⟩ := PixelHolds.parts (fun k => filesOf envA (t k) openedA)
    (fun k h => (hp k h).1) (pC.perm hperm) fun k _ d hd f hf hpl =>
      (hA.compact d (List.mem_filter.mp hd).1 (by
        obtain ⟨p, hp⟩ := List.exists_mem_of_ne_nil _ hpl
        exact events_of_place hp)).areas f (List.mem_filter.mp hf).1
  exact ⟨fed, fa, te, ged, ga, mfa, mfaC, fun k h => ⟨t k, ht k h, (hp k h).1⟩, hnn, hleast, fun k h => (hp k h).2, vC⟩

/-- **C162**.  Two calls for the same data: in the first the period is cut into frames, in the second it is one frame.  In every
pixel that both show, the densities and energies in the image of the period are the sums of those in the images of the frames,
but for the steps of scaled integers; the minimum flash area is the least of those that are not 0; and the average areas are
the averages, weighted by the densities. -/
theorem C162_sums (hA : GoodCall envA kwA xA yA dx dy MA NA kA me mg filesA openedA)
    (hC : GoodCall envC kwC xC yC dx dy MC NC kC me mg filesC openedC) (hF : PicksByTime F) (hG : PicksByTime G)
    (hclip : envC.clip = envA.clip) (hfoot : envC.foot = envA.foot) (hbase : envC.basedate = envA.basedate)
    (htime : envC.productTime = envA.productTime) (hall : openedC.Perm openedA)
    (hpos : ∀ d ∈ openedA, ∀ e ∈ d.events, 0 ≤ e.val.energy)
    (rA : gridGlmFlashes (framesGridder envA F) filesA kwA sA = .ok (runsA, sA'))
    (rC : gridGlmFlashes (framesGridder envC G) filesC kwC sC = .ok (runsC, sC'))
    (scA : Scaled runsA sc) (scC : Scaled runsC sc) {first last : Rat} {rest : List Rat} (hE : F.tEdges = first :: rest)
    (hL : F.tEdges.getLast? = some last) (ha : F.tEdges.Pairwise (· ≤ ·)) {n : Nat}
    (hn : (pairwise G.tEdges)[n]? = some (first, last)) (X Y : Rat) :
    (∀ name step, (name, step) ∈ [("flash_extent_density", (1/16 : Rat)), ("total_energy", 152597 / 100000000000),
        ("group_extent_density", 1/4)] → ∀ a c, ShowsEach runsA rest.length name X Y a → ShowsIn runsC n name X Y c →
        c ≤ ((List.range rest.length).map a).sum ∧
        ((List.range rest.length).map a).sum ≤ c + (rest.length - 1 : Nat) * step ∧
        (sc = false → c = ((List.range rest.length).map a).sum)) ∧
    (∀ a c, ShowsEach runsA rest.length "minimum_flash_area" X Y a → ShowsIn runsC n "minimum_flash_area" X Y c →
      LeastOrZero (((List.range rest.length).map a).filter fun u => u ≠ 0) c) ∧
    (sc = false → ∀ name density, (name, density) ∈ [("average_flash_area", "flash_extent_density"),
        ("average_group_area", "group_extent_density")] →
      ∀ a c u w, ShowsEach runsA rest.length name X Y a → ShowsIn runsC n name X Y c →
        ShowsEach runsA rest.length density X Y u → ShowsIn runsC n density X Y w →
        c * w = ((List.range rest.length).map fun k => a k * u k).sum) := by
  have hlast : last = (first :: rest).getLast (List.cons_ne_nil _ _) := by
    rw [hE, List.getLast?_eq_some_getLast (List.cons_ne_nil _ _)] at hL
    exact (Option.some.inj hL).symm
  subst hlast
  have key := fun (exA : ∀ k, k < rest.length → ∃ name v, ShowsIn runsA k name X Y v) exC =>
    period_pixel (X := X) (Y := Y) hA hC hF hG hclip hfoot hbase htime hall rA rC scA scC hE ha hn exA exC
  have six : ∀ name ∈ ["flash_extent_density", "average_flash_area", "total_energy", "group_extent_density",
    "average_group_area", "minimum_flash_area"], name ∈ sixNames := fun _ h => h
  have inRange : ∀ {p : Nat → Rat}, (∀ k, k < rest.length → 0 ≤ p k) → ∀ u ∈ (List.range rest.length).map p, 0 ≤ u := by
    intro p hp u hu
    obtain ⟨k, hk, rfl⟩ := List.mem_map.mp hu
    exact hp k (List.mem_range.mp hk)
  have same : ∀ {p q : Nat → Rat}, (∀ k, k < rest.length → p k = q k) →
      (List.range rest.length).map p = (List.range rest.length).map q :=
    fun h => List.map_congr_left fun k hk => h k (List.mem_range.mp hk)
  refine ⟨?_, ?_, ?_⟩
  · intro name step hname a c hsa hsc
    obtain ⟨fed, fa, te, ged, ga, mfa, least, pA, -, -, vA, vC⟩ := key (fun k hk => ⟨_, _, hsa k hk⟩) ⟨_, _, hsc⟩
    have hn : name ∈ sixNames := by
      simp only [List.mem_cons, Prod.mk.injEq, List.not_mem_nil, or_false] at hname
      rcases hname with ⟨rfl, -⟩ | ⟨rfl, -⟩ | ⟨rfl, -⟩ <;> exact six _ (by simp)
    have wA := fun k hk => shown_of (vA k hk name _ hn (hsa k hk))
    have wC := shown_of (vC name c hn hsc)
    have sums : ∀ {st : Rat} {p : Nat → Rat}, 0 < st → (∀ k, k < rest.length → 0 ≤ p k) →
        (∀ k, k < rest.length → a k = atLeastStep sc st (p k)) → c = atLeastStep sc st ((List.range rest.length).map p).sum →
        c ≤ ((List.range rest.length).map a).sum ∧ ((List.range rest.length).map a).sum ≤ c + (rest.length - 1 : Nat) * st ∧
        (sc = false → c = ((List.range rest.length).map a).sum) := by
      intro st p h0 hp e1 e2
      obtain ⟨k1, k2⟩ := atLeastStep_total sc h0 _ (inRange hp)
      rw [List.map_map, List.length_map, List.length_range] at k2
      rw [List.map_map] at k1
      rw [same e1, e2]
      refine ⟨k1, k2, fun h => ?_⟩
      subst h
      simp only [atLeastStep_false]
    have fN : ∀ k, k < rest.length → 0 ≤ fed k ∧ 0 ≤ ged k ∧ 0 ≤ te k := by
      intro k hk
      obtain ⟨t, -, hp⟩ := pA k hk
      obtain ⟨f, g, -, -⟩ := hp.nonneg hA.xPos hA.yPos
      exact ⟨f, g, hp.energy_nonneg fun d hd => hpos d (List.mem_filter.mp hd).1⟩
    simp only [List.mem_cons, Prod.mk.injEq, List.not_mem_nil, or_false] at hname
    rcases hname with ⟨rfl, rfl⟩ | ⟨rfl, rfl⟩ | ⟨rfl, rfl⟩
    · exact sums (by norm_num) (fun k hk => (fN k hk).1) (fun k hk => (wA k hk).1 rfl) (wC.1 rfl)
    · exact sums (by norm_num) (fun k hk => (fN k hk).2.2) (fun k hk => (wA k hk).2.2.1 rfl) (wC.2.2.1 rfl)
    · exact sums (by norm_num) (fun k hk => (fN k hk).2.1) (fun k hk => (wA k hk).2.2.2.1 rfl) (wC.2.2.2.1 rfl)
  · intro a c hsa hsc
    obtain ⟨fed, fa, te, ged, ga, mfa, least, pA, nn, hl, vA, vC⟩ := key (fun k hk => ⟨_, _, hsa k hk⟩) ⟨_, _, hsc⟩
    have hn := six "minimum_flash_area" (by simp)
    have wA := fun k hk => (shown_of (vA k hk _ _ hn (hsa k hk))).2.2.2.2.2 rfl
    rw [(shown_of (vC _ c hn hsc)).2.2.2.2.2 rfl, same wA]
    have := atLeastStep_leastIn sc (step := 10) (by norm_num) _ (inRange nn) hl
    rw [List.map_map] at this
    exact this
  · intro h name density hname a c u w hsa hsc hsu hsw
    subst h
    obtain ⟨fed, fa, te, ged, ga, mfa, least, pA, -, -, vA, vC⟩ := key (fun k hk => ⟨_, _, hsa k hk⟩) ⟨_, _, hsc⟩
    have comb : ∀ {x y : Nat → Rat}, (∀ k, k < rest.length → 0 ≤ y k ∧ (y k = 0 → x k = 0)) →
        averageOf ((List.range rest.length).map x).sum ((List.range rest.length).map y).sum * ((List.range rest.length).map y).sum =
          ((List.range rest.length).map fun k => averageOf (x k) (y k) * y k).sum := by
      intro x y hxy
      rw [same fun k hk => averageOf_mul (hxy k hk).2, averageOf_mul]
      intro h0
      have hz : ∀ k ∈ List.range rest.length, y k = 0 := fun k hk =>
        zero_terms _ y (fun k hk => (hxy k (List.mem_range.mp hk)).1) h0 k hk
      exact zero_sum _ x fun k hk => (hxy k (List.mem_range.mp hk)).2 (hz k hk)
    have nz : ∀ k, k < rest.length → (0 ≤ fed k ∧ (fed k = 0 → fa k = 0)) ∧ (0 ≤ ged k ∧ (ged k = 0 → ga k = 0)) := by
      intro k hk
      obtain ⟨t, -, hp⟩ := pA k hk
      obtain ⟨f, g, z1, z2⟩ := hp.nonneg hA.xPos hA.yPos
      exact ⟨⟨f, z1⟩, ⟨g, z2⟩⟩
    simp only [List.mem_cons, Prod.mk.injEq, List.not_mem_nil, or_false] at hname
    rcases hname with ⟨rfl, rfl⟩ | ⟨rfl, rfl⟩
    · have hn := six "average_flash_area" (by simp)
      have hn' := six "flash_extent_density" (by simp)
      have e1 := fun k hk => (shown_of (vA k hk _ _ hn (hsa k hk))).2.1 rfl
      have e2 := fun k hk => (shown_of (vA k hk _ _ hn' (hsu k hk))).1 rfl
      rw [(shown_of (vC _ c hn hsc)).2.1 rfl, (shown_of (vC _ w hn' hsw)).1 rfl,
        same (p := fun k => a k * u k) fun k hk => by rw [e1 k hk, e2 k hk]]
      simp only [atLeastStep_false]
      exact comb fun k hk => (nz k hk).1
    · have hn := six "average_group_area" (by simp)
      have hn' := six "group_extent_density" (by simp)
      have e1 := fun k hk => (shown_of (vA k hk _ _ hn (hsa k hk))).2.2.2.2.1 rfl
      have e2 := fun k hk => (shown_of (vA k hk _ _ hn' (hsu k hk))).2.2.2.1 rfl
      rw [(shown_of (vC _ c hn hsc)).2.2.2.2.1 rfl, (shown_of (vC _ w hn' hsw)).2.2.2.1 rfl,
        same (p := fun k => a k * u k) fun k hk => by rw [e1 k hk, e2 k hk]]
      simp only [atLeastStep_false]
      exact comb fun k hk => (nz k hk).2

end

section
variable {env : Surroundings} {F : Framing} {kw shared sh : Dict} {xlo ylo dx dy : Rat} {M N s : Nat} {me mg : Option Int}
  {files opened : List GFile} {runs : List (TileRun TileState ImageFile)} {sc : Bool}

/-- The energy in the images of a frame. -/
theorem frame_energy (h : GoodCall env kw xlo ylo dx dy M N s me mg files opened) (hF : PicksByTime F)
    (hr : gridGlmFlashes (framesGridder env F) files kw shared = .ok (runs, sh)) (hsc : Scaled runs sc)
    (hin : ∀ d ∈ opened, ∀ e ∈ countedEvents me mg d, PartsAddUp env.clip xlo ylo dx dy M N (env.foot (placeOf e))) {k : Nat}
    {t : Rat × Rat} (ht : (pairwise F.tEdges)[k]? = some t) (v : Nat → Nat → Rat) (hv : ∀ m n, m < M → n < N →
      ShowsIn runs k "total_energy" (xlo + (m + 1/2) * dx) (ylo + (n + 1/2) * dy) (v m n)) :
    countedEnergy me mg (filesOf env t opened) ≤ overBoxes M N v ∧
    overBoxes M N v ≤ countedEnergy me mg (filesOf env t opened) + 152597 / 100000000000 * (M * N) ∧
    (sc = false → overBoxes M N v = countedEnergy me mg (filesOf env t opened)) := by
  let te : Nat → Nat → Rat := fun m n =>
    pixelEnergy env.clip env.foot me mg (filesOf env t opened) dx dy (xlo + (m + 1/2) * dx) (ylo + (n + 1/2) * dy)
  have sub : ∀ d ∈ filesOf env t opened, d ∈ opened := fun d hd => (List.mem_filter.mp hd).1
  have hte : ∀ m n, m < M → n < N → v m n = atLeastStep sc (152597 / 100000000000) (te m n) := by
    intro m n hm hn
    obtain ⟨fed, fa, e, ged, ga, mfa, hp, hs⟩ := frame_pixel h hF hr hsc ht ⟨_, _, hv m n hm hn⟩
    have h1 := (shown_of (hs _ _ (by simp [sixNames]) (hv m n hm hn))).2.2.1 rfl
    rw [hp.energy] at h1
    exact h1
  have total : overBoxes M N te = countedEnergy me mg (filesOf env t opened) :=
    pixelEnergy_total (fun d hd e he => ((h.compact d (sub d hd) (List.ne_nil_of_mem he)).polygons e he).2)
      fun d hd => hin d (sub d hd)
  have hst : (0 : Rat) < 152597 / 100000000000 := by norm_num
  refine ⟨?_, ?_, ?_⟩
  · rw [← total]
    refine overBoxes_le fun m n hm hn => ?_
    rw [hte m n hm hn]
    exact (atLeastStep_bounds sc hst).1
  · rw [← total, ← overBoxes_add_const]
    refine overBoxes_le fun m n hm hn => ?_
    rw [hte m n hm hn]
    exact (atLeastStep_bounds sc hst).2
  · rintro rfl
    rw [← total]
    refine overBoxes_congr fun m n hm hn => ?_
    rw [hte m n hm hn, atLeastStep_false]

theorem countedEnergy_perm {l l' : List GFile} (h : l.Perm l') : countedEnergy me mg l = countedEnergy me mg l' :=
  (h.map _).sum_eq

theorem countedEnergy_flatMap {α : Type} (l : List α) (f : α → List GFile) :
    countedEnergy me mg (l.flatMap f) = (l.map fun a => countedEnergy me mg (f a)).sum := sum_flatMap_map _ _ _

theorem sum_bounds {n : Nat} {p q : Nat → Rat} {c : Rat} (h : ∀ k, k < n → p k ≤ q k ∧ q k ≤ p k + c) :
    ((List.range n).map p).sum ≤ ((List.range n).map q).sum ∧
    ((List.range n).map q).sum ≤ ((List.range n).map p).sum + c * n := by
  induction n with
  | zero => simp
  | succ n ih =>
    obtain ⟨i1, i2⟩ := ih fun k hk => h k (by omega)
    obtain ⟨h1, h2⟩ := h n (by omega)
    simp only [List.range_succ, List.map_append, List.sum_append, List.map_cons, List.map_nil, List.sum_cons, List.sum_nil,
      add_zero]
    push_cast
    exact ⟨by linarith, by linarith⟩

theorem period_energy (opened : List GFile) {first : Rat} {rest : List Rat} (ha : (first :: rest).Pairwise (· ≤ ·)) :
    countedEnergy me mg (filesOf env (first, (first :: rest).getLast (List.cons_ne_nil _ _)) opened) =
      ((List.range rest.length).map fun k =>
        countedEnergy me mg (filesOf env ((pairwise (first :: rest)).getD k (0, 0)) opened)).sum := by
  rw [countedEnergy_perm (period_files env opened first rest ha), countedEnergy_flatMap]
  have hlen : (pairwise (first :: rest)).length = rest.length := by rw [pairwise_length]; rfl
  generalize pairwise (first :: rest) = l at hlen ⊢
  congr 1
  apply List.ext_getElem
  · rw [List.length_map, hlen, List.length_map, List.length_range]
  intro k h1 h2
  rw [List.length_map] at h1
  rw [List.getElem_map, List.getElem_map, List.getElem_range, List.getD_eq_getElem _ _ h1]

/-- **C162**, energy.  If footprints lie in the domain, the images of all frames together hold the energy of the events of the
files of the period: exactly if values are not scaled, and otherwise with an excess of at most one step for each box and
frame. -/
theorem C162_energy (h : GoodCall env kw xlo ylo dx dy M N s me mg files opened) (hF : PicksByTime F)
    (hr : gridGlmFlashes (framesGridder env F) files kw shared = .ok (runs, sh)) (hsc : Scaled runs sc)
    (hin : ∀ d ∈ opened, ∀ e ∈ countedEvents me mg d, PartsAddUp env.clip xlo ylo dx dy M N (env.foot (placeOf e)))
    {first last : Rat} {rest : List Rat} (hE : F.tEdges = first :: rest) (hL : F.tEdges.getLast? = some last)
    (ha : F.tEdges.Pairwise (· ≤ ·)) (v : Nat → Nat → Nat → Rat)
    (hv : ∀ k m n, k < rest.length → m < M → n < N →
      ShowsIn runs k "total_energy" (xlo + (m + 1/2) * dx) (ylo + (n + 1/2) * dy) (v k m n)) :
    countedEnergy me mg (filesOf env (first, last) opened) ≤ ((List.range rest.length).map fun k => overBoxes M N (v k)).sum ∧
    ((List.range rest.length).map fun k => overBoxes M N (v k)).sum ≤
      countedEnergy me mg (filesOf env (first, last) opened) + 152597 / 100000000000 * (M * N) * rest.length ∧
    (sc = false → ((List.range rest.length).map fun k => overBoxes M N (v k)).sum =
      countedEnergy me mg (filesOf env (first, last) opened)) := by
  have hlast : last = (first :: rest).getLast (List.cons_ne_nil _ _) := by
    rw [hE, List.getLast?_eq_some_getLast (List.cons_ne_nil _ _)] at hL
    exact (Option.some.inj hL).symm
  subst hlast
  have hlen : (pairwise F.tEdges).length = rest.length := by rw [pairwise_length, hE]; rfl
  have one := fun k (hk : k < rest.length) => frame_energy h hF hr hsc hin
    (k := k) (List.getElem?_eq_getElem (by rw [hlen]; exact hk)) (v k) fun m n hm hn => hv k m n hk hm hn
  have total := period_energy (env := env) (me := me) (mg := mg) opened (first := first) (rest := rest) (by rw [← hE]; exact ha)
  have one' : ∀ k, k < rest.length →
      countedEnergy me mg (filesOf env ((pairwise (first :: rest)).getD k (0, 0)) opened) ≤ overBoxes M N (v k) ∧
      overBoxes M N (v k) ≤ countedEnergy me mg (filesOf env ((pairwise (first :: rest)).getD k (0, 0)) opened) +
        152597 / 100000000000 * (M * N) ∧
      (sc = false → overBoxes M N (v k) = countedEnergy me mg (filesOf env ((pairwise (first :: rest)).getD k (0, 0)) opened)) := by
    intro k hk
    rw [← hE, List.getD_eq_getElem _ _ (by rw [hlen]; exact hk)]
    exact one k hk
  rw [total]
  obtain ⟨b1, b2⟩ := sum_bounds fun k hk => ⟨(one' k hk).1, (one' k hk).2.1⟩
  refine ⟨b1, b2, fun hs => ?_⟩
  exact congrArg List.sum (List.map_congr_left fun k hk => (one' k (List.mem_range.mp hk)).2.2 hs)

end

/-! ### Sample -/

/-- `secondSample` is a minute later than `wholeSample`. -/
def timedEnv : Surroundings :=
  { wholeEnv with productTime := fun d => if d.flashes.length = 1 then 65000000000 else 5000000000 }

/-- The energies that frames of a call for the samples show at a place. -/
def frameEnergyAt (tEdges : List Rat) (X Y : Rat) : List (List Rat) :=
  match gridGlmFlashes (framesGridder timedEnv (sampleFrames tEdges)) [wholeSample, secondSample] wholeCall [] with
  | .ok (runs, _) => (List.range (tEdges.length - 1)).map fun k =>
      runs.flatMap fun (r : TileRun TileState ImageFile) => (r.written[k]?).toList.flatMap fun nf =>
        (List.range nf.2.y.length).flatMap fun row => (List.range nf.2.x.length).flatMap fun col =>
          if nf.2.x[col]? = some X ∧ nf.2.y[row]? = some Y then
            nf.2.fields.filterMap fun p => if p.1 = "total_energy" then some (p.2.val row col) else none
          else []
  | .error _ => []

/-- C162 for the samples: 3/2 nJ in the first minute and 9/4 nJ in the second, 15/4 nJ in both. -/
theorem frames_sample : frameEnergyAt [0, 60, 120] (3/2000) (3/2000) = [[3/2], [9/4]] ∧
    frameEnergyAt [0, 120] (3/2000) (3/2000) = [[15/4]] := by
  decide +kernel

theorem timed_good {kw : Dict} {xlo ylo : Rat} {M N s : Nat} (hs : 0 < s) (hM : 2 * s ≤ M) (hN : s ≤ N)
    (h : FixedGridAsked kw xlo ylo (1/1000) (1/1000) M N s (some 2) none) :
    GoodCall timedEnv kw xlo ylo (1/1000) (1/1000) M N s (some 2) none [wholeSample, secondSample] [wholeSample, secondSample] :=
  { samples_good hs hM hN h (files := [wholeSample, secondSample]) (by simp) ⟨wholeSample, by simp, by simp [wholeSample]⟩ with
    opens := fun _ _ => opens_same _ }

/-- The samples meet the hypotheses of `C162_sums`. -/
example {runsA runsC : List (TileRun TileState ImageFile)} {sA sC : Dict}
    (rA : gridGlmFlashes (framesGridder timedEnv (sampleFrames [0, 60, 120])) [wholeSample, secondSample] wholeCall [] = .ok (runsA, sA))
    (rC : gridGlmFlashes (framesGridder timedEnv (sampleFrames [0, 120])) [wholeSample, secondSample] wideCall [] = .ok (runsC, sC))
    (scA : Scaled runsA true) (scC : Scaled runsC true) (X Y c : Rat) (a : Nat → Rat)
    (hA : ShowsEach runsA 2 "total_energy" X Y a) (hC : ShowsIn runsC 0 "total_energy" X Y c) :
    c ≤ a 0 + a 1 ∧ a 0 + a 1 ≤ c + 152597 / 100000000000 := by
  have := (C162_sums (timed_good (by omega) (by omega) (by omega) wholeCall_asked)
    (timed_good (by omega) (by omega) (by omega) wideCall_asked) (sampleFrames_pick _) (sampleFrames_pick _) rfl rfl rfl rfl
    (List.Perm.refl _) (by decide +kernel) rA rC scA scC (first := 0) (last := 120) (rest := [60, 120]) rfl rfl
    (by decide +kernel) (n := 0) rfl X Y).1 "total_energy" (152597 / 100000000000) (by simp) a c hA hC
  simpa [List.range_succ, add_assoc] using And.intro this.1 this.2.1

/-- They meet those of `C162_energy`: the images of both minutes hold the energy of both files. -/
example {runs : List (TileRun TileState ImageFile)} {sh : Dict} {v : Nat → Nat → Nat → Rat}
    (hr : gridGlmFlashes (framesGridder timedEnv (sampleFrames [0, 60, 120])) [wholeSample, secondSample] wideCall [] = .ok (runs, sh))
    (hsc : Scaled runs true) (hv : ∀ k m n : Nat, k < 2 → m < 6 → n < 6 →
      ShowsIn runs k "total_energy" (0 + (m + 1/2) * (1/1000)) (-1/1000 + (n + 1/2) * (1/1000)) (v k m n)) :
    countedEnergy (some 2) none [wholeSample, secondSample] ≤ overBoxes 6 6 (v 0) + overBoxes 6 6 (v 1) := by
  have hin : ∀ d ∈ [wholeSample, secondSample], ∀ e ∈ d.events,
      PartsAddUp rectClip 0 (-1/1000) (1/1000) (1/1000) 6 6 (wholeEnv.foot (placeOf e)) := by
    unfold PartsAddUp overBoxes partArea
    decide +kernel
  have hall : filesOf timedEnv (0, 120) [wholeSample, secondSample] = [wholeSample, secondSample] := by
    unfold filesOf
    rw [List.filter_eq_self]
    decide +kernel
  have := (C162_energy (timed_good (by omega) (by omega) (by omega) wideCall_asked) (sampleFrames_pick _) hr hsc
    (fun d hd e he => hin d hd e (List.mem_filter.mp he).1) (first := 0) (last := 120) (rest := [60, 120]) rfl rfl
    (by decide +kernel) v hv).1
  rw [hall] at this
  simpa [List.range_succ, add_assoc] using this

end Verif.Props
