import Verif.Props.Depends
import Verif.Props.MoreFiles

/-!
# C164: pixels show the lightning near them

C145 says that the values in a pixel depend on the lightning of the files.  Here: on the flashes that count and have an event
whose footprint is not on one side of the pixel; and where there are none, on nothing at all.
-/

namespace Verif.Props

open Verif.Py Verif.Model Verif.Spec Verif.Proofs

/-! ## Specification -/

/-- A polygon that is left of, right of, below or above the pixel whose centre is at `X`, `Y`. -/
def BesidePixel (dx dy X Y : Rat) (p : Poly) : Prop :=
  (∀ v ∈ p, v.1 ≤ X - dx / 2) ∨ (∀ v ∈ p, X + dx / 2 ≤ v.1) ∨ (∀ v ∈ p, v.2 ≤ Y - dy / 2) ∨ (∀ v ∈ p, Y + dy / 2 ≤ v.2)

instance (dx dy X Y : Rat) (p : Poly) : Decidable (BesidePixel dx dy X Y p) := by unfold BesidePixel; infer_instance

/-- A flash with an event whose footprint is not beside the pixel. -/
def ComesNear (foot : Pt → Poly) (dx dy X Y : Rat) (F : FlashOf) : Prop :=
  ∃ p ∈ F.events, ¬ BesidePixel dx dy X Y (foot p.1)

open scoped Classical in
/-- The flashes that count and come near the pixel. -/
noncomputable def nearby (foot : Pt → Poly) (me mg : Option Int) (dx dy X Y : Rat) (fl : List FlashOf) : List FlashOf :=
  fl.filter fun F => LargeEnough me mg F ∧ ComesNear foot dx dy X Y F

/-! ## Proofs -/

theorem clip_besidePixel {dx dy X Y : Rat} {p : Poly} (h : BesidePixel dx dy X Y p) :
    convexClip p (pixelAt dx dy X Y) = [] := by
  unfold pixelAt rect convexClip
  simp only
  rw [if_pos]
  apply cutRect_beside
  simp only [mem_counterclockwise]
  exact h

/-- What a pixel holds of lightning is what it holds of the flashes nearby. -/
theorem LightningHolds.nearby {foot : Pt → Poly} {me mg : Option Int} {fl : List FlashOf}
    {dx dy X Y fed fa te ged ga mfa : Rat} (h : LightningHolds convexClip foot me mg fl dx dy X Y fed fa te ged ga mfa) :
    LightningHolds convexClip foot me mg (nearby foot me mg dx dy X Y fl) dx dy X Y fed fa te ged ga mfa := by
  classical
  have hc : counted me mg (Props.nearby foot me mg dx dy X Y fl) =
      (counted me mg fl).filter fun F => ComesNear foot dx dy X Y F := by
    unfold counted Props.nearby
    rw [List.filter_filter, List.filter_filter]
    refine List.filter_congr fun F _ => ?_
    by_cases a : LargeEnough me mg F <;> by_cases b : ComesNear foot dx dy X Y F <;> simp [a, b]
  have off : ∀ F : FlashOf, decide (ComesNear foot dx dy X Y F) = false → ∀ p ∈ F.events,
      convexClip (foot p.1) (pixelAt dx dy X Y) = [] := by
    intro F hF p hp
    refine clip_besidePixel ?_
    by_contra hb
    exact of_decide_eq_false hF ⟨p, hp, hb⟩
  have part : ∀ p, convexClip (foot p) (pixelAt dx dy X Y) = [] → partArea convexClip (foot p) (pixelAt dx dy X Y) = 0 := by
    intro p hp
    unfold partArea
    rw [hp]
    rfl
  have share : ∀ p, convexClip (foot p) (pixelAt dx dy X Y) = [] → pixelShare convexClip foot dx dy X Y p = 0 := by
    intro p hp
    unfold pixelShare
    rw [part p hp, zero_div]
  have zeros : ∀ {α : Type} (l : List α) (F : α → Rat), (∀ a ∈ l, F a = 0) → (l.map F).sum = 0 := fun l F hF =>
    List.sum_eq_zero (fun x hx => by
      obtain ⟨a, ha, rfl⟩ := List.mem_map.mp hx
      exact hF a ha)
  have places : ∀ F : FlashOf, decide (ComesNear foot dx dy X Y F) = false →
      (F.places.map (pixelShare convexClip foot dx dy X Y)).sum = 0 := by
    intro F hF
    refine zeros _ _ fun q hq => ?_
    obtain ⟨p, hp, rfl⟩ := List.mem_map.mp (List.mem_dedup.mp hq)
    exact share _ (off F hF p hp)
  have groups : ∀ F : FlashOf, decide (ComesNear foot dx dy X Y F) = false → ∀ G ∈ F.groups,
      (G.places.map (pixelShare convexClip foot dx dy X Y)).sum = 0 := by
    intro F hF G hG
    refine zeros _ _ fun q hq => ?_
    obtain ⟨p, hp, rfl⟩ := List.mem_map.mp (List.mem_dedup.mp hq)
    exact share _ (off F hF p (List.mem_flatMap.mpr ⟨G, hG, hp⟩))
  refine ⟨?_, ?_, ?_, ?_, ?_, ?_⟩
  · rw [h.energy, hc]
    refine (sum_filter_zero _ _ _ fun F _ hF => zeros _ _ fun p hp => ?_).symm
    rw [part _ (off F hF p hp), zero_div, mul_zero]
  · rw [h.flashes, hc]
    exact (sum_filter_zero _ _ _ fun F _ hF => places F hF).symm
  · rw [h.groups, hc]
    exact (sum_filter_zero _ _ _ fun F _ hF => zeros _ _ fun G hG => groups F hF G hG).symm
  · rw [h.flashArea, hc]
    refine (sum_filter_zero _ _ _ fun F _ hF => ?_).symm
    rw [places F hF, mul_zero]
  · rw [h.groupArea, hc]
    refine (sum_filter_zero _ _ _ fun F _ hF => zeros _ _ fun G hG => ?_).symm
    rw [groups F hF G hG, mul_zero]
  · have hl := h.least
    rw [hc, List.filter_filter]
    convert hl using 4
    rename_i F
    rw [Bool.and_eq_left_iff_imp]
    intro hF
    obtain ⟨q, hq, hne⟩ := of_decide_eq_true hF
    obtain ⟨p, hp, rfl⟩ := List.mem_map.mp (List.mem_dedup.mp hq)
    exact decide_eq_true ⟨p, hp, fun hb => hne (clip_besidePixel hb)⟩

/-- Nothing gives nothing. -/
theorem lightning_none {clip : Poly → Poly → List Poly} {foot : Pt → Poly} {me mg : Option Int}
    {dx dy X Y fed fa te ged ga mfa : Rat} (h : LightningHolds clip foot me mg [] dx dy X Y fed fa te ged ga mfa) :
    fed = 0 ∧ fa = 0 ∧ te = 0 ∧ ged = 0 ∧ ga = 0 ∧ mfa = 0 :=
  ⟨h.flashes, h.flashArea, h.energy, h.groups, h.groupArea, h.least.1 rfl⟩

theorem shown_dark {sc : Bool} {name : String} {v : Rat} (h : (name, v) ∈ shown sc 0 0 0 0 0 0) : v = 0 := by
  unfold shown at h
  simp only [List.mem_cons, Prod.mk.injEq, List.not_mem_nil, or_false] at h
  rcases h with ⟨-, rfl⟩ | ⟨-, rfl⟩ | ⟨-, rfl⟩ | ⟨-, rfl⟩ | ⟨-, rfl⟩ | ⟨-, rfl⟩ <;> cases sc <;> decide +kernel

theorem nearby_none {foot : Pt → Poly} {me mg : Option Int} {dx dy X Y : Rat} {fl : List FlashOf}
    (h : ∀ F ∈ fl, LargeEnough me mg F → ∀ p ∈ F.events, BesidePixel dx dy X Y (foot p.1)) :
    nearby foot me mg dx dy X Y fl = [] := by
  classical
  unfold nearby
  refine List.filter_eq_nil_iff.mpr fun F hF => ?_
  rw [decide_eq_true_eq]
  rintro ⟨a, p, hp, hb⟩
  exact hb (h F hF a p hp)

section
variable {env env' : Surroundings} {order order' : List Int → List Int} {nav nav' : Rat → Rat → Rat × Rat}
  {attrs attrs' : GFile → FileAttrs} {kw kw' shared shared' sh sh' : Dict} {xlo ylo xlo' ylo' dx dy : Rat}
  {M N s M' N' s' : Nat} {me mg : Option Int} {files files' : List GFile} {runs runs' : List (TileRun TileState ImageFile)}
  {sc : Bool}

/-- **C164**.  Two calls whose files have the same flashes near a pixel show the same in this pixel, whatever lightning there is
elsewhere. -/
theorem C164_near (h : UnitsCall env order nav attrs kw xlo ylo dx dy M N s me mg files)
    (h' : UnitsCall env' order' nav' attrs' kw' xlo' ylo' dx dy M' N' s' me mg files') (hfoot : env'.foot = env.foot)
    (hr : gridGlmFlashes (lutGridder env) files kw shared = .ok (runs, sh))
    (hr' : gridGlmFlashes (lutGridder env') files' kw' shared' = .ok (runs', sh'))
    (hsc : Scaled runs sc) (hsc' : Scaled runs' sc) (X Y : Rat)
    (hs : SameLightning (nearby env.foot me mg dx dy X Y (files.flatMap fun d => lightning nav (inUnits (attrs d) d)))
      (nearby env.foot me mg dx dy X Y (files'.flatMap fun d => lightning nav' (inUnits (attrs' d) d))))
    (name : String) (hname : name ∈ sixNames) (v v' : Rat) (hv : Shows runs name X Y v) (hv' : Shows runs' name X Y v') :
    v' = v := by
  obtain ⟨fed, fa, te, ged, ga, mfa, p, q⟩ := h.holds hr hsc hname hv
  obtain ⟨fed', fa', te', ged', ga', mfa', p', q'⟩ := h'.holds hr' hsc' hname hv'
  rw [hfoot] at p'
  obtain ⟨rfl, rfl, rfl, rfl, rfl, rfl⟩ := lightning_unique hs p.nearby p'.nearby
  exact shown_unique q' q

/-- **C164**, dark pixels.  If all flashes that count have their footprints beside a pixel, all fields show 0 there. -/
theorem C164_dark (h : UnitsCall env order nav attrs kw xlo ylo dx dy M N s me mg files)
    (hr : gridGlmFlashes (lutGridder env) files kw shared = .ok (runs, sh)) (hsc : Scaled runs sc) (X Y : Rat)
    (hd : ∀ d ∈ files, ∀ F ∈ lightning nav (inUnits (attrs d) d), LargeEnough me mg F →
      ∀ p ∈ F.events, BesidePixel dx dy X Y (env.foot p.1))
    (name : String) (hname : name ∈ sixNames) (v : Rat) (hv : Shows runs name X Y v) : v = 0 := by
  obtain ⟨fed, fa, te, ged, ga, mfa, p, q⟩ := h.holds hr hsc hname hv
  have := p.nearby
  rw [nearby_none fun F hF => by
    obtain ⟨d, hd1, hd2⟩ := List.mem_flatMap.mp hF
    exact hd d hd1 F hd2] at this
  obtain ⟨rfl, rfl, rfl, rfl, rfl, rfl⟩ := lightning_none this
  exact shown_dark q

/-- What a frame holds in a pixel is what it holds of the lightning of its files. -/
theorem frame_holds {F : Framing} (h : FileCall env order nav kw xlo ylo dx dy M N s me mg files)
    (htime : KeepsTime env files) (hF : PicksByTime F)
    (hr : gridGlmFlashes (framesGridder env F) files kw shared = .ok (runs, sh)) (hsc : Scaled runs sc) {k : Nat} {t : Rat × Rat}
    (ht : (pairwise F.tEdges)[k]? = some t) {name : String} (hn : name ∈ sixNames) {X Y v : Rat}
    (hv : ShowsIn runs k name X Y v) :
    ∃ fed fa te ged ga mfa, LightningHolds convexClip env.foot me mg ((filesOf env t files).flatMap (lightning nav))
      dx dy X Y fed fa te ged ga mfa ∧ (name, v) ∈ shown sc fed fa te ged ga mfa := by
  obtain ⟨fed, fa, te, ged, ga, mfa, p, -, -, -, -, q⟩ := frame_pixel_files h htime hF hr hsc ht ⟨name, v, hv⟩
  refine ⟨fed, fa, te, ged, ga, mfa, files_lightning (fun d hd => ?_) p, q name v hn hv⟩
  have := (h.fit d (List.mem_filter.mp hd).1).sound
  exact ⟨this.flashes, this.groups⟩

/-- **C164** for frames: the lightning near the pixel in the files of the frame. -/
theorem C164_frames {F F' : Framing} (h : FileCall env order nav kw xlo ylo dx dy M N s me mg files)
    (h' : FileCall env' order' nav' kw' xlo' ylo' dx dy M' N' s' me mg files') (hfoot : env'.foot = env.foot)
    (htime : KeepsTime env files) (htime' : KeepsTime env' files') (hF : PicksByTime F) (hF' : PicksByTime F')
    (hr : gridGlmFlashes (framesGridder env F) files kw shared = .ok (runs, sh))
    (hr' : gridGlmFlashes (framesGridder env' F') files' kw' shared' = .ok (runs', sh'))
    (hsc : Scaled runs sc) (hsc' : Scaled runs' sc) {k k' : Nat} {t t' : Rat × Rat}
    (ht : (pairwise F.tEdges)[k]? = some t) (ht' : (pairwise F'.tEdges)[k']? = some t') (X Y : Rat)
    (hs : SameLightning (nearby env.foot me mg dx dy X Y ((filesOf env t files).flatMap (lightning nav)))
      (nearby env.foot me mg dx dy X Y ((filesOf env' t' files').flatMap (lightning nav'))))
    (name : String) (hname : name ∈ sixNames) (v v' : Rat) (hv : ShowsIn runs k name X Y v)
    (hv' : ShowsIn runs' k' name X Y v') : v' = v := by
  obtain ⟨fed, fa, te, ged, ga, mfa, p, q⟩ := frame_holds h htime hF hr hsc ht hname hv
  obtain ⟨fed', fa', te', ged', ga', mfa', p', q'⟩ := frame_holds h' htime' hF' hr' hsc' ht' hname hv'
  rw [hfoot] at p'
  obtain ⟨rfl, rfl, rfl, rfl, rfl, rfl⟩ := lightning_unique hs p.nearby p'.nearby
  exact shown_unique q' q

/-- **C164**, dark pixels of frames: no flash of a file of the frame that counts comes near. -/
theorem C164_dark_frames {F : Framing} (h : FileCall env order nav kw xlo ylo dx dy M N s me mg files)
    (htime : KeepsTime env files) (hF : PicksByTime F)
    (hr : gridGlmFlashes (framesGridder env F) files kw shared = .ok (runs, sh)) (hsc : Scaled runs sc) {k : Nat} {t : Rat × Rat}
    (ht : (pairwise F.tEdges)[k]? = some t) (X Y : Rat)
    (hd : ∀ d ∈ files, InFrame env.basedate t (env.productTime d) → ∀ F ∈ lightning nav d, LargeEnough me mg F →
      ∀ p ∈ F.events, BesidePixel dx dy X Y (env.foot p.1))
    (name : String) (hname : name ∈ sixNames) (v : Rat) (hv : ShowsIn runs k name X Y v) : v = 0 := by
  obtain ⟨fed, fa, te, ged, ga, mfa, p, q⟩ := frame_holds h htime hF hr hsc ht hname hv
  have := p.nearby
  rw [nearby_none fun G hG => by
    obtain ⟨d, hd1, hd2⟩ := List.mem_flatMap.mp hG
    obtain ⟨m1, m2⟩ := List.mem_filter.mp hd1
    exact hd d m1 (of_decide_eq_true m2) G hd2] at this
  obtain ⟨rfl, rfl, rfl, rfl, rfl, rfl⟩ := lightning_none this
  exact shown_dark q

end

/-! ### Samples -/

theorem second_call : UnitsCall halfEnv id sampleNav halfAttrs wideCall 0 (-1/1000) (1/1000) (1/1000) 6 6 1
    (some 2) none [secondHalf] :=
  { halves_call with
    some := by simp
    conventional := fun d hd => halves_call.conventional d (List.mem_cons_of_mem _ hd)
    sound := fun d hd => halves_call.sound d (List.mem_cons_of_mem _ hd)
    times := fun d hd => halves_call.times d (List.mem_cons_of_mem _ hd)
    fit := fun d hd => halves_call.fit d (List.mem_cons_of_mem _ hd) }

/-- The lightning of the first file does not come near the pixel. -/
theorem first_beside : ∀ F ∈ lightning sampleNav (inUnits (halfAttrs firstHalf) firstHalf),
    ∀ p ∈ F.events, BesidePixel (1/1000) (1/1000) (3/2000) (3/2000) (halfEnv.foot p.1) := by decide +kernel

/-- That of the second does. -/
example : ¬ ∀ F ∈ lightning sampleNav (inUnits (halfAttrs secondHalf) secondHalf),
    ∀ p ∈ F.events, BesidePixel (1/1000) (1/1000) (3/2000) (3/2000) (halfEnv.foot p.1) := by decide +kernel

/-- The pixel shows the same with and without the first file. -/
example (runs runs' : List (TileRun TileState ImageFile)) (sh sh' : Dict) (sc : Bool)
    (hr : gridGlmFlashes (lutGridder halfEnv) [secondHalf] wideCall [] = .ok (runs, sh))
    (hr' : gridGlmFlashes (lutGridder halfEnv) [firstHalf, secondHalf] wideCall [] = .ok (runs', sh'))
    (hsc : Scaled runs sc) (hsc' : Scaled runs' sc) (v v' : Rat) (hv : Shows runs "total_energy" (3/2000) (3/2000) v)
    (hv' : Shows runs' "total_energy" (3/2000) (3/2000) v') : v' = v := by
  refine C164_near second_call halves_call rfl hr hr' hsc hsc' (3/2000) (3/2000) ?_ "total_energy" (by decide) v v' hv hv'
  have e : ∀ a b, nearby halfEnv.foot (some 2) none (1/1000) (1/1000) (3/2000) (3/2000) (a ++ b) =
      nearby halfEnv.foot (some 2) none (1/1000) (1/1000) (3/2000) (3/2000) a ++
      nearby halfEnv.foot (some 2) none (1/1000) (1/1000) (3/2000) (3/2000) b := fun a b => List.filter_append ..
  simp only [List.flatMap_cons, List.flatMap_nil, List.append_nil]
  rw [e, nearby_none (fun F hF _ => first_beside F hF), List.nil_append]
  exact ⟨_, List.Perm.refl _, List.forall₂_same.mpr fun F _ => ⟨rfl, F.groups, List.Perm.refl _,
    List.forall₂_same.mpr fun _ _ => ⟨rfl, List.Perm.refl _⟩⟩⟩

/-- A pixel that neither file reaches. -/
example (runs : List (TileRun TileState ImageFile)) (sh : Dict) (sc : Bool)
    (hr : gridGlmFlashes (lutGridder halfEnv) [firstHalf, secondHalf] wideCall [] = .ok (runs, sh))
    (hsc : Scaled runs sc) (v : Rat) (hv : Shows runs "average_flash_area" (11/2000) (-1/2000) v) : v = 0 :=
  C164_dark halves_call hr hsc (11/2000) (-1/2000) (by
    have : ∀ d ∈ [firstHalf, secondHalf], ∀ F ∈ lightning sampleNav (inUnits (halfAttrs d) d),
        ∀ p ∈ F.events, BesidePixel (1/1000) (1/1000) (11/2000) (-1/2000) (halfEnv.foot p.1) := by decide +kernel
    exact fun d hd F hF _ => this d hd F hF) "average_flash_area" (by decide) v hv

/-- The same in the first of two frames, which has one of the files. -/
example (runs : List (TileRun TileState ImageFile)) (sh : Dict) (sc : Bool)
    (hr : gridGlmFlashes (framesGridder framesEnv (sampleFrames [0, 30, 60])) [plainFile, lateFile] wideCall [] = .ok (runs, sh))
    (hsc : Scaled runs sc) (v : Rat) (hv : ShowsIn runs 0 "total_energy" (11/2000) (-1/2000) v) : v = 0 :=
  C164_dark_frames (t := (0, 30)) (frames_call (by simp) (by simp)) (frames_time (by simp)) (sampleFrames_pick _) hr hsc rfl
    (11/2000) (-1/2000) (by
      have : ∀ d ∈ [plainFile, lateFile], ∀ F ∈ lightning sampleNav d,
          ∀ p ∈ F.events, BesidePixel (1/1000) (1/1000) (11/2000) (-1/2000) (framesEnv.foot p.1) := by decide +kernel
      exact fun d hd _ F hF _ => this d hd F hF) "total_energy" (by decide) v hv

/-- The first of two frames, and one frame of a call for the first file only. -/
example (runs runs' : List (TileRun TileState ImageFile)) (sh sh' : Dict) (sc : Bool)
    (hr : gridGlmFlashes (framesGridder framesEnv (sampleFrames [0, 30, 60])) [plainFile, lateFile] wideCall [] = .ok (runs, sh))
    (hr' : gridGlmFlashes (framesGridder framesEnv (sampleFrames [0, 60])) [plainFile] wideCall [] = .ok (runs', sh'))
    (hsc : Scaled runs sc) (hsc' : Scaled runs' sc) (X Y v v' : Rat) (hv : ShowsIn runs 0 "total_energy" X Y v)
    (hv' : ShowsIn runs' 0 "total_energy" X Y v') : v' = v := by
  refine C164_frames (t := (0, 30)) (t' := (0, 60)) (frames_call (by simp) (by simp)) (frames_call (by simp) (by simp)) rfl
    (frames_time (by simp)) (frames_time (by simp)) (sampleFrames_pick _) (sampleFrames_pick _) hr hr' hsc hsc' rfl rfl X Y ?_
    "total_energy" (by decide) v v' hv hv'
  have e1 : filesOf framesEnv (0, 30) [plainFile, lateFile] = [plainFile] := by decide +kernel
  have e2 : filesOf framesEnv (0, 60) [plainFile] = [plainFile] := by decide +kernel
  rw [e1, e2]
  exact ⟨_, List.Perm.refl _, List.forall₂_same.mpr fun F _ => ⟨rfl, F.groups, List.Perm.refl _,
    List.forall₂_same.mpr fun _ _ => ⟨rfl, List.Perm.refl _⟩⟩⟩

end Verif.Props
