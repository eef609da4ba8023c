import Verif.Props.CoarseFrames
import Verif.Props.Near

/-!
# C164 for boxes, footprints and flashes of any size

Where no footprint comes near a pixel the images show nothing, whatever the sizes and positions of boxes, tiles, footprints and
flashes.
-/

namespace Verif.Props

open Verif.Py Verif.Model Verif.Spec Verif.Proofs

theorem rangeClip_beside {dx dy px py X Y : Rat} {xs ys : List Rat} (p : Poly) (h : BesidePixel dx dy X Y p) :
    rangeClip convexClip dx dy px py xs ys X Y p (pixelAt dx dy X Y) = [] := by
  unfold rangeClip
  split
  · exact clip_besidePixel h
  · rfl

/-- What a pixel holds of lightning is what it holds of the flashes nearby. -/
theorem LightningHolds.near_clip {clip : Poly → Poly → List Poly} {foot : Pt → Poly} {me mg : Option Int} {fl : List FlashOf}
    {dx dy X Y fed fa te ged ga mfa : Rat}
    (hclip : ∀ p, BesidePixel dx dy X Y p → clip p (pixelAt dx dy X Y) = [])
    (h : LightningHolds clip foot me mg fl dx dy X Y fed fa te ged ga mfa) :
    LightningHolds clip foot me mg (Props.nearby foot me mg dx dy X Y fl) dx dy X Y fed fa te ged ga mfa := by
  classical
  have hc : counted me mg (Props.nearby foot me mg dx dy X Y fl) =
      (counted me mg fl).filter fun F => ComesNear foot dx dy X Y F := by
    unfold counted Props.nearby
    rw [List.filter_filter, List.filter_filter]
    refine List.filter_congr fun F _ => ?_
    by_cases a : LargeEnough me mg F <;> by_cases b : ComesNear foot dx dy X Y F <;> simp [a, b]
  have off : ∀ F : FlashOf, decide (ComesNear foot dx dy X Y F) = false → ∀ p ∈ F.events,
      clip (foot p.1) (pixelAt dx dy X Y) = [] := by
    intro F hF p hp
    refine hclip _ ?_
    by_contra hb
    exact of_decide_eq_false hF ⟨p, hp, hb⟩
  have part : ∀ p, clip (foot p) (pixelAt dx dy X Y) = [] → partArea clip (foot p) (pixelAt dx dy X Y) = 0 := by
    intro p hp
    unfold partArea
    rw [hp]
    rfl
  have share : ∀ p, clip (foot p) (pixelAt dx dy X Y) = [] → pixelShare clip foot dx dy X Y p = 0 := by
    intro p hp
    unfold pixelShare
    rw [part p hp, zero_div]
  have zeros : ∀ {α : Type} (l : List α) (F : α → Rat), (∀ a ∈ l, F a = 0) → (l.map F).sum = 0 := fun l F hF =>
    List.sum_eq_zero (fun x hx => by
      obtain ⟨a, ha, rfl⟩ := List.mem_map.mp hx
      exact hF a ha)
  have places : ∀ F : FlashOf, decide (ComesNear foot dx dy X Y F) = false →
      (F.places.map (pixelShare clip foot dx dy X Y)).sum = 0 := by
    intro F hF
    refine zeros _ _ fun q hq => ?_
    obtain ⟨p, hp, rfl⟩ := List.mem_map.mp (List.mem_dedup.mp hq)
    exact share _ (off F hF p hp)
  have groups : ∀ F : FlashOf, decide (ComesNear foot dx dy X Y F) = false → ∀ G ∈ F.groups,
      (G.places.map (pixelShare clip foot dx dy X Y)).sum = 0 := by
    intro F hF G hG
    refine zeros _ _ fun q hq => ?_
    obtain ⟨p, hp, rfl⟩ := List.mem_map.mp (List.mem_dedup.mp hq)
    exact share _ (off F hF p (List.mem_flatMap.mpr ⟨G, hG, hp⟩))
  refine ⟨?_, ?_, ?_, ?_, ?_, ?_⟩
  · rw [h.energy, hc]
    refine (sum_filter_zero _ _ _ fun F _ hF => zeros _ _ fun p hp => ?_).symm
    rw [part _ (off F hF p hp), zero_div, mul_zero]
  · rw [h.flashes, hc]
    exact (sum_filter_zero _ _ _ fun F _ hF => places F hF).symm
  · rw [h.groups, hc]
    exact (sum_filter_zero _ _ _ fun F _ hF => zeros _ _ fun G hG => groups F hF G hG).symm
  · rw [h.flashArea, hc]
    refine (sum_filter_zero _ _ _ fun F _ hF => ?_).symm
    rw [places F hF, mul_zero]
  · rw [h.groupArea, hc]
    refine (sum_filter_zero _ _ _ fun F _ hF => zeros _ _ fun G hG => ?_).symm
    rw [groups F hF G hG, mul_zero]
  · have hl := h.least
    rw [hc, List.filter_filter]
    convert hl using 4
    rename_i F
    rw [Bool.and_eq_left_iff_imp]
    intro hF
    obtain ⟨q, hq, hne⟩ := of_decide_eq_true hF
    obtain ⟨p, hp, rfl⟩ := List.mem_map.mp (List.mem_dedup.mp hq)
    exact decide_eq_true ⟨p, hp, fun hb => hne (hclip _ hb)⟩

section
variable {env : Surroundings} {order : List Int → List Int} {nav : Rat → Rat → Rat × Rat} {F : Framing} {kw shared sh : Dict}
  {xlo ylo dx dy : Rat} {M N s : Nat} {me mg : Option Int} {files : List GFile} {runs : List (TileRun TileState ImageFile)}

/-- **C164**, dark pixels, for boxes, footprints and flashes of any size, wherever they are.  If all flashes that count have
their footprints beside a pixel, all fields show 0 there. -/
theorem C164_dark_any_size (h : AnyBoxFiles env order nav kw xlo ylo dx dy M N s me mg files)
    (hr : gridGlmFlashes (lutGridder env) files kw shared = .ok (runs, sh)) (X Y : Rat)
    (hd : ∀ d ∈ files, ∀ F ∈ lightning nav d, LargeEnough me mg F → ∀ p ∈ F.events, BesidePixel dx dy X Y (env.foot p.1))
    (name : String) (hname : name ∈ sixNames) (v : Rat) (hv : Shows runs name X Y v) : v = 0 := by
  obtain ⟨r, hrr, nf, hnf, row, col, img, hX, hY, hi, rfl⟩ := hv
  obtain ⟨fed, fa, te, ged, ga, mfa, hp, hs⟩ := C168_files h hr hrr hnf hX hY
  have := hp.near_clip rangeClip_beside
  rw [nearby_none fun G hG => by
    obtain ⟨d, hd1, hd2⟩ := List.mem_flatMap.mp hG
    obtain ⟨f, hf, rfl⟩ := List.mem_map.mp hd2
    exact hd d hd1 _ (List.mem_map.mpr ⟨f, (List.mem_filter.mp hf).1, rfl⟩)] at this
  obtain ⟨rfl, rfl, rfl, rfl, rfl, rfl⟩ := lightning_none this
  obtain ⟨v, hv⟩ := shown_names (r.scale != .bool false) 0 0 0 0 0 0 hname
  rw [hs name img v hi hv]
  exact shown_dark hv

/-- **C164**, dark pixels of frames, for boxes, footprints and flashes of any size, wherever they are. -/
theorem C164_dark_frames_any_size (hF : PicksByTime F) (h : AnyBoxFiles env order nav kw xlo ylo dx dy M N s me mg files)
    (htime : KeepsTime env files)
    (hr : gridGlmFlashes (framesGridder env F) files kw shared = .ok (runs, sh)) {k : Nat} {t : Rat × Rat}
    (ht : (pairwise F.tEdges)[k]? = some t) (X Y : Rat)
    (hd : ∀ d ∈ files, InFrame env.basedate t (env.productTime d) → ∀ F ∈ lightning nav d, LargeEnough me mg F →
      ∀ p ∈ F.events, BesidePixel dx dy X Y (env.foot p.1))
    (name : String) (hname : name ∈ sixNames) (v : Rat) (hv : ShowsIn runs k name X Y v) : v = 0 := by
  obtain ⟨r, hrr, nf, hnf, row, col, img, hX, hY, hi, rfl⟩ := hv
  obtain ⟨fed, fa, te, ged, ga, mfa, hp, hs⟩ := C168_frames_files hF h htime hr ht hrr hnf hX hY
  have := hp.near_clip rangeClip_beside
  rw [nearby_none fun G hG => by
    obtain ⟨d, hd1, hd2⟩ := List.mem_flatMap.mp hG
    obtain ⟨m1, m2⟩ := List.mem_filter.mp hd1
    obtain ⟨f, hf, rfl⟩ := List.mem_map.mp hd2
    exact hd d m1 (of_decide_eq_true m2) _ (List.mem_map.mpr ⟨f, (List.mem_filter.mp hf).1, rfl⟩)] at this
  obtain ⟨rfl, rfl, rfl, rfl, rfl, rfl⟩ := lightning_none this
  obtain ⟨v, hv⟩ := shown_names (r.scale != .bool false) 0 0 0 0 0 0 hname
  rw [hs name img v hi hv]
  exact shown_dark hv

end

section
variable {env env' : Surroundings} {order order' : List Int → List Int} {nav nav' : Rat → Rat → Rat × Rat}
  {kw kw' shared shared' sh sh' : Dict} {xlo ylo xlo' ylo' dx dy : Rat} {M N s M' N' s' : Nat} {me mg : Option Int}
  {files files' : List GFile} {runs runs' : List (TileRun TileState ImageFile)}

/-- **C164**, for boxes, footprints and flashes of any size, wherever they are.  Two images, of any two calls, that have the same
pixels show the same in a pixel if the flashes that are inside their range and come near the pixel are the same, whatever
lightning there is elsewhere. -/
theorem C164_any_size (h : AnyBoxFiles env order nav kw xlo ylo dx dy M N s me mg files)
    (h' : AnyBoxFiles env' order' nav' kw' xlo' ylo' dx dy M' N' s' me mg files') (hfoot : env'.foot = env.foot)
    (hr : gridGlmFlashes (lutGridder env) files kw shared = .ok (runs, sh))
    (hr' : gridGlmFlashes (lutGridder env') files' kw' shared' = .ok (runs', sh'))
    {r r' : TileRun TileState ImageFile} (hrr : r ∈ runs) (hrr' : r' ∈ runs') {nf nf' : String × ImageFile}
    (hnf : nf ∈ r.written) (hnf' : nf' ∈ r'.written) (hsc : (r'.scale != .bool false) = (r.scale != .bool false))
    (hx : nf'.2.x = nf.2.x) (hy : nf'.2.y = nf.2.y) {row col : Nat} {X Y : Rat} (hX : nf.2.x[col]? = some X)
    (hY : nf.2.y[row]? = some Y)
    (hs : SameLightning
      (nearby env.foot me mg dx dy X Y (files.flatMap fun d => (d.flashes.filter fun f =>
        FlashInside nav dx dy (padding dx) (padding dy) nf.2.x nf.2.y d f).map (flashOf nav d)))
      (nearby env.foot me mg dx dy X Y (files'.flatMap fun d => (d.flashes.filter fun f =>
        FlashInside nav' dx dy (padding dx) (padding dy) nf.2.x nf.2.y d f).map (flashOf nav' d))))
    (name : String) (hname : name ∈ sixNames) (img img' : Image) (hi : (name, img) ∈ nf.2.fields)
    (hi' : (name, img') ∈ nf'.2.fields) : img'.val row col = img.val row col := by
  obtain ⟨fed, fa, te, ged, ga, mfa, p, q⟩ := C168_files h hr hrr hnf hX hY
  obtain ⟨fed', fa', te', ged', ga', mfa', p', q'⟩ := C168_files h' hr' hrr' hnf' (hx ▸ hX) (hy ▸ hY)
  rw [hfoot, hx, hy] at p'
  obtain ⟨rfl, rfl, rfl, rfl, rfl, rfl⟩ := lightning_unique hs (p.near_clip rangeClip_beside) (p'.near_clip rangeClip_beside)
  obtain ⟨v, hv⟩ := shown_names (r.scale != .bool false) fed' fa' te' ged' ga' mfa' hname
  rw [q name img v hi hv, q' name img' v hi' (hsc ▸ hv)]

end

/-! ## Samples -/

/-- The pixel in the south west is dark. -/
example {runs : List (TileRun TileState ImageFile)} {sh : Dict} {name : String} {v : Rat}
    (hr : gridGlmFlashes (lutGridder plainEnv) [seamPlain] largeBoxCall [] = .ok (runs, sh)) (hname : name ∈ sixNames)
    (hv : Shows runs name (1/400) (1/400) v) : v = 0 := by
  refine C164_dark_any_size seamPlain_call hr _ _ (fun d hd => ?_) name hname v hv
  rw [List.mem_singleton] at hd
  subst hd
  have : ∀ F ∈ lightning sampleNav seamPlain, ∀ p ∈ F.events, BesidePixel (1/200) (1/200) (1/400) (1/400) (plainEnv.foot p.1) := by
    decide +kernel
  exact fun F hF _ => this F hF

/-- All pixels are dark in the second frame. -/
example {runs : List (TileRun TileState ImageFile)} {sh : Dict} {name : String} {X Y v : Rat}
    (hr : gridGlmFlashes (framesGridder plainEnv (sampleFrames [0, 60, 120])) [seamPlain] largeBoxCall [] = .ok (runs, sh))
    (hname : name ∈ sixNames) (hv : ShowsIn runs 1 name X Y v) : v = 0 := by
  refine C164_dark_frames_any_size (t := (60, 120)) (sampleFrames_pick _) seamPlain_call (fun _ _ _ _ _ => rfl) hr rfl _ _
    (fun d hd hin => ?_) name hname v hv
  rw [List.mem_singleton] at hd
  subst hd
  exact absurd hin (by decide +kernel)

/-- The sample without its flash outside of the field of view. -/
def seamAlone : GFile where
  flashes := [⟨5, 0, { lon := 99/10, lat := 1, area := 100 }⟩]
  groups := [⟨13, 5, { area := 40 }⟩]
  events := [⟨100, 13, { lon := 99/10, lat := 1, energy := 2 }⟩]

theorem seamAlone_call : AnyBoxFiles plainEnv id sampleNav largeBoxCall 0 0 (1/200) (1/200) 4 2 2 (some 1) none [seamAlone] :=
  { seamPlain_call with
    some := by simp
    fit := by
      intro d hd
      rw [List.mem_singleton] at hd
      subst hd
      exact
        { sound := ⟨by unfold HasData; decide +kernel, by decide +kernel, by decide +kernel,
            by unfold UniqueIds; decide +kernel, by unfold UniqueIds; decide +kernel⟩
          areas := by decide +kernel
          pixels := by unfold navPlace; decide +kernel
          convex := fun _ _ => diamond_convex _
          area := by unfold navPlace; decide +kernel
          mean := fun _ _ => diamond_mean _ } }

/-- The first image shows the same with and without that flash. -/
example {runs runs' : List (TileRun TileState ImageFile)} {sh sh' : Dict} {r r' : TileRun TileState ImageFile}
    {nf nf' : String × ImageFile} {row col : Nat} {X Y : Rat} {name : String} {img img' : Image}
    (hr : gridGlmFlashes (lutGridder plainEnv) [seamPlain] largeBoxCall [] = .ok (runs, sh))
    (hr' : gridGlmFlashes (lutGridder plainEnv) [seamAlone] largeBoxCall [] = .ok (runs', sh'))
    (hrr : r ∈ runs) (hrr' : r' ∈ runs') (hnf : nf ∈ r.written) (hnf' : nf' ∈ r'.written)
    (hsc : (r'.scale != .bool false) = (r.scale != .bool false)) (ex : nf.2.x = [1/400, 3/400]) (ey : nf.2.y = [1/400])
    (hx : nf'.2.x = nf.2.x) (hy : nf'.2.y = nf.2.y) (hX : nf.2.x[col]? = some X) (hY : nf.2.y[row]? = some Y)
    (hname : name ∈ sixNames) (hi : (name, img) ∈ nf.2.fields) (hi' : (name, img') ∈ nf'.2.fields) :
    img'.val row col = img.val row col := by
  refine C164_any_size seamPlain_call seamAlone_call rfl hr hr' hrr hrr' hnf hnf' hsc hx hy hX hY ?_ name hname img img' hi hi'
  rw [ex, ey]
  have : ([seamPlain].flatMap fun d => (d.flashes.filter fun f =>
      FlashInside sampleNav (1/200) (1/200) (padding (1/200)) (padding (1/200)) [1/400, 3/400] [1/400] d f).map
        (flashOf sampleNav d)) = [seamAlone].flatMap fun d => (d.flashes.filter fun f =>
      FlashInside sampleNav (1/200) (1/200) (padding (1/200)) (padding (1/200)) [1/400, 3/400] [1/400] d f).map
        (flashOf sampleNav d) := by decide +kernel
  rw [this]
  exact ⟨_, List.Perm.refl _, List.forall₂_same.mpr fun F _ => ⟨rfl, F.groups, List.Perm.refl _,
    List.forall₂_same.mpr fun G _ => ⟨rfl, List.Perm.refl _⟩⟩⟩

end Verif.Props
