import Verif.Props.LongFlashes
import Verif.Props.FromFiles
import Verif.Props.Lightning

/-!
# Long flashes in files: C166

C166 for files as they are recorded: their trees are repaired, and positions come from longitudes and latitudes.
-/

namespace Verif.Props

open Verif.Py Verif.Model Verif.Spec Verif.Proofs

/-! ## Specification -/

/-- The place of a flash is closer than the padding to one of the pixels of an image. -/
def InReach (nav : Rat → Rat → Rat × Rat) (dx dy px py : Rat) (xs ys : List Rat) (f : Row GVal) : Prop :=
  (∃ X ∈ xs, |(navPlace nav f).1 - X| < px + dx / 2) ∧ ∃ Y ∈ ys, |(navPlace nav f).2 - Y| < py + dy / 2

instance (nav : Rat → Rat → Rat × Rat) (dx dy px py : Rat) (xs ys : List Rat) (f : Row GVal) :
    Decidable (InReach nav dx dy px py xs ys f) := by
  unfold InReach
  infer_instance

/-- A file with only those of its flashes that are within reach of an image. -/
def inReach (nav : Rat → Rat → Rat × Rat) (dx dy px py : Rat) (xs ys : List Rat) (d : GFile) : GFile :=
  { d with flashes := d.flashes.filter fun f => InReach nav dx dy px py xs ys f }

/-- A file as C142 assumes it, but with flashes of any size. -/
structure LooseFit (foot : Pt → Poly) (loc : Rat → Rat → Int) (nav : Rat → Rat → Rat × Rat) (dx dy px py : Rat) (d : GFile) :
    Prop where
  sound : SoundFile d
  areas : ∀ f ∈ d.flashes, 0 < f.val.area
  pixels : ∀ e ∈ d.events, ∀ e' ∈ d.events, loc (navPlace nav e).1 (navPlace nav e).2 =
    loc (navPlace nav e').1 (navPlace nav e').2 → navPlace nav e = navPlace nav e'
  convex : ∀ e ∈ d.events, ConvexPoly (foot (navPlace nav e))
  area : ∀ e ∈ d.events, signedArea (foot (navPlace nav e)) ≠ 0
  mean : ∀ e ∈ d.events, meanPoint (foot (navPlace nav e)) = navPlace nav e
  narrow : ∀ e ∈ d.events, ∀ v ∈ foot (navPlace nav e),
    |v.1 - (navPlace nav e).1| ≤ 2 * dx ∧ |v.2 - (navPlace nav e).2| ≤ 2 * dy
  padded : ∀ e ∈ d.events, ∀ v ∈ foot (navPlace nav e),
    |v.1 - (navPlace nav e).1| ≤ px ∧ |v.2 - (navPlace nav e).2| ≤ py
  view : ∀ e ∈ d.events, |(navPlace nav e).1| < 1349 / 10000 ∧ |(navPlace nav e).2| < 1349 / 10000

/-- A call for files with flashes of any size. -/
structure LooseFileCall (env : Surroundings) (order : List Int → List Int) (nav : Rat → Rat → Rat × Rat) (kw : Dict)
    (xlo ylo dx dy : Rat) (M N s : Nat) (me mg : Option Int) (files : List GFile) : Prop extends
    PlainCall env kw xlo ylo dx dy M N s me mg where
  ids : ∀ l, (order l).Perm l
  opens : env.openFile = fun _ d => openDataset order nav true true d
  some : files ≠ []
  fit : ∀ d ∈ files, LooseFit env.foot env.loc nav dx dy (padding dx) (padding dy) d

/-! ## Opening -/

theorem LooseFit.fitFile {foot : Pt → Poly} {loc : Rat → Rat → Int} {nav : Rat → Rat → Rat × Rat} {dx dy px py : Rat}
    {d : GFile} (h : LooseFit foot loc nav dx dy px py d) : ∃ px' py', FitFile foot loc nav dx dy px' py' d := by
  obtain ⟨Bx, hx⟩ := list_bound (d.events.flatMap fun e => (foot (navPlace nav e)).flatMap fun v =>
    d.flashes.map fun f => v.1 - (navPlace nav f).1)
  obtain ⟨By, hy⟩ := list_bound (d.events.flatMap fun e => (foot (navPlace nav e)).flatMap fun v =>
    d.flashes.map fun f => v.2 - (navPlace nav f).2)
  exact ⟨max px Bx, max py By,
    { sound := h.sound
      areas := h.areas
      pixels := h.pixels
      convex := h.convex
      area := h.area
      mean := h.mean
      narrow := h.narrow
      padded := fun e he v hv => ⟨le_trans (h.padded e he v hv).1 (le_max_left _ _),
        le_trans (h.padded e he v hv).2 (le_max_left _ _)⟩
      view := h.view
      compact := fun f hf e he _ v hv =>
        ⟨le_trans (hx _ (List.mem_flatMap.mpr ⟨e, he, List.mem_flatMap.mpr ⟨v, hv,
          List.mem_map.mpr ⟨f, hf, rfl⟩⟩⟩)) (le_max_right _ _),
        le_trans (hy _ (List.mem_flatMap.mpr ⟨e, he, List.mem_flatMap.mpr ⟨v, hv,
          List.mem_map.mpr ⟨f, hf, rfl⟩⟩⟩)) (le_max_right _ _)⟩ }⟩

theorem LooseFit.looseFile {foot : Pt → Poly} {loc : Rat → Rat → Int} {nav : Rat → Rat → Rat × Rat} {dx dy px py : Rat}
    {d d1 d' : GFile} (h : LooseFit foot loc nav dx dy px py d) (hv' : ValidPart d d1) (hg : GoodFile d1)
    (o : OpenedFrom nav d1 d') : LooseFile foot loc dx dy px py d' := by
  obtain ⟨px', py', hfit⟩ := h.fitFile
  have k := hfit.compactFile hv' hg o
  exact
    { hasData := k.hasData
      consistent := k.consistent
      derived := k.derived
      flashes := k.flashes
      groups := k.groups
      areas := k.areas
      pixels := k.pixels
      polygons := k.polygons
      narrow := k.narrow
      view := k.view
      event := by
        intro e' he' v hv
        obtain ⟨e, he, s⟩ := (forall₂_exists o.events).2 e' he'
        have p := o.samePlace he' s
        have he := (List.mem_filter.mp (hv'.events.mem_iff.mp he)).1
        have := h.padded e he v (by rw [← p]; exact hv)
        rw [← p] at this
        exact this }

theorem LooseFileCall.opened {env : Surroundings} {order : List Int → List Int} {nav : Rat → Rat → Rat × Rat} {kw : Dict}
    {xlo ylo dx dy : Rat} {M N s : Nat} {me mg : Option Int} {files : List GFile}
    (h : LooseFileCall env order nav kw xlo ylo dx dy M N s me mg files) :
    ∃ parts opened, List.Forall₂ ValidPart files parts ∧ List.Forall₂ (OpenedFrom nav) parts opened ∧
      LooseCall env kw xlo ylo dx dy M N s me mg files opened := by
  have key : ∀ l : List GFile, (∀ d ∈ l, d ∈ files) → ∃ parts opened, List.Forall₂ ValidPart l parts ∧
      List.Forall₂ (OpenedFrom nav) parts opened ∧
      List.Forall₂ (fun d d' => (∀ rev, env.openFile rev d = .ok d') ∧
        ∃ d1, ValidPart d d1 ∧ GoodFile d1 ∧ OpenedFrom nav d1 d') l opened := by
    intro l hl
    induction l with
    | nil => exact ⟨[], [], .nil, .nil, .nil⟩
    | cons d l ih =>
      obtain ⟨ps, os, i1, i2, i3⟩ := ih fun x hx => hl x (List.mem_cons_of_mem _ hx)
      obtain ⟨d1, d', h1, -, h2, h3, h4⟩ := (h.fit d (hl d List.mem_cons_self)).sound.opened h.ids nav
      exact ⟨d1 :: ps, d' :: os, .cons h2 i1, .cons h4 i2, .cons ⟨fun rev => by rw [h.opens]; exact h1, d1, h2, h3, h4⟩ i3⟩
  obtain ⟨parts, opened, hp, ho, hf⟩ := key files fun _ h => h
  obtain ⟨o1, o2⟩ := forall₂_exists (forall₂_mem hf)
  refine ⟨parts, opened, hp, ho, ?_⟩
  have loose : ∀ d' ∈ opened, LooseFile env.foot env.loc dx dy (padding dx) (padding dy) d' := by
    intro d' hd'
    obtain ⟨d, hd, ⟨⟨-, d1, k1, k2, k3⟩, -, -⟩⟩ := o2 d' hd'
    exact (h.fit d hd).looseFile k1 k2 k3
  have place : ∀ d' ∈ opened, ∀ e' ∈ d'.events, ∃ d ∈ files, ∃ e ∈ d.events, placeOf e' = navPlace nav e := by
    intro d' hd' e' he'
    obtain ⟨d, hd, ⟨⟨-, d1, k1, -, k3⟩, -, -⟩⟩ := o2 d' hd'
    obtain ⟨e, he, s⟩ := (forall₂_exists k3.events).2 e' he'
    exact ⟨d, hd, e, (List.mem_filter.mp (k1.events.mem_iff.mp he)).1, k3.samePlace he' s⟩
  exact
    { asked := h.asked
      xPos := h.xPos
      yPos := h.yPos
      tiles := h.tiles
      xTiles := h.xTiles
      yTiles := h.yTiles
      xPad := h.xPad
      yPad := h.yPad
      edges := h.edges
      parts := by rw [h.clip]; exact convexClip_ne_nil
      beside := by rw [h.clip]; exact convexClip_beside
      order := h.sets
      opens := fun rev _ => hf.imp fun _ _ h => h.1 rev
      some := by
        obtain ⟨d, hd⟩ := List.exists_mem_of_ne_nil _ h.some
        obtain ⟨d', hd', -⟩ := o1 d hd
        exact ⟨d', hd', (loose d' hd').hasData.2.2⟩
      loose := fun d' hd' _ => loose d' hd'
      centred := by
        intro d' hd' e' he'
        obtain ⟨d, hd, e, he, p⟩ := place d' hd' e' he'
        rw [h.clip, p]
        exact convex_centred ((h.fit d hd).convex e he) ((h.fit d hd).area e he) ((h.fit d hd).mean e he) h.xPos h.yPos }

/-! ## Leaving out flashes -/

section
variable {nav : Rat → Rat → Rat × Rat} {dx dy px py : Rat} {xs ys : List Rat}

theorem forall₂_filter_both {α β : Type} {R : α → β → Prop} {a : List α} {b : List β} (h : List.Forall₂ R a b) {P : α → Bool}
    {Q : β → Bool} (hPQ : ∀ x y, x ∈ a → y ∈ b → R x y → P x = Q y) : List.Forall₂ R (a.filter P) (b.filter Q) := by
  induction h with
  | nil => exact .nil
  | @cons x y a b hxy _ ih =>
    have ih := ih fun u v hu hv => hPQ u v (List.mem_cons_of_mem _ hu) (List.mem_cons_of_mem _ hv)
    have e := hPQ x y List.mem_cons_self List.mem_cons_self hxy
    rw [List.filter_cons, List.filter_cons, e]
    split
    · exact .cons hxy ih
    · exact ih

theorem OpenedFrom.inReach {d d' : GFile} (o : OpenedFrom nav d d') :
    OpenedFrom nav (inReach nav dx dy px py xs ys d) (reachable dx dy px py xs ys d') where
  flashes := by
    refine forall₂_filter_both o.flashes fun f f' _ hf' s => ?_
    rw [decide_eq_decide]
    have p := o.place f' (Or.inl hf')
    rw [← s.lon, ← s.lat] at p
    unfold InReach WithinReach navPlace
    rw [← p]
  groups := o.groups
  events := o.events
  place := by
    rintro r (hr | hr)
    · exact o.place r (Or.inl (List.mem_filter.mp hr).1)
    · exact o.place r (Or.inr hr)
  derived :=
    { flashOf := o.derived.flashOf
      nGroups := fun f hf => o.derived.nGroups f (List.mem_filter.mp hf).1
      nEventsGroup := o.derived.nEventsGroup
      nEventsFlash := fun f hf => o.derived.nEventsFlash f (List.mem_filter.mp hf).1 }

theorem ValidPart.inReach {d d1 : GFile} (h : ValidPart d d1) :
    ValidPart (inReach nav dx dy px py xs ys d) (inReach nav dx dy px py xs ys d1) where
  flashes := by
    classical
    refine (h.flashes.filter _).trans (List.Perm.of_eq ?_)
    unfold Verif.Props.inReach
    simp only [List.filter_filter]
    exact List.filter_congr fun f _ => Bool.and_comm _ _
  groups := h.groups
  events := h.events

theorem uniqueIds_inReach {d : GFile} (h : UniqueIds d.flashes ∧ UniqueIds d.groups) :
    UniqueIds (inReach nav dx dy px py xs ys d).flashes ∧ UniqueIds (inReach nav dx dy px py xs ys d).groups := by
  refine ⟨?_, h.2⟩
  have := h.1
  unfold UniqueIds at this ⊢
  exact this.sublist (List.Sublist.map _ List.filter_sublist)

theorem lightning_inReach (d : GFile) : lightning nav (inReach nav dx dy px py xs ys d) =
    (d.flashes.filter fun f => InReach nav dx dy px py xs ys f).map (flashOf nav d) := rfl

end

/-! ## C166 -/

section
variable {env : Surroundings} {order : List Int → List Int} {nav : Rat → Rat → Rat × Rat} {kw : Dict} {shared sh : Dict}
  {xlo ylo dx dy : Rat} {M N s : Nat} {me mg : Option Int} {files : List GFile}
  {runs : List (TileRun TileState ImageFile)}

/-- **C166**, for files as they are recorded, with flashes of any size: the call succeeds, with an image for each tile. -/
theorem C166_succeeds (shared : Dict) (h : LooseFileCall env order nav kw xlo ylo dx dy M N s me mg files) :
    ∃ runs shared', gridGlmFlashes (lutGridder env) files kw shared = .ok (runs, shared') ∧
      (runs.map fun r => r.ij) = ((List.range s).flatMap fun i => (List.range s).map fun j => (i, j)) ∧
      ∀ r ∈ runs, ∃ f, r.written = [(f.name, f)] ∧ f.start = env.frame.1 ∧ f.stop = env.frame.2 ∧
        f.x = boxCentres xlo dx (tileStart M s r.ij.1) (tileStart M s (r.ij.1 + 1)) ∧
        f.y = (boxCentres ylo dy (tileStart N s r.ij.2) (tileStart N s (r.ij.2 + 1))).reverse ∧
        f.fields.map Prod.fst = eightNames := by
  obtain ⟨parts, opened, -, -, hc⟩ := h.opened
  obtain ⟨runs, sh, h1, h2, h3⟩ := loose_images shared hc
  refine ⟨runs, sh, h1, h2, fun r hr => ?_⟩
  obtain ⟨f, hf, hs⟩ := h3 r hr
  exact ⟨f, hf, hs.reached.start, hs.reached.stop, hs.reached.x, hs.reached.y, hs.reached.names⟩

/-- **C166**, for files as they are recorded: an image shows in each pixel the lightning of the flashes whose places are
closer than the padding to one of the pixels of the image. -/
theorem C166_files (h : LooseFileCall env order nav kw xlo ylo dx dy M N s me mg files)
    (hr : gridGlmFlashes (lutGridder env) files kw shared = .ok (runs, sh))
    {r : TileRun TileState ImageFile} (hrr : r ∈ runs) {nf : String × ImageFile} (hnf : nf ∈ r.written) {row col : Nat}
    {X Y : Rat} (hX : nf.2.x[col]? = some X) (hY : nf.2.y[row]? = some Y) :
    ∃ fed fa te ged ga mfa,
      LightningHolds convexClip env.foot me mg (files.flatMap fun d => (d.flashes.filter fun f =>
        InReach nav dx dy (padding dx) (padding dy) nf.2.x nf.2.y f).map (flashOf nav d)) dx dy X Y fed fa te ged ga mfa ∧
      ∀ name img v, (name, img) ∈ nf.2.fields → (name, v) ∈ shown (r.scale != .bool false) fed fa te ged ga mfa →
        img.val row col = v := by
  obtain ⟨parts, opened, hp, ho, hc⟩ := h.opened
  obtain ⟨fed, fa, te, ged, ga, mfa, hpx, hv⟩ := C166_exact hc hr hrr hnf hX hY
  refine ⟨fed, fa, te, ged, ga, mfa, ?_, hv⟩
  rw [h.clip] at hpx
  have k := opened_holds (forall₂_maps ho fun _ _ o => o.inReach) hpx
  have k := part_holds (forall₂_maps hp fun _ _ o => o.inReach) k
  have k := files_lightning (by
    intro d hd
    obtain ⟨d0, hd0, rfl⟩ := List.mem_map.mp hd
    exact uniqueIds_inReach ⟨(h.fit d0 hd0).sound.flashes, (h.fit d0 hd0).sound.groups⟩) k
  rw [List.flatMap_map] at k
  exact k

end

/-! ## Sample -/

/-- A file with a flash of two events six milliradians apart, before it is opened. -/
def longPlain : GFile where
  flashes := [⟨5, 0, { lon := 3/2, lat := 3/2, area := 100 }⟩]
  groups := [⟨11, 5, { area := 40 }⟩, ⟨13, 5, { area := 30 }⟩]
  events := [⟨100, 13, { lon := 3/2, lat := 3/2, energy := 2 }⟩, ⟨101, 11, { lon := 15/2, lat := 3/2, energy := 3 }⟩]

theorem longPlain_call : LooseFileCall plainEnv id sampleNav longCall 0 0 (1/1000) (1/1000) 12 4 2 (some 2) none [longPlain] :=
  { asked := longCall_loose.asked
    xPos := by norm_num
    yPos := by norm_num
    tiles := by omega
    xTiles := by omega
    yTiles := by omega
    xPad := by norm_num
    yPad := by norm_num
    edges := arange_makesEdges
    clip := rfl
    sets := fun l => List.Perm.refl l
    ids := fun l => List.Perm.refl l
    opens := rfl
    some := by simp
    fit := by
      have hpads : padBoxes (28 / 10000) (1 / 1000) = 2 := by decide +kernel
      intro d hd
      rw [List.mem_singleton] at hd
      subst hd
      unfold padding
      rw [hpads]
      exact
        { sound := ⟨by unfold HasData; decide +kernel, by decide +kernel, by decide +kernel,
            by unfold UniqueIds; decide +kernel, by unfold UniqueIds; decide +kernel⟩
          areas := by decide +kernel
          pixels := by unfold navPlace; decide +kernel
          convex := fun _ _ => diamond_convex _
          area := by unfold navPlace; decide +kernel
          mean := fun _ _ => diamond_mean _
          narrow := by unfold navPlace; decide +kernel
          padded := by unfold navPlace; decide +kernel
          view := by unfold navPlace; decide +kernel } }

/-- Energies in the images of the sample at the two events: only the first is shown, by the tile in the west. -/
def longEnergies : List ((Nat × Nat) × Rat) :=
  match gridGlmFlashes (lutGridder plainEnv) [longPlain] longCall [] with
  | .ok (runs, _) => runs.flatMap fun (r : TileRun TileState ImageFile) => r.written.flatMap fun nf =>
      nf.2.fields.filterMap fun p => if p.1 = "total_energy" then some (r.ij, p.2.val 0 1) else none
  | .error _ => []

example : longEnergies = [((0, 0), 16/9), ((0, 1), 0), ((1, 0), 0), ((1, 1), 0)] := by decide +kernel

end Verif.Props
