import Verif.Props.CoarseGrids
import Verif.Props.FineFiles

/-!
# Boxes of any size, for files as they are recorded: C168

C168 for files as they are recorded: their trees are repaired, and positions come from longitudes and latitudes.
-/

namespace Verif.Props

open Verif.Py Verif.Model Verif.Spec Verif.Proofs

/-! ## Specification -/

/-- A place is inside the range of the pixels of an image and the padding around it, in both directions. -/
def PlaceInside (dx dy px py : Rat) (xs ys : List Rat) (q : Pt) : Prop :=
  InRange dx px xs q.1 ∧ InRange dy py ys q.2

instance (dx dy px py : Rat) (xs ys : List Rat) (q : Pt) : Decidable (PlaceInside dx dy px py xs ys q) := by
  unfold PlaceInside
  infer_instance

/-- A flash is inside the range of an image: its place is, and the place of one of its events is, in the field of view. -/
def FlashInside (nav : Rat → Rat → Rat × Rat) (dx dy px py : Rat) (xs ys : List Rat) (d : GFile) (f : Row GVal) : Prop :=
  PlaceInside dx dy px py xs ys (navPlace nav f) ∧ ∃ e ∈ d.events, EventOfFlash d f.id e ∧ InField (navPlace nav e) ∧
    PlaceInside dx dy px py xs ys (navPlace nav e)

instance (nav : Rat → Rat → Rat × Rat) (dx dy px py : Rat) (xs ys : List Rat) (d : GFile) (f : Row GVal) :
    Decidable (FlashInside nav dx dy px py xs ys d f) := by
  unfold FlashInside
  infer_instance

/-- A file with only those of its flashes that are inside the range of an image. -/
def flashesInside (nav : Rat → Rat → Rat × Rat) (dx dy px py : Rat) (xs ys : List Rat) (d : GFile) : GFile :=
  { d with flashes := d.flashes.filter fun f => FlashInside nav dx dy px py xs ys d f }

/-- A call for files with flashes and footprints of any size, anywhere, and boxes of any size. -/
structure AnyBoxFiles (env : Surroundings) (order : List Int → List Int) (nav : Rat → Rat → Rat × Rat) (kw : Dict)
    (xlo ylo dx dy : Rat) (M N s : Nat) (me mg : Option Int) (files : List GFile) : Prop where
  asked : FixedGridAsked kw xlo ylo dx dy M N s me mg
  xPos : 0 < dx
  yPos : 0 < dy
  tiles : 0 < s
  xTiles : 2 * s ≤ M
  yTiles : s ≤ N
  edges : MakesEdges env.edges
  clip : env.clip = convexClip
  sets : ∀ l, (env.order l).Perm l
  ids : ∀ l, (order l).Perm l
  opens : env.openFile = fun _ d => openDataset order nav true true d
  some : files ≠ []
  fit : ∀ d ∈ files, AnyFit env.foot env.loc nav d

/-! ## Opening -/

theorem AnyBoxFiles.opened {env : Surroundings} {order : List Int → List Int} {nav : Rat → Rat → Rat × Rat} {kw : Dict}
    {xlo ylo dx dy : Rat} {M N s : Nat} {me mg : Option Int} {files : List GFile}
    (h : AnyBoxFiles env order nav kw xlo ylo dx dy M N s me mg files) :
    ∃ parts opened, List.Forall₂ ValidPart files parts ∧ List.Forall₂ (OpenedFrom nav) parts opened ∧
      AnyBoxes env kw xlo ylo dx dy M N s me mg files opened := by
  have key : ∀ l : List GFile, (∀ d ∈ l, d ∈ files) → ∃ parts opened, List.Forall₂ ValidPart l parts ∧
      List.Forall₂ (OpenedFrom nav) parts opened ∧
      List.Forall₂ (fun d d' => (∀ rev, env.openFile rev d = .ok d') ∧
        ∃ d1, ValidPart d d1 ∧ GoodFile d1 ∧ OpenedFrom nav d1 d') l opened := by
    intro l hl
    induction l with
    | nil => exact ⟨[], [], .nil, .nil, .nil⟩
    | cons d l ih =>
      obtain ⟨ps, os, i1, i2, i3⟩ := ih fun x hx => hl x (List.mem_cons_of_mem _ hx)
      obtain ⟨d1, d', h1, -, h2, h3, h4⟩ := (h.fit d (hl d List.mem_cons_self)).sound.opened h.ids nav
      exact ⟨d1 :: ps, d' :: os, .cons h2 i1, .cons h4 i2, .cons ⟨fun rev => by rw [h.opens]; exact h1, d1, h2, h3, h4⟩ i3⟩
  obtain ⟨parts, opened, hp, ho, hf⟩ := key files fun _ h => h
  obtain ⟨o1, o2⟩ := forall₂_exists (forall₂_mem hf)
  refine ⟨parts, opened, hp, ho, ?_⟩
  have any : ∀ d' ∈ opened, AnyFile env.foot env.loc d' := by
    intro d' hd'
    obtain ⟨d, hd, ⟨⟨-, d1, k1, k2, k3⟩, -, -⟩⟩ := o2 d' hd'
    exact (h.fit d hd).anyFile k1 k2 k3
  have place : ∀ d' ∈ opened, ∀ e' ∈ d'.events, ∃ d ∈ files, ∃ e ∈ d.events, placeOf e' = navPlace nav e := by
    intro d' hd' e' he'
    obtain ⟨d, hd, ⟨⟨-, d1, k1, -, k3⟩, -, -⟩⟩ := o2 d' hd'
    obtain ⟨e, he, s⟩ := (forall₂_exists k3.events).2 e' he'
    exact ⟨d, hd, e, (List.mem_filter.mp (k1.events.mem_iff.mp he)).1, k3.samePlace he' s⟩
  exact
    { asked := h.asked
      xPos := h.xPos
      yPos := h.yPos
      tiles := h.tiles
      xTiles := h.xTiles
      yTiles := h.yTiles
      edges := h.edges
      parts := by rw [h.clip]; exact convexClip_ne_nil
      order := h.sets
      opens := fun rev _ => hf.imp fun _ _ h => h.1 rev
      some := by
        obtain ⟨d, hd⟩ := List.exists_mem_of_ne_nil _ h.some
        obtain ⟨d', hd', -⟩ := o1 d hd
        exact ⟨d', hd', (any d' hd').hasData.2.2⟩
      any := fun d' hd' _ => any d' hd'
      centred := by
        intro d' hd' e' he'
        obtain ⟨d, hd, e, he, p⟩ := place d' hd' e' he'
        rw [h.clip, p]
        exact convex_centred ((h.fit d hd).convex e he) ((h.fit d hd).area e he) ((h.fit d hd).mean e he) h.xPos h.yPos }

/-! ## Leaving out flashes -/

section
variable {nav : Rat → Rat → Rat × Rat} {dx dy px py : Rat} {xs ys : List Rat}

theorem OpenedFrom.flashesInside {d d' : GFile} (o : OpenedFrom nav d d') :
    OpenedFrom nav (flashesInside nav dx dy px py xs ys d) (inRange dx dy px py xs ys d') where
  flashes := by
    classical
    refine forall₂_filter_both o.flashes fun f f' _ hf' s => ?_
    rw [decide_eq_decide]
    have p := o.place f' (Or.inl hf')
    rw [← s.lon, ← s.lat] at p
    have hf : (InRange dx px xs f'.val.x ∧ InRange dy py ys f'.val.y) ↔ PlaceInside dx dy px py xs ys (navPlace nav f) := by
      unfold PlaceInside navPlace
      rw [← p]
    have hev : ∀ e e', e' ∈ d'.events → SameContent e e' → (EventInRange dx dy px py xs ys e' ↔
        InField (navPlace nav e) ∧ PlaceInside dx dy px py xs ys (navPlace nav e)) := by
      intro e e' he' se
      have pe := o.samePlace he' se
      rw [← pe]
      constructor
      · rintro ⟨h1, h2, h3, h4⟩
        exact ⟨⟨h1, h2⟩, h3, h4⟩
      · rintro ⟨⟨h1, h2⟩, h3, h4⟩
        exact ⟨h1, h2, h3, h4⟩
    obtain ⟨e1, e2⟩ := forall₂_exists (forall₂_mem o.events)
    unfold FlashInside FlashInRange
    rw [hf]
    refine and_congr_right fun _ => ⟨?_, ?_⟩
    · rintro ⟨e, he, h1, h2⟩
      obtain ⟨e', he', se, -, -⟩ := e1 e he
      exact ⟨e', he', by rw [← s.id]; exact (o.ofFlash se _).mp h1, (hev e e' he' se).mpr h2⟩
    · rintro ⟨e', he', h1, h2⟩
      obtain ⟨e, he, se, -, -⟩ := e2 e' he'
      exact ⟨e, he, by rw [s.id]; exact (o.ofFlash se _).mpr h1, (hev e e' he' se).mp h2⟩
  groups := o.groups
  events := o.events
  place := by
    rintro r (hr | hr)
    · exact o.place r (Or.inl (List.mem_filter.mp hr).1)
    · exact o.place r (Or.inr hr)
  derived :=
    { flashOf := o.derived.flashOf
      nGroups := fun f hf => o.derived.nGroups f (List.mem_filter.mp hf).1
      nEventsGroup := o.derived.nEventsGroup
      nEventsFlash := fun f hf => o.derived.nEventsFlash f (List.mem_filter.mp hf).1 }

theorem ValidPart.flashesInside {d d1 : GFile} (h : ValidPart d d1) :
    ValidPart (flashesInside nav dx dy px py xs ys d) (flashesInside nav dx dy px py xs ys d1) where
  flashes := by
    classical
    have same : ∀ f, FlashInside nav dx dy px py xs ys d1 f ↔ FlashInside nav dx dy px py xs ys d f := by
      intro f
      unfold FlashInside
      refine and_congr_right fun _ => ⟨?_, ?_⟩
      · rintro ⟨e, he, h1, h2⟩
        exact ⟨e, (List.mem_filter.mp (h.events.mem_iff.mp he)).1, (h.ofFlash _ _).mp h1, h2⟩
      · rintro ⟨e, he, h1, h2⟩
        refine ⟨e, h.events.mem_iff.mpr (List.mem_filter.mpr ⟨he, decide_eq_true ?_⟩), (h.ofFlash _ _).mpr h1, h2⟩
        obtain ⟨g, hg, hg', -⟩ := h1
        exact ⟨g, hg, hg'⟩
    refine (h.flashes.filter _).trans (List.Perm.of_eq ?_)
    unfold Verif.Props.flashesInside
    simp only [List.filter_filter]
    exact List.filter_congr fun f _ => by rw [Bool.and_comm, decide_eq_decide.mpr (same f)]
  groups := h.groups
  events := h.events

theorem uniqueIds_inside {d : GFile} (h : UniqueIds d.flashes ∧ UniqueIds d.groups) :
    UniqueIds (flashesInside nav dx dy px py xs ys d).flashes ∧ UniqueIds (flashesInside nav dx dy px py xs ys d).groups := by
  refine ⟨?_, h.2⟩
  have := h.1
  unfold UniqueIds at this ⊢
  exact this.sublist (List.Sublist.map _ List.filter_sublist)

end

/-! ## C168 -/

section
variable {env : Surroundings} {order : List Int → List Int} {nav : Rat → Rat → Rat × Rat} {kw : Dict} {shared sh : Dict}
  {xlo ylo dx dy : Rat} {M N s : Nat} {me mg : Option Int} {files : List GFile}
  {runs : List (TileRun TileState ImageFile)}

/-- **C168**, for files as they are recorded, with boxes, flashes and footprints of any size, anywhere: the
call succeeds, with an image for each tile. -/
theorem C168_files_succeed (shared : Dict) (h : AnyBoxFiles env order nav kw xlo ylo dx dy M N s me mg files) :
    ∃ runs shared', gridGlmFlashes (lutGridder env) files kw shared = .ok (runs, shared') ∧
      (runs.map fun r => r.ij) = ((List.range s).flatMap fun i => (List.range s).map fun j => (i, j)) ∧
      ∀ r ∈ runs, ∃ f, r.written = [(f.name, f)] ∧ f.start = env.frame.1 ∧ f.stop = env.frame.2 ∧
        f.x = boxCentres xlo dx (tileStart M s r.ij.1) (tileStart M s (r.ij.1 + 1)) ∧
        f.y = (boxCentres ylo dy (tileStart N s r.ij.2) (tileStart N s (r.ij.2 + 1))).reverse ∧
        f.fields.map Prod.fst = eightNames := by
  obtain ⟨parts, opened, -, -, hc⟩ := h.opened
  obtain ⟨runs, sh, h1, h2, h3⟩ := C168_succeeds shared hc
  refine ⟨runs, sh, h1, h2, fun r hr => ?_⟩
  obtain ⟨f, hf, hs⟩ := h3 r hr
  exact ⟨f, hf, hs.start, hs.stop, hs.x, hs.y, hs.names⟩

/-- **C168**, for files as they are recorded: an image shows in each pixel the lightning of the flashes inside the range of
the image, with the footprints only whose means are inside its range and at most two and a half boxes from the centre of the
pixel. -/
theorem C168_files (h : AnyBoxFiles env order nav kw xlo ylo dx dy M N s me mg files)
    (hr : gridGlmFlashes (lutGridder env) files kw shared = .ok (runs, sh))
    {r : TileRun TileState ImageFile} (hrr : r ∈ runs) {nf : String × ImageFile} (hnf : nf ∈ r.written) {row col : Nat}
    {X Y : Rat} (hX : nf.2.x[col]? = some X) (hY : nf.2.y[row]? = some Y) :
    ∃ fed fa te ged ga mfa,
      LightningHolds (rangeClip convexClip dx dy (padding dx) (padding dy) nf.2.x nf.2.y X Y) env.foot me mg (files.flatMap fun d => (d.flashes.filter fun f =>
        FlashInside nav dx dy (padding dx) (padding dy) nf.2.x nf.2.y d f).map (flashOf nav d)) dx dy X Y
        fed fa te ged ga mfa ∧
      ∀ name img v, (name, img) ∈ nf.2.fields → (name, v) ∈ shown (r.scale != .bool false) fed fa te ged ga mfa →
        img.val row col = v := by
  obtain ⟨parts, opened, hp, ho, hc⟩ := h.opened
  obtain ⟨fed, fa, te, ged, ga, mfa, hpx, hv⟩ := C168_exact hc hr hrr hnf hX hY
  refine ⟨fed, fa, te, ged, ga, mfa, ?_, hv⟩
  rw [h.clip] at hpx
  have k := opened_holds (forall₂_maps ho fun _ _ o => o.flashesInside) hpx
  have k := part_holds (forall₂_maps hp fun _ _ o => o.flashesInside) k
  have k := files_lightning (by
    intro d hd
    obtain ⟨d0, hd0, rfl⟩ := List.mem_map.mp hd
    exact uniqueIds_inside ⟨(h.fit d0 hd0).sound.flashes, (h.fit d0 hd0).sound.groups⟩) k
  rw [List.flatMap_map] at k
  exact k

end

/-! ## Sample -/

/-- A file with a flash of one event next to the seam between two tiles, before it is opened, and a flash outside of the field
of view. -/
def seamPlain : GFile where
  flashes := [⟨5, 0, { lon := 99/10, lat := 1, area := 100 }⟩, ⟨6, 0, { lon := 140, lat := 0, area := 100 }⟩]
  groups := [⟨13, 5, { area := 40 }⟩, ⟨14, 6, { area := 40 }⟩]
  events := [⟨100, 13, { lon := 99/10, lat := 1, energy := 2 }⟩, ⟨101, 14, { lon := 140, lat := 0, energy := 2 }⟩]

theorem seamPlain_call : AnyBoxFiles plainEnv id sampleNav largeBoxCall 0 0 (1/200) (1/200) 4 2 2 (some 1) none [seamPlain] :=
  { asked := largeBoxCall_any.asked
    xPos := by norm_num
    yPos := by norm_num
    tiles := by omega
    xTiles := by omega
    yTiles := by omega
    edges := arange_makesEdges
    clip := rfl
    sets := fun l => List.Perm.refl l
    ids := fun l => List.Perm.refl l
    opens := rfl
    some := by simp
    fit := by
      intro d hd
      rw [List.mem_singleton] at hd
      subst hd
      exact
        { sound := ⟨by unfold HasData; decide +kernel, by decide +kernel, by decide +kernel,
            by unfold UniqueIds; decide +kernel, by unfold UniqueIds; decide +kernel⟩
          areas := by decide +kernel
          pixels := by unfold navPlace; decide +kernel
          convex := fun _ _ => diamond_convex _
          area := by unfold navPlace; decide +kernel
          mean := fun _ _ => diamond_mean _ } }

/-- Energies in the images of the sample: of the energy of two, what is east of the seam between the tiles is missing. -/
def seamEnergies : List ((Nat × Nat) × List Rat) :=
  match gridGlmFlashes (lutGridder plainEnv) [seamPlain] largeBoxCall [] with
  | .ok (runs, _) => runs.flatMap fun (r : TileRun TileState ImageFile) => r.written.flatMap fun nf =>
      nf.2.fields.flatMap fun p => if p.1 = "total_energy" then [(r.ij, (List.range 2).map fun col => p.2.val 0 col)] else []
  | .error _ => []

example : seamEnergies = [((0, 0), [0, 281/225]), ((0, 1), [0, 0]), ((1, 0), [0, 0]), ((1, 1), [0, 0])] := by decide +kernel

end Verif.Props
