import Verif.Props.Units

/-!
# C145: images depend on the lightning only

C143 says what the pixels show in terms of the rows of files.  Rows have numbers (ids), an order, a file they are in, times and
other values that are not lightning.  Here it is shown that none of these matter: a flash is its area and its groups, a group is
its area and its events, an event is its place and its energy, and two calls for files with the same flashes show the same.
-/

namespace Verif.Props

open Verif.Py Verif.Model Verif.Spec Verif.Proofs

/-! ## Specification -/

/-- A group: its area, and the places and energies of its events. -/
structure GroupOf where
  area : Rat
  events : List (Pt × Rat)
  deriving DecidableEq

/-- A flash: its area and its groups. -/
structure FlashOf where
  area : Rat
  groups : List GroupOf
  deriving DecidableEq

/-- The groups of a flash as the file has them. -/
def groupOf (nav : Rat → Rat → Rat × Rat) (d : GFile) (g : Row GVal) : GroupOf :=
  ⟨g.val.area, (d.events.filter fun e => e.pid = g.id).map fun e => (navPlace nav e, e.val.energy)⟩

/-- A flash as the file has it. -/
def flashOf (nav : Rat → Rat → Rat × Rat) (d : GFile) (f : Row GVal) : FlashOf :=
  ⟨f.val.area, (d.groups.filter fun g => g.pid = f.id).map (groupOf nav d)⟩

/-- The lightning in a file. -/
def lightning (nav : Rat → Rat → Rat × Rat) (d : GFile) : List FlashOf := d.flashes.map (flashOf nav d)

/-- Two lists have the same elements, up to their order and the relation `R`. -/
def SameUpTo {α : Type} (R : α → α → Prop) (a b : List α) : Prop := ∃ l, a.Perm l ∧ List.Forall₂ R l b

/-- The same group: the same area and the same events, in any order. -/
def SameGroup (a b : GroupOf) : Prop := a.area = b.area ∧ a.events.Perm b.events

/-- The same flash: the same area and the same groups, in any order. -/
def SameFlash (a b : FlashOf) : Prop := a.area = b.area ∧ SameUpTo SameGroup a.groups b.groups

/-- The same flashes, in any order. -/
def SameLightning (a b : List FlashOf) : Prop := SameUpTo SameFlash a b

/-! ## What a pixel shows of lightning -/

def FlashOf.events (F : FlashOf) : List (Pt × Rat) := F.groups.flatMap fun G => G.events
def FlashOf.places (F : FlashOf) : List Pt := (F.events.map Prod.fst).dedup
def GroupOf.places (G : GroupOf) : List Pt := (G.events.map Prod.fst).dedup

def LargeEnough (me mg : Option Int) (F : FlashOf) : Prop := AtLeast me F.events.length ∧ AtLeast mg F.groups.length

open scoped Classical in
/-- The flashes that count. -/
noncomputable def counted (me mg : Option Int) (fl : List FlashOf) : List FlashOf := fl.filter (LargeEnough me mg)

structure LightningHolds (clip : Poly → Poly → List Poly) (foot : Pt → Poly) (me mg : Option Int) (fl : List FlashOf)
    (dx dy X Y : Rat) (fed fa te ged ga mfa : Rat) : Prop where
  energy : te = ((counted me mg fl).map fun F => (F.events.map fun p => p.2 *
    (partArea clip (foot p.1) (pixelAt dx dy X Y) / |signedArea (foot p.1)|)).sum).sum
  flashes : fed = ((counted me mg fl).map fun F => (F.places.map (pixelShare clip foot dx dy X Y)).sum).sum
  groups : ged = ((counted me mg fl).map fun F => (F.groups.map fun G =>
    (G.places.map (pixelShare clip foot dx dy X Y)).sum).sum).sum
  flashArea : fa = ((counted me mg fl).map fun F => F.area * (F.places.map (pixelShare clip foot dx dy X Y)).sum).sum
  groupArea : ga = ((counted me mg fl).map fun F => (F.groups.map fun G => G.area *
    (G.places.map (pixelShare clip foot dx dy X Y)).sum).sum).sum
  least : LeastOrZero (((counted me mg fl).filter fun F =>
    ∃ p ∈ F.places, clip (foot p) (pixelAt dx dy X Y) ≠ []).map fun F => F.area) mfa

/-! ## From rows to lightning -/

theorem sum_flatMap {α β : Type} (F : β → Rat) (G : α → List β) (l : List α) :
    ((l.flatMap G).map F).sum = (l.map fun a => ((G a).map F).sum).sum := by
  induction l with
  | nil => rfl
  | cons a l ih => rw [List.flatMap_cons, List.map_append, List.sum_append, ih, List.map_cons, List.sum_cons]

section
variable {nav : Rat → Rat → Rat × Rat} {d : GFile} {me mg : Option Int}

theorem flash_events (hg : UniqueIds d.groups) (i : Int) : (d.events.filter fun e => EventOfFlash d i e).Perm
    ((d.groups.filter fun g => g.pid = i).flatMap fun g => d.events.filter fun e => e.pid = g.id) := by
  have hn : ((d.groups.filter fun g => decide (g.pid = i)).map Row.id).Nodup :=
    List.Nodup.sublist (List.Sublist.map _ List.filter_sublist) hg
  have := childrenInOrder_perm hn d.events
  unfold childrenInOrder at this
  rw [List.flatMap_map] at this
  refine (this.trans (List.Perm.of_eq ?_)).symm
  refine List.filter_congr fun e _ => ?_
  rw [decide_eq_decide, List.mem_map]
  constructor
  · rintro ⟨g, hg, k⟩
    obtain ⟨h1, h2⟩ := List.mem_filter.mp hg
    exact ⟨g, h1, k, of_decide_eq_true h2⟩
  · rintro ⟨g, h1, k, h2⟩
    exact ⟨g, List.mem_filter.mpr ⟨h1, decide_eq_true h2⟩, k⟩

theorem flashOf_events (f : Row GVal) : (flashOf nav d f).events = ((d.groups.filter fun g => g.pid = f.id).flatMap fun g =>
    d.events.filter fun e => e.pid = g.id).map fun e => (navPlace nav e, e.val.energy) := by
  unfold FlashOf.events flashOf groupOf
  rw [List.flatMap_map, List.map_flatMap]

theorem enough_large (hg : UniqueIds d.groups) (f : Row GVal) : Enough me mg d f ↔ LargeEnough me mg (flashOf nav d f) := by
  have e1 : (flashOf nav d f).events.length = (d.events.filter fun e => EventOfFlash d f.id e).length := by
    rw [flashOf_events, List.length_map, (flash_events hg f.id).length_eq]
  have e2 : (flashOf nav d f).groups.length = (d.groups.filter fun g => g.pid = f.id).length := by
    unfold flashOf
    rw [List.length_map]
  unfold LargeEnough
  rw [e1, e2]
  exact ⟨fun h => ⟨h.1, h.2⟩, fun h => ⟨h.1, h.2⟩⟩

theorem counted_lightning (hg : UniqueIds d.groups) :
    counted me mg (lightning nav d) = (fileFlashes me mg d).map (flashOf nav d) := by
  classical
  unfold counted lightning fileFlashes
  rw [List.filter_map]
  congr 1
  refine List.filter_congr fun f _ => ?_
  rw [Function.comp_apply, decide_eq_decide, enough_large hg]

theorem places_flash (hg : UniqueIds d.groups) (f : Row GVal) :
    (placesOfFlash nav d f).Perm (flashOf nav d f).places := by
  unfold placesOfFlash FlashOf.places
  rw [flashOf_events, List.map_map]
  exact ((flash_events hg f.id).map _).dedup

theorem places_group (g : Row GVal) : placesOfGroup nav d g = (groupOf nav d g).places := by
  unfold placesOfGroup GroupOf.places groupOf
  rw [List.map_map]
  rfl

theorem file_groups (hf : UniqueIds d.flashes) : (fileGroups me mg d).Perm
    ((fileFlashes me mg d).flatMap fun f => d.groups.filter fun g => g.pid = f.id) := by
  classical
  have hn : ((fileFlashes me mg d).map Row.id).Nodup :=
    List.Nodup.sublist (List.Sublist.map _ List.filter_sublist) hf
  have := childrenInOrder_perm hn d.groups
  unfold childrenInOrder at this
  rw [List.flatMap_map] at this
  refine (this.trans (List.Perm.of_eq ?_)).symm
  unfold fileGroups fileFlashes
  refine List.filter_congr fun e _ => ?_
  rw [decide_eq_decide, List.mem_map]
  constructor
  · rintro ⟨f, hf, k⟩
    obtain ⟨h1, h2⟩ := List.mem_filter.mp hf
    exact ⟨f, h1, of_decide_eq_true h2, k⟩
  · rintro ⟨f, h1, h2, k⟩
    exact ⟨f, List.mem_filter.mpr ⟨h1, decide_eq_true h2⟩, k⟩

theorem file_events (hf : UniqueIds d.flashes) (hg : UniqueIds d.groups) : (fileEvents me mg d).Perm
    ((fileFlashes me mg d).flatMap fun f => (d.groups.filter fun g => g.pid = f.id).flatMap fun g =>
      d.events.filter fun e => e.pid = g.id) := by
  classical
  have hn : ((fileGroups me mg d).map Row.id).Nodup :=
    List.Nodup.sublist (List.Sublist.map _ List.filter_sublist) hg
  have := childrenInOrder_perm hn d.events
  unfold childrenInOrder at this
  rw [List.flatMap_map] at this
  rw [← List.flatMap_assoc]
  refine List.Perm.trans ?_ ((file_groups hf).flatMap_right _)
  refine (this.trans (List.Perm.of_eq ?_)).symm
  unfold fileEvents fileGroups
  refine List.filter_congr fun e _ => ?_
  rw [decide_eq_decide, List.mem_map]
  constructor
  · rintro ⟨g, hg, k⟩
    obtain ⟨h1, h2⟩ := List.mem_filter.mp hg
    obtain ⟨f, hf, he, hi⟩ := of_decide_eq_true h2
    exact ⟨f, hf, he, g, h1, k, hi.symm⟩
  · rintro ⟨f, hf, he, g, h1, k, hi⟩
    exact ⟨g, List.mem_filter.mpr ⟨h1, decide_eq_true ⟨f, hf, he, hi.symm⟩⟩, k⟩

/-- What the pixels should hold of files is what they should hold of their lightning. -/
theorem files_lightning {clip : Poly → Poly → List Poly} {foot : Pt → Poly} {files : List GFile}
    {dx dy X Y fed fa te ged ga mfa : Rat} (hu : ∀ d ∈ files, UniqueIds d.flashes ∧ UniqueIds d.groups)
    (h : FilesHold clip foot nav me mg files dx dy X Y fed fa te ged ga mfa) :
    LightningHolds clip foot me mg (files.flatMap (lightning nav)) dx dy X Y fed fa te ged ga mfa := by
  have hc : counted me mg (files.flatMap (lightning nav)) = files.flatMap fun d => counted me mg (lightning nav d) := by
    unfold counted
    exact List.filter_flatMap
  have sums : ∀ {F : FlashOf → Rat} {G : GFile → Rat},
      (∀ d ∈ files, G d = ((fileFlashes me mg d).map fun f => F (flashOf nav d f)).sum) →
      (files.map G).sum = ((counted me mg (files.flatMap (lightning nav))).map F).sum := by
    intro F G hFG
    rw [hc, sum_flatMap]
    congr 1
    refine List.map_congr_left fun d hd => ?_
    rw [hFG d hd, counted_lightning (hu d hd).2, List.map_map]
    rfl
  refine ⟨?_, ?_, ?_, ?_, ?_, ?_⟩
  · rw [h.energy]
    refine sums fun d hd => ?_
    rw [((file_events (hu d hd).1 (hu d hd).2).map _).sum_eq, sum_flatMap]
    congr 1
    refine List.map_congr_left fun f _ => ?_
    rw [flashOf_events, List.map_map]
    rfl
  · rw [h.flashes]
    refine sums fun d hd => ?_
    congr 1
    exact List.map_congr_left fun f _ => ((places_flash (hu d hd).2 f).map _).sum_eq
  · rw [h.groups]
    refine sums fun d hd => ?_
    rw [((file_groups (hu d hd).1).map _).sum_eq, sum_flatMap]
    congr 1
    refine List.map_congr_left fun f _ => ?_
    unfold flashOf
    rw [List.map_map]
    congr 1
    refine List.map_congr_left fun g _ => ?_
    rw [places_group]
    rfl
  · rw [h.flashArea]
    refine sums fun d hd => ?_
    congr 1
    refine List.map_congr_left fun f _ => ?_
    rw [((places_flash (hu d hd).2 f).map _).sum_eq]
    rfl
  · rw [h.groupArea]
    refine sums fun d hd => ?_
    rw [((file_groups (hu d hd).1).map _).sum_eq, sum_flatMap]
    congr 1
    refine List.map_congr_left fun f _ => ?_
    unfold flashOf
    rw [List.map_map]
    congr 1
    refine List.map_congr_left fun g _ => ?_
    rw [places_group]
    rfl
  · have hl := h.least
    refine leastOrZero_ofPerm (List.Perm.of_eq ?_) hl
    rw [hc, List.filter_flatMap, List.map_flatMap]
    refine List.flatMap_congr fun d hd => ?_
    rw [counted_lightning (hu d hd).2, List.filter_map, List.map_map]
    have : ∀ f ∈ fileFlashes me mg d, decide (∃ p ∈ placesOfFlash nav d f, clip (foot p) (pixelAt dx dy X Y) ≠ []) =
        ((fun F : FlashOf => decide (∃ p ∈ F.places, clip (foot p) (pixelAt dx dy X Y) ≠ [])) ∘ flashOf nav d) f := by
      intro f _
      rw [Function.comp_apply, decide_eq_decide]
      constructor
      · rintro ⟨p, hp, k⟩
        exact ⟨p, (places_flash (hu d hd).2 f).mem_iff.mp hp, k⟩
      · rintro ⟨p, hp, k⟩
        exact ⟨p, (places_flash (hu d hd).2 f).mem_iff.mpr hp, k⟩
    rw [List.filter_congr this]
    rfl

/-! ## The same lightning -/

theorem sameUpTo_sum {α : Type} {R : α → α → Prop} {a b : List α} (h : SameUpTo R a b) {F : α → Rat}
    (hF : ∀ x y, R x y → F x = F y) : (a.map F).sum = (b.map F).sum := by
  obtain ⟨l, h1, h2⟩ := h
  rw [(h1.map F).sum_eq]
  congr 1
  clear h1
  induction h2 with
  | nil => rfl
  | cons hab _ ih => rw [List.map_cons, List.map_cons, hF _ _ hab, ih]

theorem sameUpTo_map {α β : Type} {R : α → α → Prop} {a b : List α} (h : SameUpTo R a b) {F : α → β}
    (hF : ∀ x y, R x y → F x = F y) : (a.map F).Perm (b.map F) := by
  obtain ⟨l, h1, h2⟩ := h
  refine (h1.map F).trans (List.Perm.of_eq ?_)
  clear h1
  induction h2 with
  | nil => rfl
  | cons hab _ ih => rw [List.map_cons, List.map_cons, hF _ _ hab, ih]

theorem sameUpTo_filter {α : Type} {R : α → α → Prop} {a b : List α} (h : SameUpTo R a b) {P : α → Bool}
    (hP : ∀ x y, R x y → P x = P y) : SameUpTo R (a.filter P) (b.filter P) := by
  obtain ⟨l, h1, h2⟩ := h
  refine ⟨l.filter P, h1.filter P, ?_⟩
  clear h1
  induction h2 with
  | nil => exact .nil
  | cons hab _ ih =>
    rw [List.filter_cons, List.filter_cons, hP _ _ hab]
    split
    · exact .cons hab ih
    · exact ih

theorem sameFlash_events {F G : FlashOf} (h : SameFlash F G) : F.events.Perm G.events := by
  obtain ⟨-, l, h1, h2⟩ := h
  unfold FlashOf.events
  refine (h1.flatMap_right _).trans ?_
  clear h1
  generalize G.groups = m at h2
  induction h2 with
  | nil => exact List.Perm.refl _
  | cons hab _ ih =>
    rw [List.flatMap_cons, List.flatMap_cons]
    exact hab.2.append ih

theorem sameFlash_places {F G : FlashOf} (h : SameFlash F G) : F.places.Perm G.places := ((sameFlash_events h).map _).dedup

theorem sameGroup_places {F G : GroupOf} (h : SameGroup F G) : F.places.Perm G.places := (h.2.map _).dedup

theorem sameFlash_large {F G : FlashOf} (h : SameFlash F G) : LargeEnough me mg F ↔ LargeEnough me mg G := by
  unfold LargeEnough
  have h2 : F.groups.length = G.groups.length := by
    obtain ⟨-, l, h1, h2⟩ := h
    rw [h1.length_eq, h2.length_eq]
  rw [(sameFlash_events h).length_eq, h2]

theorem counted_same {a b : List FlashOf} (h : SameLightning a b) : SameLightning (counted me mg a) (counted me mg b) := by
  classical
  unfold counted
  exact sameUpTo_filter h fun F G hFG => by rw [decide_eq_decide, sameFlash_large hFG]

/-- Pixels hold the same of the same lightning. -/
theorem lightning_unique {clip : Poly → Poly → List Poly} {foot : Pt → Poly} {a b : List FlashOf}
    {dx dy X Y fed fa te ged ga mfa fed' fa' te' ged' ga' mfa' : Rat} (hs : SameLightning a b)
    (h : LightningHolds clip foot me mg a dx dy X Y fed fa te ged ga mfa)
    (h' : LightningHolds clip foot me mg b dx dy X Y fed' fa' te' ged' ga' mfa') :
    fed' = fed ∧ fa' = fa ∧ te' = te ∧ ged' = ged ∧ ga' = ga ∧ mfa' = mfa := by
  have hc := counted_same (me := me) (mg := mg) hs
  refine ⟨?_, ?_, ?_, ?_, ?_, ?_⟩
  · rw [h.flashes, h'.flashes]
    exact (sameUpTo_sum hc fun F G hFG => ((sameFlash_places hFG).map _).sum_eq).symm
  · rw [h.flashArea, h'.flashArea]
    exact (sameUpTo_sum hc fun F G hFG => by rw [((sameFlash_places hFG).map _).sum_eq, hFG.1]).symm
  · rw [h.energy, h'.energy]
    exact (sameUpTo_sum hc fun F G hFG => ((sameFlash_events hFG).map _).sum_eq).symm
  · rw [h.groups, h'.groups]
    exact (sameUpTo_sum hc fun F G hFG => sameUpTo_sum hFG.2 fun A B hAB => ((sameGroup_places hAB).map _).sum_eq).symm
  · rw [h.groupArea, h'.groupArea]
    exact (sameUpTo_sum hc fun F G hFG => sameUpTo_sum hFG.2 fun A B hAB => by
      rw [((sameGroup_places hAB).map _).sum_eq, hAB.1]).symm
  · refine leastOrZero_unique ?_ h'.least h.least
    refine (sameUpTo_map (sameUpTo_filter hc fun F G hFG => ?_) fun F G hFG => hFG.1).symm
    rw [decide_eq_decide]
    constructor
    · rintro ⟨p, hp, k⟩
      exact ⟨p, (sameFlash_places hFG).mem_iff.mp hp, k⟩
    · rintro ⟨p, hp, k⟩
      exact ⟨p, (sameFlash_places hFG).mem_iff.mpr hp, k⟩

end

/-! ## Images -/

/-- What a call shows, if its images are those of files. -/
theorem shown_lightning {foot : Pt → Poly} {nav : Rat → Rat → Rat × Rat} {me mg : Option Int} {files : List GFile}
    {dx dy : Rat} {frame : Rat × Rat} {runs : List (TileRun TileState ImageFile)} {sc : Bool} (hsc : Scaled runs sc)
    (hu : ∀ d ∈ files, UniqueIds d.flashes ∧ UniqueIds d.groups)
    (hi : ∀ r ∈ runs, ∃ f xs ys, r.written = [(f.name, f)] ∧
      ImageOfFiles foot nav me mg files dx dy (r.scale != .bool false) frame xs ys f)
    {name : String} (hn : name ∈ sixNames) {X Y v : Rat} (hv : Shows runs name X Y v) :
    ∃ fed fa te ged ga mfa, LightningHolds convexClip foot me mg (files.flatMap (lightning nav)) dx dy X Y fed fa te ged ga mfa ∧
      (name, v) ∈ shown sc fed fa te ged ga mfa := by
  obtain ⟨r, hrr, nf, hnf, row, col, img, hx, hy, hi', rfl⟩ := hv
  obtain ⟨f, xs, ys, hf, hs⟩ := hi r hrr
  rw [hf, List.mem_singleton] at hnf
  subst hnf
  obtain ⟨fed, fa, te, ged, ga, mfa, hp, hall⟩ := hs.pixels row col X Y hx hy
  refine ⟨fed, fa, te, ged, ga, mfa, files_lightning hu hp, ?_⟩
  rw [hsc r hrr] at hall
  obtain ⟨v, hv⟩ := shown_names sc fed fa te ged ga mfa hn
  rw [hall name img v hi' hv]
  exact hv

theorem UnitsCall.images_of {env : Surroundings} {order : List Int → List Int} {nav : Rat → Rat → Rat × Rat}
    {attrs : GFile → FileAttrs} {kw shared sh : Dict} {xlo ylo dx dy : Rat} {M N s : Nat} {me mg : Option Int}
    {files : List GFile} {runs : List (TileRun TileState ImageFile)}
    (h : UnitsCall env order nav attrs kw xlo ylo dx dy M N s me mg files)
    (hr : gridGlmFlashes (lutGridder env) files kw shared = .ok (runs, sh)) :
    ∀ r ∈ runs, ∃ f xs ys, r.written = [(f.name, f)] ∧ ImageOfFiles env.foot nav me mg
      (files.map fun d => inUnits (attrs d) d) dx dy (r.scale != .bool false) env.frame xs ys f := by
  obtain ⟨runs', sh', h1, -, h3, -⟩ := C143_units shared h
  rw [hr] at h1
  simp only [Except.ok.injEq, Prod.mk.injEq] at h1
  obtain ⟨rfl, -⟩ := h1
  intro r hrr
  obtain ⟨f, hf, hi⟩ := h3 r hrr
  exact ⟨f, _, _, hf, hi⟩

/-- **C145**.  Two calls for the same lightning, thresholds and size of boxes show the same values in every pixel that both have
written.  Ids, the order of rows, the way flashes are distributed among files, times, energies and places of flashes and groups,
units of the files, domains and tiles may differ. -/
theorem C145_same_lightning {env env' : Surroundings} {order order' : List Int → List Int} {nav : Rat → Rat → Rat × Rat}
    {attrs attrs' : GFile → FileAttrs} {kw kw' shared shared' sh sh' : Dict} {xlo ylo xlo' ylo' dx dy : Rat}
    {M N s M' N' s' : Nat} {me mg : Option Int} {files files' : List GFile} {runs runs' : List (TileRun TileState ImageFile)}
    {sc : Bool} (h : UnitsCall env order nav attrs kw xlo ylo dx dy M N s me mg files)
    (h' : UnitsCall env' order' nav attrs' kw' xlo' ylo' dx dy M' N' s' me mg files') (hfoot : env'.foot = env.foot)
    (hsame : SameLightning (files.flatMap fun d => lightning nav (inUnits (attrs d) d))
      (files'.flatMap fun d => lightning nav (inUnits (attrs' d) d)))
    (hr : gridGlmFlashes (lutGridder env) files kw shared = .ok (runs, sh))
    (hr' : gridGlmFlashes (lutGridder env') files' kw' shared' = .ok (runs', sh'))
    (hsc : Scaled runs sc) (hsc' : Scaled runs' sc) (name : String) (hname : name ∈ sixNames) (X Y v v' : Rat)
    (hv : Shows runs name X Y v) (hv' : Shows runs' name X Y v') : v' = v := by
  have unique : ∀ {attrs : GFile → FileAttrs} {files : List GFile}, (∀ d ∈ files, SoundFile d) →
      ∀ d ∈ files.map fun d => inUnits (attrs d) d, UniqueIds d.flashes ∧ UniqueIds d.groups := by
    intro attrs files hs d hd
    obtain ⟨d0, hd0, rfl⟩ := List.mem_map.mp hd
    exact ⟨(ids_map (by constructor <;> exact fun _ => rfl)).mpr (hs d0 hd0).flashes,
      (ids_map (by constructor <;> exact fun _ => rfl)).mpr (hs d0 hd0).groups⟩
  obtain ⟨fed, fa, te, ged, ga, mfa, hp, k⟩ := shown_lightning hsc (unique h.sound) (h.images_of hr) hname hv
  obtain ⟨fed', fa', te', ged', ga', mfa', hp', k'⟩ := shown_lightning hsc' (unique h'.sound) (h'.images_of hr') hname hv'
  rw [hfoot] at hp'
  rw [List.flatMap_map] at hp hp'
  obtain ⟨rfl, rfl, rfl, rfl, rfl, rfl⟩ := lightning_unique hsame hp hp'
  exact shown_unique k' k

/-! ## Sample -/

/-- The lightning of `storedFile` in two files, with other numbers, in another order, and with times. -/
def firstHalf : GFile where
  flashes := [⟨1, 0, { lon := 9/2, lat := 7/2, times := [7, 8] }⟩, ⟨2, 0, { lon := 2, lat := 3, area := 10000000 }⟩]
  groups := [⟨1, 1, { area := 50000000, lon := 4 }⟩]
  events := [⟨1, 1, { lon := 5, lat := 7/2, energy := 5/1000000000 }⟩,
    ⟨2, 1, { lon := 9/2, lat := 7/2, energy := 4/1000000000, times := [7] }⟩]

def secondHalf : GFile where
  flashes := [⟨4, 0, { lon := 1, lat := 3, area := 20000000 }⟩, ⟨1, 0, { lon := 2, lat := 2, area := 100000000, energy := 4 }⟩]
  groups := [⟨3, 1, { area := 30000000 }⟩, ⟨2, 4, { area := 20000000 }⟩, ⟨1, 1, { area := 40000000, times := [3] }⟩]
  events := [⟨3, 2, { lon := 1, lat := 3, energy := 9/1000000000 }⟩, ⟨2, 1, { lon := 3/2, lat := 2, energy := 0 }⟩,
    ⟨1, 3, { lon := 2, lat := 2, energy := 2/1000000000 }⟩]

/-- The area of flash 1 of the first half is missing. -/
def halfAttrs (d : GFile) : FileAttrs := { plainAttrs with noFlashArea := fun i => i == 1 && d.groups.length == 1 }

def halfEnv : Surroundings := { diamondEnv with openFile := fun _ d => openFull id sampleNav (halfAttrs d) d }

theorem halves_call : UnitsCall halfEnv id sampleNav halfAttrs wideCall 0 (-1/1000) (1/1000) (1/1000) 6 6 1
    (some 2) none [firstHalf, secondHalf] :=
  { asked := wideCall_asked
    xPos := by norm_num
    yPos := by norm_num
    tiles := by omega
    xTiles := by omega
    yTiles := by omega
    xPad := by norm_num
    yPad := by norm_num
    edges := arange_makesEdges
    clip := rfl
    sets := fun l => List.Perm.refl l
    ids := fun l => List.Perm.refl l
    opens := rfl
    some := by simp
    conventional := by
      intro d _
      constructor <;> simp [halfAttrs, plainAttrs]
    sound := by
      intro d hd
      simp only [List.mem_cons, List.not_mem_nil, or_false] at hd
      rcases hd with rfl | rfl <;> exact ⟨by unfold HasData; decide +kernel, by decide +kernel, by decide +kernel,
        by unfold UniqueIds; decide +kernel, by unfold UniqueIds; decide +kernel⟩
    times := by
      intro d _ hb
      exact absurd hb (by simp [badTimes, halfAttrs, plainAttrs])
    fit := by
      have hpads : padBoxes (28 / 10000) (1 / 1000) = 2 := by decide +kernel
      intro d hd
      rw [hpads]
      simp only [List.mem_cons, List.not_mem_nil, or_false] at hd
      rcases hd with rfl | rfl <;> exact
        { sound := ⟨by unfold HasData; decide +kernel, by decide +kernel, by decide +kernel,
            by unfold UniqueIds; decide +kernel, by unfold UniqueIds; decide +kernel⟩
          areas := by decide +kernel
          pixels := by unfold navPlace; decide +kernel
          convex := fun _ _ => diamond_convex _
          area := by unfold navPlace; decide +kernel
          mean := fun _ _ => diamond_mean _
          narrow := by unfold navPlace; decide +kernel
          padded := by unfold navPlace; decide +kernel
          view := by unfold navPlace; decide +kernel
          compact := by unfold navPlace; decide +kernel } }

/-- The flashes of the sample. -/
def exampleFlash (i : Nat) : FlashOf :=
  match i with
  | 0 => ⟨10, []⟩
  | 1 => ⟨100, [⟨40, [((3/2000, 2/1000), 1/2)]⟩, ⟨30, [((2/1000, 2/1000), 2)]⟩]⟩
  | 2 => ⟨600, [⟨50, [((9/2000, 7/2000), 4), ((5/1000, 7/2000), 5)]⟩]⟩
  | _ => ⟨20, [⟨20, [((1/1000, 3/1000), 9)]⟩]⟩

theorem stored_lightning : lightning sampleNav (inUnits plainAttrs storedFile) =
    [exampleFlash 0, exampleFlash 1, exampleFlash 2, exampleFlash 3] := by decide +kernel

theorem halves_lightning : (lightning sampleNav (inUnits (halfAttrs firstHalf) firstHalf) ++
    lightning sampleNav (inUnits (halfAttrs secondHalf) secondHalf)) =
    [⟨600, [⟨50, [((5/1000, 7/2000), 5), ((9/2000, 7/2000), 4)]⟩]⟩, exampleFlash 0, exampleFlash 3,
      ⟨100, [⟨30, [((2/1000, 2/1000), 2)]⟩, ⟨40, [((3/2000, 2/1000), 1/2)]⟩]⟩] := by decide +kernel

/-- It is the same lightning. -/
theorem halves_same : SameLightning ([storedFile].flatMap fun d => lightning sampleNav (inUnits plainAttrs d))
    ([firstHalf, secondHalf].flatMap fun d => lightning sampleNav (inUnits (halfAttrs d) d)) := by
  simp only [List.flatMap_cons, List.flatMap_nil, List.append_nil]
  rw [stored_lightning, halves_lightning]
  have refl : ∀ F : FlashOf, SameFlash F F := fun F => ⟨rfl, F.groups, List.Perm.refl _,
    List.forall₂_same.mpr fun _ _ => ⟨rfl, List.Perm.refl _⟩⟩
  refine ⟨[exampleFlash 2, exampleFlash 0, exampleFlash 3, exampleFlash 1], by decide +kernel, .cons ?_ (.cons (refl _)
    (.cons (refl _) (.cons ?_ .nil)))⟩
  · exact ⟨rfl, _, List.Perm.refl _, .cons ⟨rfl, List.Perm.swap _ _ _⟩ .nil⟩
  · exact ⟨rfl, _, List.Perm.swap _ _ _, .cons ⟨rfl, List.Perm.refl _⟩ (.cons ⟨rfl, List.Perm.refl _⟩ .nil)⟩

/-- Hence both calls show the same. -/
example (runs runs' : List (TileRun TileState ImageFile)) (sh sh' : Dict) (sc : Bool)
    (hr : gridGlmFlashes (lutGridder storedEnv) [storedFile] wideCall [] = .ok (runs, sh))
    (hr' : gridGlmFlashes (lutGridder halfEnv) [firstHalf, secondHalf] wideCall [] = .ok (runs', sh'))
    (hsc : Scaled runs sc) (hsc' : Scaled runs' sc) (X Y v v' : Rat) (hv : Shows runs "total_energy" X Y v)
    (hv' : Shows runs' "total_energy" X Y v') : v' = v :=
  C145_same_lightning stored_call halves_call rfl halves_same hr hr' hsc hsc' "total_energy" (by decide) X Y v v' hv hv'

/-- Some of the values of the second call, as in `storedValues`. -/
def halfValues (name : String) : List (List Rat) :=
  match gridGlmFlashes (lutGridder halfEnv) [firstHalf, secondHalf] wideCall [] with
  | .ok (runs, _) => runs.flatMap fun (r : TileRun TileState ImageFile) => r.written.flatMap fun nf =>
      nf.2.fields.filterMap fun p => if p.1 = name
        then some [p.2.val 2 1, p.2.val 3 1, p.2.val 3 2, p.2.val 1 4] else none
  | .error _ => []

example : halfValues "total_energy" = [[13 / 18, 13 / 18, 37 / 72, 109 / 18]] := by decide +kernel

end Verif.Props
