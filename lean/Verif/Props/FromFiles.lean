import Verif.Props.ConvexPixels
import Verif.Props.SampleEnergy

/-!
# C142: from the rows of files to the pixels of images

C137 is about datasets that are open.  Here the files are opened, so that what the pixels show is said in terms of what is
recorded in the files: ids, parents, longitudes, latitudes, energies and areas.
-/

namespace Verif.Props

open Verif.Py Verif.Model Verif.Spec Verif.Proofs

/-! ## Specification -/

/-- The place of a row in image coordinates, from its longitude and latitude. -/
def navPlace (nav : Rat → Rat → Rat × Rat) (r : Row GVal) : Pt := nav r.val.lon r.val.lat

/-- A flash of a file with enough events and enough groups. -/
structure Enough (me mg : Option Int) (d : GFile) (f : Row GVal) : Prop where
  events : AtLeast me (d.events.filter fun e => EventOfFlash d f.id e).length
  groups : AtLeast mg (d.groups.filter fun g => g.pid = f.id).length

open scoped Classical in
/-- The flashes of a file that count. -/
noncomputable def fileFlashes (me mg : Option Int) (d : GFile) : List (Row GVal) := d.flashes.filter (Enough me mg d)

open scoped Classical in
/-- Their groups. -/
noncomputable def fileGroups (me mg : Option Int) (d : GFile) : List (Row GVal) :=
  d.groups.filter fun g => ∃ f ∈ d.flashes, Enough me mg d f ∧ f.id = g.pid

open scoped Classical in
/-- Their events. -/
noncomputable def fileEvents (me mg : Option Int) (d : GFile) : List (Row GVal) :=
  d.events.filter fun e => ∃ f ∈ d.flashes, Enough me mg d f ∧ EventOfFlash d f.id e

/-- The places at which a flash has events, each once. -/
def placesOfFlash (nav : Rat → Rat → Rat × Rat) (d : GFile) (f : Row GVal) : List Pt :=
  ((d.events.filter fun e => EventOfFlash d f.id e).map (navPlace nav)).dedup

/-- The places at which a group has events, each once. -/
def placesOfGroup (nav : Rat → Rat → Rat × Rat) (d : GFile) (g : Row GVal) : List Pt :=
  ((d.events.filter fun e => e.pid = g.id).map (navPlace nav)).dedup

/-- The part of a pixel that is under a footprint. -/
def pixelShare (clip : Poly → Poly → List Poly) (foot : Pt → Poly) (dx dy X Y : Rat) (p : Pt) : Rat :=
  partArea clip (foot p) (pixelAt dx dy X Y) / (dx * dy)

/-- What is accumulated in a pixel from files. -/
structure FilesHold (clip : Poly → Poly → List Poly) (foot : Pt → Poly) (nav : Rat → Rat → Rat × Rat) (me mg : Option Int)
    (files : List GFile) (dx dy X Y : Rat) (fed fa te ged ga mfa : Rat) : Prop where
  energy : te = (files.map fun d => ((fileEvents me mg d).map fun e => e.val.energy *
    (partArea clip (foot (navPlace nav e)) (pixelAt dx dy X Y) / |signedArea (foot (navPlace nav e))|)).sum).sum
  flashes : fed = (files.map fun d => ((fileFlashes me mg d).map fun f =>
    ((placesOfFlash nav d f).map (pixelShare clip foot dx dy X Y)).sum).sum).sum
  groups : ged = (files.map fun d => ((fileGroups me mg d).map fun g =>
    ((placesOfGroup nav d g).map (pixelShare clip foot dx dy X Y)).sum).sum).sum
  flashArea : fa = (files.map fun d => ((fileFlashes me mg d).map fun f => f.val.area *
    ((placesOfFlash nav d f).map (pixelShare clip foot dx dy X Y)).sum).sum).sum
  groupArea : ga = (files.map fun d => ((fileGroups me mg d).map fun g => g.val.area *
    ((placesOfGroup nav d g).map (pixelShare clip foot dx dy X Y)).sum).sum).sum
  least : LeastOrZero (files.flatMap fun d => ((fileFlashes me mg d).filter fun (f : Row GVal) =>
    ∃ p ∈ placesOfFlash nav d f, clip (foot p) (pixelAt dx dy X Y) ≠ []).map fun f => f.val.area) mfa

/-! ## Opening -/

/-- What a dataset that was opened has to do with its file. -/
structure OpenedFrom (nav : Rat → Rat → Rat × Rat) (d d' : GFile) : Prop where
  flashes : List.Forall₂ SameContent d.flashes d'.flashes
  groups : List.Forall₂ SameContent d.groups d'.groups
  events : List.Forall₂ SameContent d.events d'.events
  place : ∀ r, r ∈ d'.flashes ∨ r ∈ d'.groups ∨ r ∈ d'.events → (r.val.x, r.val.y) = nav r.val.lon r.val.lat
  derived : Derived d'

theorem forall₂_mem {α β : Type} {R : α → β → Prop} {a : List α} {b : List β} (h : List.Forall₂ R a b) :
    List.Forall₂ (fun x y => R x y ∧ x ∈ a ∧ y ∈ b) a b := by
  induction h with
  | nil => exact .nil
  | cons hxy _ ih =>
    exact .cons ⟨hxy, List.mem_cons_self, List.mem_cons_self⟩
      (ih.imp fun _ _ h => ⟨h.1, List.mem_cons_of_mem _ h.2.1, List.mem_cons_of_mem _ h.2.2⟩)

theorem filter_map_forall₂ {α β γ : Type} {R : α → β → Prop} {a : List α} {b : List β} (h : List.Forall₂ R a b)
    {P : α → Bool} {Q : β → Bool} {F : α → γ} {G : β → γ} (hP : ∀ x y, R x y → P x = Q y) (hF : ∀ x y, R x y → F x = G y) :
    (b.filter Q).map G = (a.filter P).map F := by
  induction h with
  | nil => rfl
  | cons hxy _ ih =>
    rw [List.filter_cons, List.filter_cons, hP _ _ hxy]
    split
    · rw [List.map_cons, List.map_cons, hF _ _ hxy, ih]
    · exact ih

section
variable {nav : Rat → Rat → Rat × Rat} {d d' : GFile} {me mg : Option Int}

theorem OpenedFrom.samePlace (h : OpenedFrom nav d d') {e e' : Row GVal} (he : e' ∈ d'.events) (s : SameContent e e') :
    placeOf e' = navPlace nav e := by
  have := h.place e' (Or.inr (Or.inr he))
  unfold placeOf navPlace
  rw [this, s.lon, s.lat]

theorem OpenedFrom.ofFlash (h : OpenedFrom nav d d') {e e' : Row GVal} (s : SameContent e e') (i : Int) :
    EventOfFlash d i e ↔ EventOfFlash d' i e' := eventOfFlash_same h.groups s i

theorem OpenedFrom.enough (h : OpenedFrom nav d d') {f f' : Row GVal} (hf : f' ∈ d'.flashes) (s : SameContent f f') :
    (AtLeast me f'.val.nEvents ∧ AtLeast mg f'.val.nGroups) ↔ Enough me mg d f := by
  have e1 : f'.val.nEvents = (d.events.filter fun e => EventOfFlash d f.id e).length := by
    rw [h.derived.nEventsFlash f' hf]
    have := filter_map_forall₂ h.events (P := fun e => decide (EventOfFlash d f.id e))
      (Q := fun e => decide (EventOfFlash d' f'.id e)) (F := fun _ => ()) (G := fun _ => ())
      (fun e e' se => by rw [decide_eq_decide, h.ofFlash se, s.id]) (fun _ _ _ => rfl)
    have := congrArg List.length this
    rwa [List.length_map, List.length_map] at this
  have e2 : f'.val.nGroups = (d.groups.filter fun g => g.pid = f.id).length := by
    rw [h.derived.nGroups f' hf]
    have := filter_map_forall₂ h.groups (P := fun g => decide (g.pid = f.id)) (Q := fun g => decide (g.pid = f'.id))
      (F := fun _ => ()) (G := fun _ => ())
      (fun g g' sg => by rw [decide_eq_decide, sg.pid, s.id]) (fun _ _ _ => rfl)
    have := congrArg List.length this
    rwa [List.length_map, List.length_map] at this
  rw [e1, e2]
  exact ⟨fun k => ⟨k.1, k.2⟩, fun k => ⟨k.1, k.2⟩⟩

theorem OpenedFrom.ofFlashPlaces (h : OpenedFrom nav d d') {f f' : Row GVal} (s : SameContent f f') :
    flashPlaces d' f' = placesOfFlash nav d f := by
  unfold Verif.Props.flashPlaces placesOfFlash
  congr 1
  exact filter_map_forall₂ (forall₂_mem h.events)
    (fun e e' se => by rw [decide_eq_decide, h.ofFlash se.1, s.id]) (fun e e' se => (h.samePlace se.2.2 se.1).symm)

theorem OpenedFrom.ofGroupPlaces (h : OpenedFrom nav d d') {g g' : Row GVal} (s : SameContent g g') :
    groupPlaces d' g' = placesOfGroup nav d g := by
  unfold Verif.Props.groupPlaces placesOfGroup
  congr 1
  exact filter_map_forall₂ (forall₂_mem h.events)
    (fun e e' se => by rw [decide_eq_decide, se.1.pid, s.id]) (fun e e' se => (h.samePlace se.2.2 se.1).symm)

theorem OpenedFrom.sameFlashes (h : OpenedFrom nav d d') {γ : Type} {F G : Row GVal → γ}
    (hF : ∀ f f', SameContent f f' → F f = G f') :
    (countedFlashes me mg d').map G = (fileFlashes me mg d).map F := by
  classical
  unfold countedFlashes fileFlashes
  refine filter_map_forall₂ (forall₂_mem h.flashes) (fun f f' s => ?_) fun f f' s => hF f f' s.1
  rw [decide_eq_decide, h.enough s.2.2 s.1]

theorem OpenedFrom.sameGroups (h : OpenedFrom nav d d') {γ : Type} {F G : Row GVal → γ}
    (hF : ∀ f f', SameContent f f' → F f = G f') :
    (countedGroups me mg d').map G = (fileGroups me mg d).map F := by
  classical
  unfold Verif.Props.countedGroups fileGroups
  refine filter_map_forall₂ (forall₂_mem h.groups) (fun g g' s => ?_) fun f f' s => hF f f' s.1
  rw [decide_eq_decide]
  obtain ⟨f1, f2⟩ := forall₂_exists h.flashes
  unfold countedFlashes
  constructor
  · rintro ⟨f, hf, he, hid⟩
    obtain ⟨f', hf', sf⟩ := f1 f hf
    exact ⟨f', List.mem_filter.mpr ⟨hf', decide_eq_true ((h.enough hf' sf).mpr he)⟩, by rw [← sf.id, ← s.1.pid, hid]⟩
  · rintro ⟨f', hf', hid⟩
    obtain ⟨hf', he⟩ := List.mem_filter.mp hf'
    obtain ⟨f, hf, sf⟩ := f2 f' hf'
    exact ⟨f, hf, (h.enough hf' sf).mp (of_decide_eq_true he), by rw [sf.id, s.1.pid, hid]⟩

theorem OpenedFrom.sameEvents (h : OpenedFrom nav d d') {γ : Type} {F G : Row GVal → γ}
    (hF : ∀ e e', SameContent e e' → e' ∈ d'.events → F e = G e') :
    (countedEvents me mg d').map G = (fileEvents me mg d).map F := by
  classical
  unfold Verif.Props.countedEvents fileEvents
  refine filter_map_forall₂ (forall₂_mem h.events) (fun e e' s => ?_) fun f f' s => hF f f' s.1 s.2.2
  rw [decide_eq_decide]
  obtain ⟨f1, f2⟩ := forall₂_exists h.flashes
  unfold countedFlashes
  constructor
  · rintro ⟨f, hf, he, hid⟩
    obtain ⟨f', hf', sf⟩ := f1 f hf
    exact ⟨f', List.mem_filter.mpr ⟨hf', decide_eq_true ((h.enough hf' sf).mpr he)⟩, by
      rw [← sf.id]; exact (h.ofFlash s.1 _).mp hid⟩
  · rintro ⟨f', hf', hid⟩
    obtain ⟨hf', he⟩ := List.mem_filter.mp hf'
    obtain ⟨f, hf, sf⟩ := f2 f' hf'
    exact ⟨f, hf, (h.enough hf' sf).mp (of_decide_eq_true he), by rw [sf.id]; exact (h.ofFlash s.1 _).mpr hid⟩

/-- What the pixels hold of the datasets is what they should hold of the files. -/
theorem opened_holds {clip : Poly → Poly → List Poly} {foot : Pt → Poly} {files opened : List GFile}
    {dx dy X Y fed fa te ged ga mfa : Rat} (ho : List.Forall₂ (OpenedFrom nav) files opened)
    (h : PixelHolds clip foot me mg opened dx dy X Y fed fa te ged ga mfa) :
    FilesHold clip foot nav me mg files dx dy X Y fed fa te ged ga mfa := by
  have sums : ∀ {F G : GFile → Rat}, (∀ d d', OpenedFrom nav d d' → G d' = F d) →
      (opened.map G).sum = (files.map F).sum := by
    intro F G hFG
    congr 1
    clear h
    induction ho with
    | nil => rfl
    | cons hab _ ih => rw [List.map_cons, List.map_cons, ih, hFG _ _ hab]
  refine ⟨?_, ?_, ?_, ?_, ?_, ?_⟩
  · rw [h.energy]
    refine sums fun d d' o => congrArg List.sum (o.sameEvents fun e e' s he => ?_)
    rw [o.samePlace he s, s.energy]
  · rw [h.flashes]
    refine sums fun d d' o => congrArg List.sum (o.sameFlashes fun f f' s => ?_)
    rw [o.ofFlashPlaces s]
    rfl
  · rw [h.groups]
    refine sums fun d d' o => congrArg List.sum (o.sameGroups fun f f' s => ?_)
    rw [o.ofGroupPlaces s]
    rfl
  · rw [h.flashArea]
    refine sums fun d d' o => congrArg List.sum (o.sameFlashes fun f f' s => ?_)
    rw [o.ofFlashPlaces s, s.area]
    rfl
  · rw [h.groupArea]
    refine sums fun d d' o => congrArg List.sum (o.sameGroups fun f f' s => ?_)
    rw [o.ofGroupPlaces s, s.area]
    rfl
  · have hl := h.least
    have e : (opened.flatMap fun d => ((countedFlashes me mg d).filter fun (f : Row GVal) =>
        ∃ p ∈ Verif.Props.flashPlaces d f, clip (foot p) (pixelAt dx dy X Y) ≠ []).map fun f => f.val.area) =
      files.flatMap fun d => ((fileFlashes me mg d).filter fun (f : Row GVal) =>
        ∃ p ∈ placesOfFlash nav d f, clip (foot p) (pixelAt dx dy X Y) ≠ []).map fun f => f.val.area := by
      clear h hl sums
      induction ho with
      | nil => rfl
      | @cons d d' _ _ o _ ih =>
        rw [List.flatMap_cons, List.flatMap_cons, ih]
        congr 1
        classical
        unfold countedFlashes fileFlashes
        rw [List.filter_filter, List.filter_filter]
        refine filter_map_forall₂ (forall₂_mem o.flashes) (fun f f' s => ?_) fun f f' s => s.1.area
        rw [← Bool.decide_and, ← Bool.decide_and, decide_eq_decide, o.enough s.2.2 s.1, o.ofFlashPlaces s.1]
    rw [e] at hl
    exact hl

end

/-! ## Repairing -/

open scoped Classical in
/-- What is left of a file after the repair of its tree: flashes that have groups, and events that have a group. -/
structure ValidPart (d d1 : GFile) : Prop where
  flashes : d1.flashes.Perm (d.flashes.filter fun f => ∃ g ∈ d.groups, g.pid = f.id)
  groups : d1.groups.Perm d.groups
  events : d1.events.Perm (d.events.filter fun e => ∃ g ∈ d.groups, g.id = e.pid)

theorem validPart_self {d : GFile} (hc : Consistent d) : ValidPart d d := by
  refine ⟨List.Perm.of_eq (List.filter_eq_self.mpr fun f hf => ?_).symm, List.Perm.refl _,
    List.Perm.of_eq (List.filter_eq_self.mpr fun e he => ?_).symm⟩
  · exact decide_eq_true (hc.flashHasGroup f hf)
  · exact decide_eq_true (hc.eventHasGroup e he)

theorem sum_filter_zero {α : Type} (p : α → Bool) (F : α → Rat) (l : List α) (h : ∀ x ∈ l, p x = false → F x = 0) :
    ((l.filter p).map F).sum = (l.map F).sum := by
  induction l with
  | nil => rfl
  | cons a l ih =>
    have ih := ih fun x hx => h x (List.mem_cons_of_mem _ hx)
    rw [List.filter_cons]
    split
    · rw [List.map_cons, List.map_cons, List.sum_cons, List.sum_cons, ih]
    · rename_i hp
      rw [List.map_cons, List.sum_cons, h a List.mem_cons_self (by simpa using hp), zero_add, ih]

section
variable {nav : Rat → Rat → Rat × Rat} {d d1 : GFile} {me mg : Option Int}

theorem ValidPart.ofFlash (h : ValidPart d d1) (i : Int) (e : Row GVal) : EventOfFlash d1 i e ↔ EventOfFlash d i e := by
  unfold EventOfFlash
  constructor
  · rintro ⟨g, hg, k⟩; exact ⟨g, h.groups.mem_iff.mp hg, k⟩
  · rintro ⟨g, hg, k⟩; exact ⟨g, h.groups.mem_iff.mpr hg, k⟩

theorem ValidPart.eventsWith (h : ValidPart d d1) {P Q : Row GVal → Bool} (hPQ : ∀ e, P e = Q e)
    (hP : ∀ e, Q e = true → ∃ g ∈ d.groups, g.id = e.pid) : (d1.events.filter P).Perm (d.events.filter Q) := by
  refine (h.events.filter P).trans (List.Perm.of_eq ?_)
  rw [List.filter_filter]
  refine List.filter_congr fun e _ => ?_
  rw [hPQ]
  cases hq : Q e with
  | false => rfl
  | true => simpa using hP e hq

theorem ValidPart.flashEvents (h : ValidPart d d1) (i : Int) :
    (d1.events.filter fun e => EventOfFlash d1 i e).Perm (d.events.filter fun e => EventOfFlash d i e) := by
  refine h.eventsWith (fun e => by rw [decide_eq_decide, h.ofFlash]) fun e he => ?_
  obtain ⟨g, hg, k, -⟩ := of_decide_eq_true he
  exact ⟨g, hg, k⟩

theorem ValidPart.enough (h : ValidPart d d1) (f : Row GVal) : Enough me mg d1 f ↔ Enough me mg d f := by
  have e1 := (h.flashEvents f.id).length_eq
  have e2 := (h.groups.filter fun g => decide (g.pid = f.id)).length_eq
  constructor
  · rintro ⟨a, b⟩; exact ⟨by rwa [← e1], by rwa [← e2]⟩
  · rintro ⟨a, b⟩; exact ⟨by rwa [e1], by rwa [e2]⟩

theorem ValidPart.ofFlashPlaces (h : ValidPart d d1) (f : Row GVal) :
    (placesOfFlash nav d1 f).Perm (placesOfFlash nav d f) := ((h.flashEvents f.id).map _).dedup

theorem ValidPart.ofGroupPlaces (h : ValidPart d d1) {g : Row GVal} (hg : g ∈ d.groups) :
    (placesOfGroup nav d1 g).Perm (placesOfGroup nav d g) :=
  ((h.eventsWith (fun _ => rfl) fun _ he => ⟨g, hg, (of_decide_eq_true he).symm⟩).map _).dedup

/-- A flash without groups has no place. -/
theorem noGroup_noPlace {f : Row GVal} (hf : ¬ ∃ g ∈ d.groups, g.pid = f.id) : placesOfFlash nav d f = [] := by
  unfold placesOfFlash
  rw [List.filter_eq_nil_iff.mpr]
  · rfl
  · intro e _ he
    obtain ⟨g, hg, -, k⟩ := of_decide_eq_true he
    exact hf ⟨g, hg, k⟩

open scoped Classical in
theorem ValidPart.sameFlashes (h : ValidPart d d1) : (fileFlashes me mg d1).Perm
    ((fileFlashes me mg d).filter fun f => ∃ g ∈ d.groups, g.pid = f.id) := by
  unfold fileFlashes
  refine (h.flashes.filter _).trans (List.Perm.of_eq ?_)
  rw [List.filter_filter, List.filter_filter]
  refine List.filter_congr fun f _ => ?_
  rw [Bool.and_comm, decide_eq_decide.mpr (h.enough f)]

theorem ValidPart.sumFlashes (h : ValidPart d d1) {F G : Row GVal → Rat} (hF : ∀ f, F f = G f)
    (hz : ∀ f, (¬ ∃ g ∈ d.groups, g.pid = f.id) → G f = 0) :
    ((fileFlashes me mg d1).map F).sum = ((fileFlashes me mg d).map G).sum := by
  rw [(h.sameFlashes.map F).sum_eq, show F = G from funext hF]
  refine sum_filter_zero _ _ _ fun f _ hf => hz f ?_
  simpa using hf

theorem ValidPart.sameGroups (h : ValidPart d d1) : (fileGroups me mg d1).Perm (fileGroups me mg d) := by
  classical
  unfold fileGroups
  refine (h.groups.filter _).trans (List.Perm.of_eq ?_)
  refine List.filter_congr fun g hg => ?_
  rw [decide_eq_decide]
  constructor
  · rintro ⟨f, hf, k, e⟩
    exact ⟨f, (List.mem_filter.mp (h.flashes.mem_iff.mp hf)).1, (h.enough f).mp k, e⟩
  · rintro ⟨f, hf, k, e⟩
    exact ⟨f, h.flashes.mem_iff.mpr (List.mem_filter.mpr ⟨hf, decide_eq_true ⟨g, hg, e.symm⟩⟩), (h.enough f).mpr k, e⟩

theorem ValidPart.sameEvents (h : ValidPart d d1) : (fileEvents me mg d1).Perm (fileEvents me mg d) := by
  classical
  unfold fileEvents
  refine h.eventsWith (fun e => ?_) fun e he => ?_
  · rw [decide_eq_decide]
    constructor
    · rintro ⟨f, hf, k, e⟩
      exact ⟨f, (List.mem_filter.mp (h.flashes.mem_iff.mp hf)).1, (h.enough f).mp k, (h.ofFlash _ _).mp e⟩
    · rintro ⟨f, hf, k, hfe⟩
      obtain ⟨g, hg, -, e2⟩ := id hfe
      exact ⟨f, h.flashes.mem_iff.mpr (List.mem_filter.mpr ⟨hf, decide_eq_true ⟨g, hg, e2⟩⟩), (h.enough f).mpr k,
        (h.ofFlash _ _).mpr hfe⟩
  · obtain ⟨f, -, -, g, hg, k, -⟩ := of_decide_eq_true he
    exact ⟨g, hg, k⟩

theorem leastOrZero_ofPerm {a b : List Rat} {v : Rat} (h : a.Perm b) (k : LeastOrZero a v) : LeastOrZero b v := by
  refine ⟨fun hb => k.1 ?_, fun hb => ?_⟩
  · rw [hb] at h; exact h.eq_nil
  · obtain ⟨k1, k2⟩ := k.2 (by rintro rfl; exact hb h.symm.eq_nil)
    exact ⟨h.mem_iff.mp k1, fun u hu => k2 u (h.mem_iff.mpr hu)⟩

/-- Rows that do not belong to the tree do not show in the pixels. -/
theorem part_holds {clip : Poly → Poly → List Poly} {foot : Pt → Poly} {files parts : List GFile}
    {dx dy X Y fed fa te ged ga mfa : Rat} (hv : List.Forall₂ ValidPart files parts)
    (h : FilesHold clip foot nav me mg parts dx dy X Y fed fa te ged ga mfa) :
    FilesHold clip foot nav me mg files dx dy X Y fed fa te ged ga mfa := by
  have sums : ∀ {F G : GFile → Rat}, (∀ d d1, ValidPart d d1 → G d1 = F d) →
      (parts.map G).sum = (files.map F).sum := by
    intro F G hFG
    congr 1
    clear h
    induction hv with
    | nil => rfl
    | cons hab _ ih => rw [List.map_cons, List.map_cons, ih, hFG _ _ hab]
  refine ⟨?_, ?_, ?_, ?_, ?_, ?_⟩
  · rw [h.energy]
    exact sums fun d d1 o => (o.sameEvents.map _).sum_eq
  · rw [h.flashes]
    refine sums fun d d1 o => o.sumFlashes (fun f => ((o.ofFlashPlaces f).map _).sum_eq) fun f hf => ?_
    rw [noGroup_noPlace hf]; rfl
  · rw [h.groups]
    refine sums fun d d1 o => ?_
    rw [(o.sameGroups.map _).sum_eq]
    congr 1
    refine List.map_congr_left fun g hg => ((o.ofGroupPlaces ?_).map _).sum_eq
    exact (List.mem_filter.mp hg).1
  · rw [h.flashArea]
    refine sums fun d d1 o => o.sumFlashes (fun f => ?_) fun f hf => ?_
    · rw [((o.ofFlashPlaces f).map _).sum_eq]
    · rw [noGroup_noPlace hf]; exact mul_zero _
  · rw [h.groupArea]
    refine sums fun d d1 o => ?_
    rw [(o.sameGroups.map _).sum_eq]
    congr 1
    refine List.map_congr_left fun g hg => ?_
    rw [((o.ofGroupPlaces (List.mem_filter.mp hg).1).map _).sum_eq]
  · refine leastOrZero_ofPerm ?_ h.least
    clear h sums
    induction hv with
    | nil => exact List.Perm.refl _
    | @cons d d1 _ _ o _ ih =>
      rw [List.flatMap_cons, List.flatMap_cons]
      refine List.Perm.append ?_ ih
      classical
      refine List.Perm.map _ ((o.sameFlashes.filter _).trans (List.Perm.of_eq ?_))
      rw [List.filter_filter]
      refine List.filter_congr fun f _ => ?_
      rw [← Bool.decide_and, decide_eq_decide]
      constructor
      · rintro ⟨⟨p, hp, k⟩, -⟩
        exact ⟨p, (o.ofFlashPlaces f).mem_iff.mp hp, k⟩
      · rintro ⟨p, hp, k⟩
        refine ⟨⟨p, (o.ofFlashPlaces f).mem_iff.mpr hp, k⟩, ?_⟩
        by_contra hc
        rw [noGroup_noPlace hc] at hp
        cases hp

end

/-- A file whose tree can be repaired (C10): every group has a flash and an event.  Flashes without groups and events without
a group are allowed. -/
structure SoundFile (d : GFile) : Prop where
  data : HasData d
  groupHasFlash : ∀ g ∈ d.groups, ∃ f ∈ d.flashes, f.id = g.pid
  groupHasEvent : ∀ g ∈ d.groups, ∃ e ∈ d.events, e.pid = g.id
  flashes : UniqueIds d.flashes
  groups : UniqueIds d.groups

theorem SoundFile.repaired {d : GFile} (h : SoundFile d) {order : List Int → List Int} (ho : ∀ l, (order l).Perm l) :
    ∃ d1, repairTree order d = .ok d1 ∧ ValidPart d d1 ∧ GoodFile d1 := by
  obtain ⟨d1, h1, h2⟩ := C10_repair_iff ho h.data h.groups
  have hc := h2.mpr ⟨h.groupHasFlash, h.groupHasEvent⟩
  have hv : ValidPart d d1 := by
    by_cases hd : Consistent d
    · rw [C10_consistent_unchanged order h.data hd] at h1
      cases h1
      exact validPart_self hd
    · obtain ⟨d2, k1, k2, k3, k4⟩ := C10_repair_partial ho h.data hd h.groups
      rw [h1] at k1
      cases k1
      exact ⟨k2, k3, k4⟩
  refine ⟨d1, h1, hv, ?_, hc, ?_, ?_⟩
  · have hg : d1.groups ≠ [] := by
      intro hn
      have := hv.groups
      rw [hn] at this
      exact h.data.2.1 this.symm.eq_nil
    obtain ⟨g, hg'⟩ := List.exists_mem_of_ne_nil _ hg
    obtain ⟨f, hf, -⟩ := hc.groupHasFlash g hg'
    obtain ⟨e, he, -⟩ := hc.groupHasEvent g hg'
    exact ⟨List.ne_nil_of_mem hf, hg, List.ne_nil_of_mem he⟩
  · have := h.flashes
    unfold UniqueIds at this ⊢
    refine ((hv.flashes.map _).nodup_iff).mpr (this.sublist (List.Sublist.map _ List.filter_sublist))
  · have := h.groups
    unfold UniqueIds at this ⊢
    exact ((hv.groups.map _).nodup_iff).mpr this

/-- A file as C142 assumes it: its tree can be repaired, ids are not used twice, flashes have areas, different pixels have
different packed locations, and the footprints of its events are convex, centred at their places and compact. -/
structure FitFile (foot : Pt → Poly) (loc : Rat → Rat → Int) (nav : Rat → Rat → Rat × Rat) (dx dy px py : Rat) (d : GFile) :
    Prop where
  sound : SoundFile d
  areas : ∀ f ∈ d.flashes, 0 < f.val.area
  pixels : ∀ e ∈ d.events, ∀ e' ∈ d.events, loc (navPlace nav e).1 (navPlace nav e).2 =
    loc (navPlace nav e').1 (navPlace nav e').2 → navPlace nav e = navPlace nav e'
  convex : ∀ e ∈ d.events, ConvexPoly (foot (navPlace nav e))
  area : ∀ e ∈ d.events, signedArea (foot (navPlace nav e)) ≠ 0
  mean : ∀ e ∈ d.events, meanPoint (foot (navPlace nav e)) = navPlace nav e
  narrow : ∀ e ∈ d.events, ∀ v ∈ foot (navPlace nav e),
    |v.1 - (navPlace nav e).1| ≤ 2 * dx ∧ |v.2 - (navPlace nav e).2| ≤ 2 * dy
  padded : ∀ e ∈ d.events, ∀ v ∈ foot (navPlace nav e),
    |v.1 - (navPlace nav e).1| ≤ px ∧ |v.2 - (navPlace nav e).2| ≤ py
  view : ∀ e ∈ d.events, |(navPlace nav e).1| < 1349 / 10000 ∧ |(navPlace nav e).2| < 1349 / 10000
  compact : ∀ f ∈ d.flashes, ∀ e ∈ d.events, EventOfFlash d f.id e → ∀ v ∈ foot (navPlace nav e),
    |v.1 - (navPlace nav f).1| ≤ px ∧ |v.2 - (navPlace nav f).2| ≤ py

section
variable {foot : Pt → Poly} {loc : Rat → Rat → Int} {nav : Rat → Rat → Rat × Rat} {dx dy px py : Rat} {d d' : GFile}

theorem SoundFile.opened (h : SoundFile d) {order : List Int → List Int} (ho : ∀ l, (order l).Perm l)
    (nav : Rat → Rat → Rat × Rat) : ∃ d1 d', openDataset order nav true true d = .ok d' ∧ repairTree order d = .ok d1 ∧
      ValidPart d d1 ∧ GoodFile d1 ∧ OpenedFrom nav d1 d' := by
  obtain ⟨d1, r1, r2, r3⟩ := h.repaired ho
  obtain ⟨d', h1, h2, h3, h4, h5, h6⟩ := C12_derived_variables order nav true r3.data r3.consistent r3.groups
  refine ⟨d1, d', ?_, r1, r2, r3, ⟨h2, h3, h4, h5, h6⟩⟩
  rw [← h1]
  unfold openDataset
  rw [if_pos rfl, if_pos rfl, r1, C10_consistent_unchanged order r3.data r3.consistent]

theorem consistent_same (h : OpenedFrom nav d d') (hc : Consistent d) : Consistent d' := by
  obtain ⟨f1, f2⟩ := forall₂_exists h.flashes
  obtain ⟨g1, g2⟩ := forall₂_exists h.groups
  obtain ⟨e1, e2⟩ := forall₂_exists h.events
  refine ⟨?_, ?_, ?_, ?_⟩
  · intro g' hg'
    obtain ⟨g, hg, sg⟩ := g2 g' hg'
    obtain ⟨f, hf, e⟩ := hc.groupHasFlash g hg
    obtain ⟨f', hf', sf⟩ := f1 f hf
    exact ⟨f', hf', by rw [← sf.id, e, sg.pid]⟩
  · intro g' hg'
    obtain ⟨g, hg, sg⟩ := e2 g' hg'
    obtain ⟨f, hf, e⟩ := hc.eventHasGroup g hg
    obtain ⟨f', hf', sf⟩ := g1 f hf
    exact ⟨f', hf', by rw [← sf.id, e, sg.pid]⟩
  · intro g' hg'
    obtain ⟨g, hg, sg⟩ := f2 g' hg'
    obtain ⟨f, hf, e⟩ := hc.flashHasGroup g hg
    obtain ⟨f', hf', sf⟩ := g1 f hf
    exact ⟨f', hf', by rw [← sf.pid, e, sg.id]⟩
  · intro g' hg'
    obtain ⟨g, hg, sg⟩ := g2 g' hg'
    obtain ⟨f, hf, e⟩ := hc.groupHasEvent g hg
    obtain ⟨f', hf', sf⟩ := e1 f hf
    exact ⟨f', hf', by rw [← sf.pid, e, sg.id]⟩

theorem FitFile.compactFile {d1 : GFile} (h : FitFile foot loc nav dx dy px py d) (hv' : ValidPart d d1) (hg : GoodFile d1)
    (o : OpenedFrom nav d1 d') : CompactFile foot loc dx dy px py d' := by
  obtain ⟨f1, f2⟩ := forall₂_exists o.flashes
  obtain ⟨e1, e2⟩ := forall₂_exists o.events
  have hne : ∀ {a b : List (Row GVal)}, List.Forall₂ SameContent a b → a ≠ [] → b ≠ [] := by
    rintro a b hab ha rfl
    exact ha (List.forall₂_nil_right_iff.mp hab)
  have mf : ∀ f ∈ d1.flashes, f ∈ d.flashes := fun f hf => (List.mem_filter.mp (hv'.flashes.mem_iff.mp hf)).1
  have mev : ∀ e ∈ d1.events, e ∈ d.events := fun e he => (List.mem_filter.mp (hv'.events.mem_iff.mp he)).1
  have pl : ∀ e' ∈ d'.events, ∃ e ∈ d.events, SameContent e e' ∧ placeOf e' = navPlace nav e := by
    intro e' he'
    obtain ⟨e, he, s⟩ := e2 e' he'
    exact ⟨e, mev e he, s, o.samePlace he' s⟩
  have xy : ∀ e : Row GVal, (e.val.x = (placeOf e).1) ∧ e.val.y = (placeOf e).2 := fun e => ⟨rfl, rfl⟩
  refine ⟨⟨hne o.flashes hg.data.1, hne o.groups hg.data.2.1, hne o.events hg.data.2.2⟩,
    consistent_same o hg.consistent, o.derived, ?_, ?_, ?_, ?_, ?_, ?_, ?_, ?_, ?_⟩
  · have := hg.flashes
    unfold UniqueIds at this ⊢
    rwa [sameContent_ids o.flashes] at this
  · have := hg.groups
    unfold UniqueIds at this ⊢
    rwa [sameContent_ids o.groups] at this
  · intro f' hf'
    obtain ⟨f, hf, s⟩ := f2 f' hf'
    rw [← s.area]
    exact h.areas f (mf f hf)
  · intro a ha b hb hab
    obtain ⟨a0, ha0, -, pa⟩ := pl a ha
    obtain ⟨b0, hb0, -, pb⟩ := pl b hb
    rw [(xy a).1, (xy a).2, (xy b).1, (xy b).2, pa, pb] at hab
    rw [pa, pb]
    exact h.pixels a0 ha0 b0 hb0 hab
  · intro e' he'
    obtain ⟨e, he, -, p⟩ := pl e' he'
    rw [p]
    refine ⟨?_, h.area e he⟩
    intro hnil
    apply h.area e he
    rw [hnil]
    simp [signedArea]
  · intro e' he' v hv
    obtain ⟨e, he, -, p⟩ := pl e' he'
    rw [p] at hv ⊢
    rw [h.mean e he]
    exact h.narrow e he v hv
  · intro e' he'
    obtain ⟨e, he, -, p⟩ := pl e' he'
    rw [(xy e').1, (xy e').2, p]
    exact h.view e he
  · intro e' he' v hv
    obtain ⟨e, he, -, p⟩ := pl e' he'
    rw [(xy e').1, (xy e').2, p]
    rw [p] at hv
    exact h.padded e he v hv
  · intro f' hf' e' he' hfe v hv
    obtain ⟨e, he, s, p⟩ := pl e' he'
    obtain ⟨f, hf, sf⟩ := f2 f' hf'
    have q := o.place f' (Or.inl hf')
    rw [← sf.lon, ← sf.lat] at q
    rw [p] at hv
    have := h.compact f (mf f hf) e he (by rw [sf.id]; exact (hv'.ofFlash _ _).mp ((o.ofFlash s _).mpr hfe)) v hv
    unfold navPlace at this
    rw [← q] at this
    exact this

end

/-- What is asked for, and how the call clips footprints. -/
structure PlainCall (env : Surroundings) (kw : Dict) (xlo ylo dx dy : Rat) (M N s : Nat) (me mg : Option Int) : Prop where
  asked : FixedGridAsked kw xlo ylo dx dy M N s me mg
  xPos : 0 < dx
  yPos : 0 < dy
  tiles : 0 < s
  xTiles : 2 * s ≤ M
  yTiles : s ≤ N
  xPad : 2 * dx ≤ 28 / 10000
  yPad : 2 * dy ≤ 28 / 10000
  edges : MakesEdges env.edges
  clip : env.clip = convexClip
  sets : ∀ l, (env.order l).Perm l

/-- A call for files: what is asked for, how the call opens files and clips footprints, and what the files are like. -/
structure FileCall (env : Surroundings) (order : List Int → List Int) (nav : Rat → Rat → Rat × Rat) (kw : Dict)
    (xlo ylo dx dy : Rat) (M N s : Nat) (me mg : Option Int) (files : List GFile) : Prop extends
    PlainCall env kw xlo ylo dx dy M N s me mg where
  ids : ∀ l, (order l).Perm l
  opens : env.openFile = fun _ d => openDataset order nav true true d
  some : files ≠ []
  fit : ∀ d ∈ files, FitFile env.foot env.loc nav dx dy (padBoxes (28 / 10000) dx * dx) (padBoxes (28 / 10000) dy * dy) d

theorem PlainCall.convex {env : Surroundings} {nav : Rat → Rat → Rat × Rat} {kw : Dict}
    {xlo ylo dx dy : Rat} {M N s : Nat} {me mg : Option Int} {files : List GFile} (recorded : GFile → GFile)
    (h : PlainCall env kw xlo ylo dx dy M N s me mg) (hne : files ≠ [])
    (hopen : ∀ d ∈ files, ∃ d1 d', (∀ rev, env.openFile rev d = .ok d') ∧ ValidPart (recorded d) d1 ∧ GoodFile d1 ∧
      OpenedFrom nav d1 d')
    (fit : ∀ d ∈ files, FitFile env.foot env.loc nav dx dy (padBoxes (28 / 10000) dx * dx) (padBoxes (28 / 10000) dy * dy)
      (recorded d)) :
    ∃ parts opened, List.Forall₂ ValidPart (files.map recorded) parts ∧ List.Forall₂ (OpenedFrom nav) parts opened ∧
      ConvexCall env kw xlo ylo dx dy M N s me mg files opened := by
  have key : ∀ l : List GFile, (∀ d ∈ l, d ∈ files) → ∃ parts opened, List.Forall₂ ValidPart (l.map recorded) parts ∧
      List.Forall₂ (OpenedFrom nav) parts opened ∧
      List.Forall₂ (fun d d' => (∀ rev, env.openFile rev d = .ok d') ∧
        ∃ d1, ValidPart (recorded d) d1 ∧ GoodFile d1 ∧ OpenedFrom nav d1 d') l opened := by
    intro l hl
    induction l with
    | nil => exact ⟨[], [], .nil, .nil, .nil⟩
    | cons d l ih =>
      obtain ⟨ps, os, i1, i2, i3⟩ := ih fun x hx => hl x (List.mem_cons_of_mem _ hx)
      obtain ⟨d1, d', h1, h2, h3, h4⟩ := hopen d (hl d List.mem_cons_self)
      exact ⟨d1 :: ps, d' :: os, .cons h2 i1, .cons h4 i2, .cons ⟨h1, d1, h2, h3, h4⟩ i3⟩
  obtain ⟨parts, opened, hp, ho, hf⟩ := key files fun _ h => h
  obtain ⟨o1, o2⟩ := forall₂_exists (forall₂_mem hf)
  refine ⟨parts, opened, hp, ho, ?_⟩
  have comp : ∀ d' ∈ opened, CompactFile env.foot env.loc dx dy (padBoxes (28 / 10000) dx * dx)
      (padBoxes (28 / 10000) dy * dy) d' := by
    intro d' hd'
    obtain ⟨d, hd, ⟨⟨-, d1, o1, o2, o3⟩, -, -⟩⟩ := o2 d' hd'
    exact (fit d hd).compactFile o1 o2 o3
  have place : ∀ d' ∈ opened, ∀ e' ∈ d'.events, ∃ d ∈ files, ∃ e ∈ (recorded d).events, placeOf e' = navPlace nav e := by
    intro d' hd' e' he'
    obtain ⟨d, hd, ⟨⟨-, d1, o1, -, o3⟩, -, -⟩⟩ := o2 d' hd'
    obtain ⟨e, he, s⟩ := (forall₂_exists o3.events).2 e' he'
    exact ⟨d, hd, e, (List.mem_filter.mp (o1.events.mem_iff.mp he)).1, o3.samePlace he' s⟩
  exact
    { asked := h.asked
      xPos := h.xPos
      yPos := h.yPos
      tiles := h.tiles
      xTiles := h.xTiles
      yTiles := h.yTiles
      xPad := h.xPad
      yPad := h.yPad
      edges := h.edges
      clip := h.clip
      order := h.sets
      opens := fun rev _ => hf.imp fun _ _ h => h.1 rev
      some := by
        obtain ⟨d, hd⟩ := List.exists_mem_of_ne_nil _ hne
        obtain ⟨d', hd', -⟩ := o1 d hd
        exact ⟨d', hd', (comp d' hd').hasData.2.2⟩
      compact := fun d' hd' _ => comp d' hd'
      convex := by
        intro d' hd' e' he'
        obtain ⟨d, hd, e, he, p⟩ := place d' hd' e' he'
        rw [p]
        exact (fit d hd).convex e he
      mean := by
        intro d' hd' e' he'
        obtain ⟨d, hd, e, he, p⟩ := place d' hd' e' he'
        rw [p]
        exact (fit d hd).mean e he }

/-- An image file shows the pixels with the given centres, and in each pixel what the files should give. -/
structure ImageOfFiles (foot : Pt → Poly) (nav : Rat → Rat → Rat × Rat) (me mg : Option Int) (files : List GFile)
    (dx dy : Rat) (sc : Bool) (frame : Rat × Rat) (xs ys : List Rat) (f : ImageFile) : Prop where
  start : f.start = frame.1
  stop : f.stop = frame.2
  x : f.x = xs
  y : f.y = ys.reverse
  names : f.fields.map Prod.fst = eightNames
  shape : ∀ img ∈ f.fields.map Prod.snd, img.rows = ys.length ∧ img.cols = xs.length
  pixels : ∀ row col X Y, f.x[col]? = some X → f.y[row]? = some Y → ∃ fed fa te ged ga mfa,
    FilesHold convexClip foot nav me mg files dx dy X Y fed fa te ged ga mfa ∧
    ∀ name img v, (name, img) ∈ f.fields → (name, v) ∈ shown sc fed fa te ged ga mfa → img.val row col = v

theorem PlainCall.images {env : Surroundings} {nav : Rat → Rat → Rat × Rat} {kw : Dict} (shared : Dict)
    {xlo ylo dx dy : Rat} {M N s : Nat} {me mg : Option Int} {files : List GFile} (recorded : GFile → GFile)
    (h : PlainCall env kw xlo ylo dx dy M N s me mg) (hne : files ≠ [])
    (hopen : ∀ d ∈ files, ∃ d1 d', (∀ rev, env.openFile rev d = .ok d') ∧ ValidPart (recorded d) d1 ∧ GoodFile d1 ∧
      OpenedFrom nav d1 d')
    (fit : ∀ d ∈ files, FitFile env.foot env.loc nav dx dy (padBoxes (28 / 10000) dx * dx) (padBoxes (28 / 10000) dy * dy)
      (recorded d)) :
    ∃ runs shared', gridGlmFlashes (lutGridder env) files kw shared = .ok (runs, shared') ∧
      (runs.map fun r => r.ij) = ((List.range s).flatMap fun i => (List.range s).map fun j => (i, j)) ∧
      (∀ r ∈ runs, ∃ f, r.written = [(f.name, f)] ∧
        ImageOfFiles env.foot nav me mg (files.map recorded) dx dy (r.scale != .bool false) env.frame
          (boxCentres xlo dx (tileStart M s r.ij.1) (tileStart M s (r.ij.1 + 1)))
          (boxCentres ylo dy (tileStart N s r.ij.2) (tileStart N s (r.ij.2 + 1))) f) ∧
      ∀ m n, m < M → n < N → ∃ r ∈ runs, ∃ f, r.written = [(f.name, f)] ∧ xlo + (m + 1/2) * dx ∈ f.x ∧
        ylo + (n + 1/2) * dy ∈ f.y := by
  obtain ⟨parts, opened, hp, ho, hc⟩ := h.convex recorded hne hopen fit
  obtain ⟨runs, sh, h1, h2, h3, h4⟩ := C137_convex shared hc
  refine ⟨runs, sh, h1, h2, ?_, h4⟩
  intro r hr
  obtain ⟨f, hf, hs⟩ := h3 r hr
  refine ⟨f, hf, hs.start, hs.stop, hs.x, hs.y, hs.names, hs.shape, ?_⟩
  intro row col X Y hx hy
  obtain ⟨fed, fa, te, ged, ga, mfa, hpx, hv⟩ := hs.pixels row col X Y hx hy
  exact ⟨fed, fa, te, ged, ga, mfa, part_holds hp (opened_holds ho hpx), hv⟩

/-- **C142**.  A call for files opens them, cuts the domain into tiles and writes one image for each; every pixel of the
domain is in one of them and shows what is recorded in the files. -/
theorem C142_from_files {env : Surroundings} {order : List Int → List Int} {nav : Rat → Rat → Rat × Rat} {kw : Dict}
    (shared : Dict) {xlo ylo dx dy : Rat} {M N s : Nat} {me mg : Option Int} {files : List GFile}
    (h : FileCall env order nav kw xlo ylo dx dy M N s me mg files) :
    ∃ runs shared', gridGlmFlashes (lutGridder env) files kw shared = .ok (runs, shared') ∧
      (runs.map fun r => r.ij) = ((List.range s).flatMap fun i => (List.range s).map fun j => (i, j)) ∧
      (∀ r ∈ runs, ∃ f, r.written = [(f.name, f)] ∧
        ImageOfFiles env.foot nav me mg files dx dy (r.scale != .bool false) env.frame
          (boxCentres xlo dx (tileStart M s r.ij.1) (tileStart M s (r.ij.1 + 1)))
          (boxCentres ylo dy (tileStart N s r.ij.2) (tileStart N s (r.ij.2 + 1))) f) ∧
      ∀ m n, m < M → n < N → ∃ r ∈ runs, ∃ f, r.written = [(f.name, f)] ∧ xlo + (m + 1/2) * dx ∈ f.x ∧
        ylo + (n + 1/2) * dy ∈ f.y := by
  have := h.images shared (nav := nav) id h.some (fun d hd => ?_) h.fit
  · rwa [List.map_id] at this
  · obtain ⟨d1, d', h1, -, h2, h3, h4⟩ := (h.fit d hd).sound.opened h.ids nav
    exact ⟨d1, d', fun rev => by rw [h.opens]; exact h1, h2, h3, h4⟩

/-! ## Sample -/

/-- The navigation of the sample: a thousandth of a radian for a degree. -/
def sampleNav : Rat → Rat → Rat × Rat := fun lon lat => (lon / 1000, lat / 1000)

/-- A file as it is before it is opened: no derived variables.  Flash 8 has no groups, and the group of event 105 is not in
the file. -/
def plainFile : GFile where
  flashes := [⟨8, 0, { lon := 2, lat := 3, area := 10 }⟩, ⟨5, 0, { lon := 2, lat := 2, area := 100 }⟩, ⟨3, 0, { lon := 9/2, lat := 7/2, area := 60 }⟩,
    ⟨7, 0, { lon := 1, lat := 3, area := 20 }⟩]
  groups := [⟨11, 5, { area := 40 }⟩, ⟨12, 3, { area := 50 }⟩, ⟨13, 5, { area := 30 }⟩, ⟨14, 7, { area := 20 }⟩]
  events := [⟨100, 13, { lon := 2, lat := 2, energy := 2 }⟩, ⟨101, 11, { lon := 3/2, lat := 2, energy := 3 }⟩,
    ⟨102, 12, { lon := 9/2, lat := 7/2, energy := 4 }⟩, ⟨103, 12, { lon := 5, lat := 7/2, energy := 5 }⟩,
    ⟨104, 14, { lon := 1, lat := 3, energy := 9 }⟩, ⟨105, 15, { lon := 2, lat := 2, energy := 7 }⟩]

def plainEnv : Surroundings := { diamondEnv with openFile := fun _ d => openDataset id sampleNav true true d }

/-- The sample meets the hypotheses of `C142_from_files`. -/
theorem plain_call : FileCall plainEnv id sampleNav wideCall 0 (-1/1000) (1/1000) (1/1000) 6 6 1 (some 2) none [plainFile] :=
  { asked := wideCall_asked
    xPos := by norm_num
    yPos := by norm_num
    tiles := by omega
    xTiles := by omega
    yTiles := by omega
    xPad := by norm_num
    yPad := by norm_num
    edges := arange_makesEdges
    clip := rfl
    sets := fun l => List.Perm.refl l
    ids := fun l => List.Perm.refl l
    opens := rfl
    some := by simp
    fit := by
      have hpads : padBoxes (28 / 10000) (1 / 1000) = 2 := by decide +kernel
      intro d hd
      rw [List.mem_singleton] at hd
      subst hd
      rw [hpads]
      exact
        { sound := ⟨by unfold HasData; decide +kernel, by decide +kernel, by decide +kernel,
            by unfold UniqueIds; decide +kernel, by unfold UniqueIds; decide +kernel⟩
          areas := by decide +kernel
          pixels := by unfold navPlace; decide +kernel
          convex := fun _ _ => diamond_convex _
          area := by unfold navPlace; decide +kernel
          mean := fun _ _ => diamond_mean _
          narrow := by unfold navPlace; decide +kernel
          padded := by unfold navPlace; decide +kernel
          view := by unfold navPlace; decide +kernel
          compact := by unfold navPlace; decide +kernel } }

/-- Energies in the image of the sample: the flash with one event is left out. -/
def plainEnergies : List (List Rat) :=
  match gridGlmFlashes (lutGridder plainEnv) [plainFile] wideCall [] with
  | .ok (runs, _) => runs.flatMap fun (r : TileRun TileState ImageFile) => r.written.flatMap fun nf =>
      nf.2.fields.filterMap fun p => if p.1 = "total_energy"
        then some [p.2.val 2 1, p.2.val 3 1, p.2.val 3 2, p.2.val 1 4] else none
  | .error _ => []

example : plainEnergies = [[11/6, 11/6, 7/12, 109/18]] := by decide +kernel

example : ∃ runs shared', gridGlmFlashes (lutGridder plainEnv) [plainFile] wideCall [] = .ok (runs, shared') ∧
    (runs.map fun r => r.ij) = [(0, 0)] := by
  obtain ⟨runs, sh, h1, h2, -⟩ := C142_from_files [] plain_call
  exact ⟨runs, sh, h1, h2⟩

end Verif.Props
