import Verif.Props.FromFiles
import Verif.Props.Values
import Verif.Model.Opening

/-!
# C143: units and corrections of values, from the files to the images

C142 is about energies and areas as the dataset has them after opening.  Here the files are as the ground system writes them:
energies in J and areas in m2, scaled integers with a smallest step, areas too large for their integers, and for some time in
2018 times without their sign bit.
-/

namespace Verif.Props

open Verif.Py Verif.Model Verif.Spec Verif.Proofs

/-! ## Specification -/

/-- The smallest energy other than zero that the integers of the file can hold. -/
def energyStep (a : FileAttrs) : Rat := a.eventEnergy.addOffset.getD 0 + a.eventEnergy.scaleFactor.getD 0

/-- The area of the integer that stands for "missing". -/
def largestArea (v : VarAttrs) : Rat := v.addOffset.getD 0 + v.scaleFactor.getD 0 * v.fillValue.getD 0

/-- The file was written from 2018-10-15 to 2018-11-06 (seconds since 1970) and has the variable that came with the problem. -/
def badTimes (a : FileAttrs) : Prop := 1539561600 ≤ a.productMin ∧ a.productMax ≤ 1541462400 ∧ a.hasFrameTime = true

instance (a : FileAttrs) : Decidable (badTimes a) := inferInstanceAs (Decidable (_ ∧ _ ∧ _))

/-- The times of a row, with their sign bit read as part of the number. -/
def rightTimes (a : FileAttrs) (ts : List Int) : List Int := if badTimes a then ts.map (· % 65536) else ts

/-- A flash with its energy in nJ and its area in km2; an area that was too large is the largest there is. -/
def flashInUnits (a : FileAttrs) (r : Row GVal) : Row GVal :=
  { r with val := { r.val with
      energy := r.val.energy * 1000000000
      area := (if a.noFlashArea r.id then largestArea a.flashArea else r.val.area) / 1000000
      times := rightTimes a r.val.times } }

/-- A group likewise. -/
def groupInUnits (a : FileAttrs) (r : Row GVal) : Row GVal :=
  { r with val := { r.val with
      energy := r.val.energy * 1000000000
      area := (if a.noGroupArea r.id then largestArea a.groupArea else r.val.area) / 1000000
      times := rightTimes a r.val.times } }

/-- An event with its energy in nJ; energies less than the step, in particular zero, become half a step. -/
def eventInUnits (a : FileAttrs) (r : Row GVal) : Row GVal :=
  { r with val := { r.val with
      energy := (if r.val.energy < energyStep a then energyStep a / 2 else r.val.energy) * 1000000000
      times := rightTimes a r.val.times } }

/-- What is recorded in a file, in nJ and km2. -/
def inUnits (a : FileAttrs) (d : GFile) : GFile :=
  ⟨d.flashes.map (flashInUnits a), d.groups.map (groupInUnits a), d.events.map (eventInUnits a)⟩

/-- Attributes as the ground system writes them. -/
structure Conventional (a : FileAttrs) : Prop where
  flashEnergy : a.flashEnergy.units = some "J"
  groupEnergy : a.groupEnergy.units = some "J"
  eventEnergy : a.eventEnergy.units = some "J"
  flashArea : a.flashArea.units = some "m2"
  groupArea : a.groupArea.units = some "m2"
  eventEncoding : a.eventEnergy.addOffset ≠ none ∧ a.eventEnergy.scaleFactor ≠ none
  flashEncoding : a.flashArea.addOffset ≠ none ∧ a.flashArea.scaleFactor ≠ none ∧ a.flashArea.fillValue ≠ none
  groupEncoding : a.groupArea.addOffset ≠ none ∧ a.groupArea.scaleFactor ≠ none ∧ a.groupArea.fillValue ≠ none

/-! ## Values -/

/-- The corrections of values, in closed form. -/
theorem openValues_closed (fe ge ee fa ga : List (Option Rat)) (x1 x2 x3 y1 y2 y3 f3 o s fo fs ff go gs gf : _) :
    openValues true true ⟨⟨fe, some "J", x1, x2, x3⟩, ⟨ge, some "J", y1, y2, y3⟩, ⟨ee, some "J", some o, some s, f3⟩,
      ⟨fa, some "m2", some fo, some fs, some ff⟩, ⟨ga, some "m2", some go, some gs, some gf⟩⟩ =
    (⟨⟨fe.map (Option.map (· * 1000000000)), some "nJ", none, none, none⟩,
      ⟨ge.map (Option.map (· * 1000000000)), some "nJ", none, none, none⟩,
      ⟨(ee.map fun v => match v with
          | some e => if e < o + s then some (1 / 2 * (o + s)) else some e
          | none => none).map (Option.map (· * 1000000000)), some "nJ", none, none, none⟩,
      ⟨(fa.map fun v => some (v.getD (fo + fs * ff))).map (Option.map (· * (1 / 1000000))), some "km2", none, none, none⟩,
      ⟨(ga.map fun v => some (v.getD (go + gs * gf))).map (Option.map (· * (1 / 1000000))), some "km2", none, none, none⟩⟩,
      .ok ()) := rfl

theorem zipWith_map_self {α β : Type} (F : α → β → α) (G : α → β) (l : List α) :
    List.zipWith F l (l.map G) = l.map fun x => F x (G x) := by
  induction l with
  | nil => rfl
  | cons a l ih => rw [List.map_cons, List.zipWith_cons_cons, ih, List.map_cons]

/-- What the corrections of values make of rows. -/
theorem values_corrected {a : FileAttrs} (h : Conventional a) (d : GFile) : ∃ v, openValues true true (valueVars a d) = (v, .ok ()) ∧
    withValues v d = ⟨d.flashes.map fun r => { flashInUnits a r with val := { (flashInUnits a r).val with times := r.val.times } },
      d.groups.map fun r => { groupInUnits a r with val := { (groupInUnits a r).val with times := r.val.times } },
      d.events.map fun r => { eventInUnits a r with val := { (eventInUnits a r).val with times := r.val.times } }⟩ := by
  obtain ⟨⟨u1, x1, x2, x3⟩, ⟨u2, y1, y2, y3⟩, ⟨u3, o, s, f3⟩, ⟨u4, fo, fs, ff⟩, ⟨u5, go, gs, gf⟩, nf, ng, pmin, pmax, ft⟩ := a
  obtain ⟨h1, h2, h3, h4, h5, ⟨k1, k2⟩, ⟨k3, k4, k5⟩, k6, k7, k8⟩ := h
  simp only at h1 h2 h3 h4 h5 k1 k2 k3 k4 k5 k6 k7 k8
  subst h1 h2 h3 h4 h5
  obtain ⟨o, rfl⟩ := Option.ne_none_iff_exists'.mp k1
  obtain ⟨s, rfl⟩ := Option.ne_none_iff_exists'.mp k2
  obtain ⟨fo, rfl⟩ := Option.ne_none_iff_exists'.mp k3
  obtain ⟨fs, rfl⟩ := Option.ne_none_iff_exists'.mp k4
  obtain ⟨ff, rfl⟩ := Option.ne_none_iff_exists'.mp k5
  obtain ⟨go, rfl⟩ := Option.ne_none_iff_exists'.mp k6
  obtain ⟨gs, rfl⟩ := Option.ne_none_iff_exists'.mp k7
  obtain ⟨gf, rfl⟩ := Option.ne_none_iff_exists'.mp k8
  refine ⟨_, openValues_closed .., ?_⟩
  unfold withValues
  simp only [List.map_map, zipWith_map_self]
  congr 1
  · rw [List.zipWith_map_left, List.zipWith_map_right, List.zipWith_self]
    refine List.map_congr_left fun r _ => ?_
    unfold setArea setEnergy flashInUnits largestArea
    by_cases hn : nf r.id = true
    · simp [hn]; ring
    · simp [hn]; ring
  · rw [List.zipWith_map_left, List.zipWith_map_right, List.zipWith_self]
    refine List.map_congr_left fun r _ => ?_
    unfold setArea setEnergy groupInUnits largestArea
    by_cases hn : ng r.id = true
    · simp [hn]; ring
    · simp [hn]; ring
  · refine List.map_congr_left fun r _ => ?_
    unfold setEnergy eventInUnits energyStep
    by_cases hn : r.val.energy < o + s
    · simp [hn]; ring
    · simp [hn]

/-! ## Times -/

/-- What the correction of times makes of a row. -/
def fixTimes (a : FileAttrs) (r : Row GVal) : Row GVal := setTimes r (rightTimes a r.val.times)

theorem needs_iff (a : FileAttrs) : needsTimeFix a.productMin a.productMax a.hasFrameTime = true ↔ badTimes a := by
  unfold needsTimeFix badTimes problemStart problemEnd
  simp [and_assoc]

theorem zipWith_fix {a : FileAttrs} (hb : badTimes a) {l l' : List (Row GVal)} (h : List.Forall₂ SameContent l l') :
    List.zipWith setTimes l' (l.map fun r => r.val.times.map unsigned16) = l'.map (fixTimes a) := by
  induction h with
  | nil => rfl
  | @cons r r' _ _ s _ ih =>
    rw [List.map_cons, List.zipWith_cons_cons, ih, List.map_cons]
    congr 1
    unfold fixTimes rightTimes
    rw [if_pos hb, s.times]
    rfl

theorem map_fix {a : FileAttrs} (hb : ¬ badTimes a) (l : List (Row GVal)) : l.map (fixTimes a) = l := by
  conv_rhs => rw [← List.map_id l]
  refine List.map_congr_left fun r _ => ?_
  unfold fixTimes rightTimes setTimes
  rw [if_neg hb]
  rfl

/-- What the correction of times makes of rows. -/
theorem times_corrected {order : List Int → List Int} {nav : Rat → Rat → Rat × Rat} {a : FileAttrs} {d d' : GFile}
    (ho : openDataset order nav true true d = .ok d')
    (hs : badTimes a → List.Forall₂ SameContent d.flashes d'.flashes ∧ List.Forall₂ SameContent d.groups d'.groups ∧
      List.Forall₂ SameContent d.events d'.events) :
    openWithTimes order nav true true a.productMin a.productMax a.hasFrameTime d =
      .ok ⟨d'.flashes.map (fixTimes a), d'.groups.map (fixTimes a), d'.events.map (fixTimes a)⟩ := by
  unfold openWithTimes
  simp only [ho, bind, Except.bind]
  by_cases hb : badTimes a
  · rw [if_pos ((needs_iff a).mpr hb)]
    obtain ⟨h1, h2, h3⟩ := hs hb
    obtain ⟨out, hout⟩ := correct_of_lengths h3.length_eq h2.length_eq h1.length_eq
    rw [hout]
    obtain ⟨-, e1, e2, e3⟩ := correct_ok hout
    rw [zipWith_fix hb h3] at e1
    rw [zipWith_fix hb h2] at e2
    rw [zipWith_fix hb h1] at e3
    cases out
    simp only at e1 e2 e3
    rw [e1, e2, e3]
  · rw [if_neg fun hc => hb ((needs_iff a).mp hc), map_fix hb, map_fix hb, map_fix hb]
    rfl

/-! ## Opening -/

/-- A change of rows that leaves the tree, the places and the derived variables alone. -/
structure KeepsTree (F : Row GVal → Row GVal) : Prop where
  id : ∀ r, (F r).id = r.id
  pid : ∀ r, (F r).pid = r.pid
  lon : ∀ r, (F r).val.lon = r.val.lon
  lat : ∀ r, (F r).val.lat = r.val.lat
  x : ∀ r, (F r).val.x = r.val.x
  y : ∀ r, (F r).val.y = r.val.y
  flashOf : ∀ r, (F r).val.flashOf = r.val.flashOf
  nGroups : ∀ r, (F r).val.nGroups = r.val.nGroups
  nEvents : ∀ r, (F r).val.nEvents = r.val.nEvents

theorem eventOfFlash_map {Ff Fg Fe : Row GVal → Row GVal} (hg : KeepsTree Fg) (he : KeepsTree Fe) (d : GFile) (i : Int)
    (e : Row GVal) : EventOfFlash ⟨d.flashes.map Ff, d.groups.map Fg, d.events.map Fe⟩ i (Fe e) ↔ EventOfFlash d i e := by
  unfold EventOfFlash
  constructor
  · rintro ⟨g, hg', k⟩
    obtain ⟨g0, hg0, rfl⟩ := List.mem_map.mp hg'
    rw [hg.id, hg.pid, he.pid] at k
    exact ⟨g0, hg0, k⟩
  · rintro ⟨g, hg', k⟩
    exact ⟨Fg g, List.mem_map.mpr ⟨g, hg', rfl⟩, by rw [hg.id, hg.pid, he.pid]; exact k⟩

theorem length_filter_map {α β : Type} (F : α → β) (P : β → Bool) (Q : α → Bool) (l : List α) (h : ∀ x, P (F x) = Q x) :
    ((l.map F).filter P).length = (l.filter Q).length := by
  rw [List.filter_map, List.length_map]
  congr 1
  exact List.filter_congr fun x _ => h x

theorem derived_map {Ff Fg Fe : Row GVal → Row GVal} (hf : KeepsTree Ff) (hg : KeepsTree Fg) (he : KeepsTree Fe) {d : GFile}
    (h : Derived d) : Derived ⟨d.flashes.map Ff, d.groups.map Fg, d.events.map Fe⟩ := by
  refine ⟨?_, ?_, ?_, ?_⟩
  · intro e' he'
    obtain ⟨e, he0, rfl⟩ := List.mem_map.mp he'
    rw [eventOfFlash_map hg he, he.flashOf]
    exact h.flashOf e he0
  · intro f' hf'
    obtain ⟨f, hf0, rfl⟩ := List.mem_map.mp hf'
    rw [hf.nGroups, hf.id, h.nGroups f hf0]
    exact (length_filter_map _ _ _ _ fun g => by rw [hg.pid]).symm
  · intro f' hf'
    obtain ⟨f, hf0, rfl⟩ := List.mem_map.mp hf'
    rw [hg.nEvents, hg.id, h.nEventsGroup f hf0]
    exact (length_filter_map _ _ _ _ fun g => by rw [he.pid]).symm
  · intro f' hf'
    obtain ⟨f, hf0, rfl⟩ := List.mem_map.mp hf'
    rw [hf.nEvents, hf.id, h.nEventsFlash f hf0]
    exact (length_filter_map _ _ _ _ fun g => by rw [decide_eq_decide, eventOfFlash_map hg he]).symm

theorem forall₂_maps {α β : Type} {R S : α → β → Prop} {F : α → α} {G : β → β} {l : List α} {l' : List β}
    (h : List.Forall₂ R l l') (hRS : ∀ x y, R x y → S (F x) (G y)) : List.Forall₂ S (l.map F) (l'.map G) := by
  rw [List.forall₂_map_left_iff, List.forall₂_map_right_iff]
  exact h.imp hRS

theorem opened_map {nav : Rat → Rat → Rat × Rat} {d d' : GFile} {Ff Fg Fe Uf Ug Ue : Row GVal → Row GVal}
    (h : OpenedFrom nav d d') (hf : KeepsTree Ff) (hg : KeepsTree Fg) (he : KeepsTree Fe)
    (sf : ∀ r r', SameContent r r' → SameContent (Uf r) (Ff r')) (sg : ∀ r r', SameContent r r' → SameContent (Ug r) (Fg r'))
    (se : ∀ r r', SameContent r r' → SameContent (Ue r) (Fe r')) :
    OpenedFrom nav ⟨d.flashes.map Uf, d.groups.map Ug, d.events.map Ue⟩
      ⟨d'.flashes.map Ff, d'.groups.map Fg, d'.events.map Fe⟩ := by
  refine ⟨forall₂_maps h.flashes sf, forall₂_maps h.groups sg, forall₂_maps h.events se, ?_, derived_map hf hg he h.derived⟩
  rintro r (hr | hr | hr)
  · obtain ⟨r0, h0, rfl⟩ := List.mem_map.mp hr
    rw [hf.x, hf.y, hf.lon, hf.lat]
    exact h.place r0 (Or.inl h0)
  · obtain ⟨r0, h0, rfl⟩ := List.mem_map.mp hr
    rw [hg.x, hg.y, hg.lon, hg.lat]
    exact h.place r0 (Or.inr (Or.inl h0))
  · obtain ⟨r0, h0, rfl⟩ := List.mem_map.mp hr
    rw [he.x, he.y, he.lon, he.lat]
    exact h.place r0 (Or.inr (Or.inr h0))

theorem validPart_units (a : FileAttrs) {d d1 : GFile} (h : ValidPart d d1) : ValidPart (inUnits a d) (inUnits a d1) := by
  classical
  refine ⟨(h.flashes.map _).trans (List.Perm.of_eq ?_), h.groups.map _, (h.events.map _).trans (List.Perm.of_eq ?_)⟩
  · unfold inUnits
    simp only
    rw [List.filter_map]
    congr 1
    refine List.filter_congr fun f _ => ?_
    rw [Function.comp_apply, decide_eq_decide]
    constructor
    · rintro ⟨g, hg, k⟩
      exact ⟨groupInUnits a g, List.mem_map.mpr ⟨g, hg, rfl⟩, k⟩
    · rintro ⟨g, hg, k⟩
      obtain ⟨g0, hg0, rfl⟩ := List.mem_map.mp hg
      exact ⟨g0, hg0, k⟩
  · unfold inUnits
    simp only
    rw [List.filter_map]
    congr 1
    refine List.filter_congr fun f _ => ?_
    rw [Function.comp_apply, decide_eq_decide]
    constructor
    · rintro ⟨g, hg, k⟩
      exact ⟨groupInUnits a g, List.mem_map.mpr ⟨g, hg, rfl⟩, k⟩
    · rintro ⟨g, hg, k⟩
      obtain ⟨g0, hg0, rfl⟩ := List.mem_map.mp hg
      exact ⟨g0, hg0, k⟩

theorem ids_map {F : Row GVal → Row GVal} (h : KeepsTree F) {l : List (Row GVal)} : UniqueIds (l.map F) ↔ UniqueIds l := by
  unfold UniqueIds
  rw [List.map_map]
  have : (Row.id ∘ F) = (Row.id : Row GVal → Int) := funext h.id
  rw [this]

theorem goodFile_units (a : FileAttrs) {d : GFile} (h : GoodFile d) : GoodFile (inUnits a d) := by
  refine ⟨⟨?_, ?_, ?_⟩, ⟨?_, ?_, ?_, ?_⟩, ?_, ?_⟩
  · simpa [inUnits] using h.data.1
  · simpa [inUnits] using h.data.2.1
  · simpa [inUnits] using h.data.2.2
  · intro g hg
    obtain ⟨g0, hg0, rfl⟩ := List.mem_map.mp hg
    obtain ⟨f, hf, k⟩ := h.consistent.groupHasFlash g0 hg0
    exact ⟨flashInUnits a f, List.mem_map.mpr ⟨f, hf, rfl⟩, k⟩
  · intro g hg
    obtain ⟨g0, hg0, rfl⟩ := List.mem_map.mp hg
    obtain ⟨f, hf, k⟩ := h.consistent.eventHasGroup g0 hg0
    exact ⟨groupInUnits a f, List.mem_map.mpr ⟨f, hf, rfl⟩, k⟩
  · intro g hg
    obtain ⟨g0, hg0, rfl⟩ := List.mem_map.mp hg
    obtain ⟨f, hf, k⟩ := h.consistent.flashHasGroup g0 hg0
    exact ⟨groupInUnits a f, List.mem_map.mpr ⟨f, hf, rfl⟩, k⟩
  · intro g hg
    obtain ⟨g0, hg0, rfl⟩ := List.mem_map.mp hg
    obtain ⟨f, hf, k⟩ := h.consistent.groupHasEvent g0 hg0
    exact ⟨eventInUnits a f, List.mem_map.mpr ⟨f, hf, rfl⟩, k⟩
  · exact (ids_map (by constructor <;> exact fun _ => rfl)).mpr h.flashes
  · exact (ids_map (by constructor <;> exact fun _ => rfl)).mpr h.groups

/-- Opening with all corrections. -/
theorem opened_full {order : List Int → List Int} (ho : ∀ l, (order l).Perm l) (nav : Rat → Rat → Rat × Rat) {a : FileAttrs}
    (ha : Conventional a) {d : GFile} (h : SoundFile d) (hb : badTimes a → Consistent d) :
    ∃ d1 d', openFull order nav a d = .ok d' ∧ ValidPart (inUnits a d) d1 ∧ GoodFile d1 ∧ OpenedFrom nav d1 d' := by
  obtain ⟨d1, d', h1, hr, h2, h3, h4⟩ := h.opened ho nav
  have ht := times_corrected (a := a) h1 fun k => by
    have := C10_consistent_unchanged order h.data (hb k)
    rw [hr] at this
    cases this
    exact ⟨h4.flashes, h4.groups, h4.events⟩
  obtain ⟨v, hv, hw⟩ := values_corrected ha ⟨d'.flashes.map (fixTimes a), d'.groups.map (fixTimes a), d'.events.map (fixTimes a)⟩
  refine ⟨inUnits a d1, withValues v ⟨d'.flashes.map (fixTimes a), d'.groups.map (fixTimes a), d'.events.map (fixTimes a)⟩, ?_,
    validPart_units a h2, goodFile_units a h3, ?_⟩
  · unfold openFull
    simp only [ht, bind, Except.bind, hv]
    rfl
  · rw [hw]
    simp only [List.map_map]
    refine opened_map h4 (by constructor <;> exact fun _ => rfl) (by constructor <;> exact fun _ => rfl)
      (by constructor <;> exact fun _ => rfl) ?_ ?_ ?_
    · rintro ⟨i, p, w⟩ ⟨i', p', w'⟩ ⟨e1, e2, e3, e4, e5, e6, e7⟩
      simp only at e1 e2 e3 e4 e5 e6 e7
      subst e1 e2
      refine ⟨rfl, rfl, e3, e4, ?_, ?_, ?_⟩
      · show w.energy * _ = w'.energy * _
        rw [e5]
      · show (if _ then _ else w.area) / _ = (if _ then _ else w'.area) / _
        rw [e6]; rfl
      · show rightTimes a w.times = rightTimes a w'.times
        rw [e7]
    · rintro ⟨i, p, w⟩ ⟨i', p', w'⟩ ⟨e1, e2, e3, e4, e5, e6, e7⟩
      simp only at e1 e2 e3 e4 e5 e6 e7
      subst e1 e2
      refine ⟨rfl, rfl, e3, e4, ?_, ?_, ?_⟩
      · show w.energy * _ = w'.energy * _
        rw [e5]
      · show (if _ then _ else w.area) / _ = (if _ then _ else w'.area) / _
        rw [e6]; rfl
      · show rightTimes a w.times = rightTimes a w'.times
        rw [e7]
    · rintro ⟨i, p, w⟩ ⟨i', p', w'⟩ ⟨e1, e2, e3, e4, e5, e6, e7⟩
      simp only at e1 e2 e3 e4 e5 e6 e7
      subst e1 e2
      refine ⟨rfl, rfl, e3, e4, ?_, e6, ?_⟩
      · show (if w.energy < _ then _ else w.energy) * _ = (if w'.energy < _ then _ else w'.energy) * _
        rw [e5]
      · show rightTimes a w.times = rightTimes a w'.times
        rw [e7]

/-- A call for files with their attributes, opened with all corrections. -/
structure UnitsCall (env : Surroundings) (order : List Int → List Int) (nav : Rat → Rat → Rat × Rat)
    (attrs : GFile → FileAttrs) (kw : Dict) (xlo ylo dx dy : Rat) (M N s : Nat) (me mg : Option Int) (files : List GFile) :
    Prop extends PlainCall env kw xlo ylo dx dy M N s me mg where
  ids : ∀ l, (order l).Perm l
  opens : env.openFile = fun _ d => openFull order nav (attrs d) d
  some : files ≠ []
  conventional : ∀ d ∈ files, Conventional (attrs d)
  sound : ∀ d ∈ files, SoundFile d
  times : ∀ d ∈ files, badTimes (attrs d) → Consistent d
  fit : ∀ d ∈ files, FitFile env.foot env.loc nav dx dy (padBoxes (28 / 10000) dx * dx) (padBoxes (28 / 10000) dy * dy)
    (inUnits (attrs d) d)

/-- **C143**.  The images show the energies of the files in nJ, with zero energies raised to half the smallest step, and their
areas in km2, with missing areas as the largest that can be recorded. -/
theorem C143_units {env : Surroundings} {order : List Int → List Int} {nav : Rat → Rat → Rat × Rat}
    {attrs : GFile → FileAttrs} {kw : Dict} (shared : Dict) {xlo ylo dx dy : Rat} {M N s : Nat} {me mg : Option Int}
    {files : List GFile} (h : UnitsCall env order nav attrs kw xlo ylo dx dy M N s me mg files) :
    ∃ runs shared', gridGlmFlashes (lutGridder env) files kw shared = .ok (runs, shared') ∧
      (runs.map fun r => r.ij) = ((List.range s).flatMap fun i => (List.range s).map fun j => (i, j)) ∧
      (∀ r ∈ runs, ∃ f, r.written = [(f.name, f)] ∧
        ImageOfFiles env.foot nav me mg (files.map fun d => inUnits (attrs d) d) dx dy (r.scale != .bool false) env.frame
          (boxCentres xlo dx (tileStart M s r.ij.1) (tileStart M s (r.ij.1 + 1)))
          (boxCentres ylo dy (tileStart N s r.ij.2) (tileStart N s (r.ij.2 + 1))) f) ∧
      ∀ m n, m < M → n < N → ∃ r ∈ runs, ∃ f, r.written = [(f.name, f)] ∧ xlo + (m + 1/2) * dx ∈ f.x ∧
        ylo + (n + 1/2) * dy ∈ f.y := by
  refine h.images shared (nav := nav) (fun d => inUnits (attrs d) d) h.some (fun d hd => ?_) h.fit
  obtain ⟨d1, d', h1, h2, h3, h4⟩ := opened_full h.ids nav (h.conventional d hd) (h.sound d hd) (h.times d hd)
  exact ⟨d1, d', fun rev => by rw [h.opens]; exact h1, h2, h3, h4⟩

/-! ## Sample -/

/-- Attributes for the sample: a step of a billionth of a joule, and areas up to 600 km2.  The area of flash 3 is missing. -/
def plainAttrs : FileAttrs where
  flashEnergy := ⟨some "J", some 0, some 1, none⟩
  groupEnergy := ⟨some "J", some 0, some 1, none⟩
  eventEnergy := ⟨some "J", some 0, some (1 / 1000000000), none⟩
  flashArea := ⟨some "m2", some 0, some 6000000, some 100⟩
  groupArea := ⟨some "m2", some 0, some 6000000, some 100⟩
  noFlashArea := fun i => i == 3
  noGroupArea := fun _ => false
  productMin := 1600000000
  productMax := 1600000020
  hasFrameTime := true

/-- The sample of C142 in J and m2.  Event 101 has no energy. -/
def storedFile : GFile where
  flashes := [⟨8, 0, { lon := 2, lat := 3, area := 10000000 }⟩, ⟨5, 0, { lon := 2, lat := 2, area := 100000000 }⟩,
    ⟨3, 0, { lon := 9/2, lat := 7/2 }⟩, ⟨7, 0, { lon := 1, lat := 3, area := 20000000 }⟩]
  groups := [⟨11, 5, { area := 40000000 }⟩, ⟨12, 3, { area := 50000000 }⟩, ⟨13, 5, { area := 30000000 }⟩,
    ⟨14, 7, { area := 20000000 }⟩]
  events := [⟨100, 13, { lon := 2, lat := 2, energy := 2/1000000000 }⟩, ⟨101, 11, { lon := 3/2, lat := 2, energy := 0 }⟩,
    ⟨102, 12, { lon := 9/2, lat := 7/2, energy := 4/1000000000 }⟩, ⟨103, 12, { lon := 5, lat := 7/2, energy := 5/1000000000 }⟩,
    ⟨104, 14, { lon := 1, lat := 3, energy := 9/1000000000 }⟩, ⟨105, 15, { lon := 2, lat := 2, energy := 7/1000000000 }⟩]

def storedEnv : Surroundings := { diamondEnv with openFile := fun _ d => openFull id sampleNav plainAttrs d }

/-- The sample meets the hypotheses of `C143_units`. -/
theorem stored_call : UnitsCall storedEnv id sampleNav (fun _ => plainAttrs) wideCall 0 (-1/1000) (1/1000) (1/1000) 6 6 1
    (some 2) none [storedFile] :=
  { asked := wideCall_asked
    xPos := by norm_num
    yPos := by norm_num
    tiles := by omega
    xTiles := by omega
    yTiles := by omega
    xPad := by norm_num
    yPad := by norm_num
    edges := arange_makesEdges
    clip := rfl
    sets := fun l => List.Perm.refl l
    ids := fun l => List.Perm.refl l
    opens := rfl
    some := by simp
    conventional := by
      intro d _
      constructor <;> decide
    sound := by
      intro d hd
      rw [List.mem_singleton] at hd
      subst hd
      exact ⟨by unfold HasData; decide +kernel, by decide +kernel, by decide +kernel,
        by unfold UniqueIds; decide +kernel, by unfold UniqueIds; decide +kernel⟩
    times := by
      intro d _ hb
      exact absurd hb (by decide)
    fit := by
      have hpads : padBoxes (28 / 10000) (1 / 1000) = 2 := by decide +kernel
      intro d hd
      rw [List.mem_singleton] at hd
      subst hd
      rw [hpads]
      exact
        { sound := ⟨by unfold HasData; decide +kernel, by decide +kernel, by decide +kernel,
            by unfold UniqueIds; decide +kernel, by unfold UniqueIds; decide +kernel⟩
          areas := by decide +kernel
          pixels := by unfold navPlace; decide +kernel
          convex := fun _ _ => diamond_convex _
          area := by unfold navPlace; decide +kernel
          mean := fun _ _ => diamond_mean _
          narrow := by unfold navPlace; decide +kernel
          padded := by unfold navPlace; decide +kernel
          view := by unfold navPlace; decide +kernel
          compact := by unfold navPlace; decide +kernel } }

/-- Energies and least areas in the image of the sample, as in `plainEnergies`. -/
def storedValues (name : String) : List (List Rat) :=
  match gridGlmFlashes (lutGridder storedEnv) [storedFile] wideCall [] with
  | .ok (runs, _) => runs.flatMap fun (r : TileRun TileState ImageFile) => r.written.flatMap fun nf =>
      nf.2.fields.filterMap fun p => if p.1 = name
        then some [p.2.val 2 1, p.2.val 3 1, p.2.val 3 2, p.2.val 1 4] else none
  | .error _ => []

example : ∃ runs shared', gridGlmFlashes (lutGridder storedEnv) [storedFile] wideCall [] = .ok (runs, shared') ∧
    (runs.map fun r => r.ij) = [(0, 0)] := by
  obtain ⟨runs, sh, h1, h2, -⟩ := C143_units [] stored_call
  exact ⟨runs, sh, h1, h2⟩

example : storedValues "total_energy" = [[13 / 18, 13 / 18, 37 / 72, 109 / 18]] := by decide +kernel

example : storedValues "minimum_flash_area" = [[100, 100, 100, 600]] := by decide +kernel

/-- A file of the time in which times had no sign bit. -/
def signedFile : GFile where
  flashes := [⟨5, 0, { area := 100000000, times := [-1, 20000] }⟩]
  groups := [⟨11, 5, { area := 40000000, times := [-30000] }⟩]
  events := [⟨100, 11, { energy := 2/1000000000, times := [40] }⟩]

example : badTimes { plainAttrs with productMin := 1540000000, productMax := 1540000020 } ∧ Consistent signedFile ∧
    (openFull id sampleNav { plainAttrs with productMin := 1540000000, productMax := 1540000020 } signedFile).toOption.map
      (fun d => (d.flashes.map fun f => (f.val.times, f.val.area), d.groups.map fun f => (f.val.times, f.val.area),
        d.events.map fun f => (f.val.times, f.val.energy))) =
    some ([([65535, 20000], 100)], [([35536], 40)], [([40], 2)]) := by decide +kernel

end Verif.Props
