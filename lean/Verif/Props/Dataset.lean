import Verif.Proofs.Dataset
import Mathlib.Algebra.BigOperators.Group.List.Lemmas
import Mathlib.Tactic.Linarith

/-!
# C10 - C15: opening a file and selecting flashes

`order` is the order in which python iterates over a set: any function with `(order l).Perm l`.
-/

namespace Verif.Props

open Verif.Py Verif.Model Verif.Spec Verif.Proofs

/-! ### sample files -/

/-- Two flashes, three groups, four events.  Consistent; event 103 is outside the field of view. -/
def sampleFile : GFile where
  flashes := [⟨5, 0, { lon := -75, lat := 0, area := 100 }⟩, ⟨3, 0, { lon := -80, lat := 10, area := 60 }⟩]
  groups := [⟨11, 5, { lon := -75 }⟩, ⟨12, 3, { lon := -80 }⟩, ⟨13, 5, { lon := -75 }⟩]
  events := [⟨100, 13, { lon := -75, energy := 2 }⟩, ⟨101, 11, { lon := -75, energy := 3 }⟩,
    ⟨102, 12, { lon := -80, energy := 4 }⟩, ⟨103, 12, { lon := 100, energy := 5 }⟩]

/-- The same with a group of a missing flash (14 of 99, which has an event), a group without
events (15), an event of a missing group (105 of 98) and a flash without groups (7). -/
def brokenFile : GFile where
  flashes := sampleFile.flashes ++ [⟨7, 0, {}⟩]
  groups := sampleFile.groups ++ [⟨14, 99, {}⟩, ⟨15, 5, {}⟩]
  events := sampleFile.events ++ [⟨104, 14, {}⟩, ⟨105, 98, {}⟩]

/-- A toy navigation: scaled offset from nadir. -/
def toyNav (lon lat : Rat) : Rat × Rat := ((lon + 75) / 1000, lat / 1000)

theorem sampleFile_ok : HasData sampleFile ∧ Consistent sampleFile ∧
    UniqueIds sampleFile.flashes ∧ UniqueIds sampleFile.groups := by
  unfold HasData UniqueIds
  decide

theorem brokenFile_ok : HasData brokenFile ∧ ¬ Consistent brokenFile ∧
    UniqueIds brokenFile.flashes ∧ UniqueIds brokenFile.groups := by
  unfold HasData UniqueIds
  decide

theorem id_perm : ∀ l : List Int, (id l).Perm l := fun l => List.Perm.refl l

/-! ## C10 -/

/-- The property: with the check on, whatever is in the file, the tree is consistent. -/
def C10_full : Prop := ∀ (order : List Int → List Int) (d : GFile), (∀ l, (order l).Perm l) →
  HasData d → UniqueIds d.flashes → UniqueIds d.groups →
  ∃ d', repairTree order d = .ok d' ∧ Consistent d'

/-- A consistent file is left alone. -/
theorem C10_consistent_unchanged {d : GFile} (order : List Int → List Int) (h : HasData d)
    (hc : Consistent d) : repairTree order d = .ok d := repair_consistent order h hc

theorem perm_mem_order {order : List Int → List Int} (ho : ∀ l, (order l).Perm l) (l : List Int)
    (i : Int) : i ∈ order l ↔ i ∈ l := (ho l).mem_iff

open scoped Classical in
/-- What the repair does: flashes without groups and events without a group are dropped; every
group is kept.  Missing from the full property: groups whose flash is missing, and groups without
events, stay. -/
theorem C10_repair_partial {d : GFile} {order : List Int → List Int} (ho : ∀ l, (order l).Perm l)
    (h : HasData d) (hc : ¬ Consistent d) (hu : UniqueIds d.groups) :
    ∃ d', repairTree order d = .ok d' ∧
      d'.flashes.Perm (d.flashes.filter fun f => ∃ g ∈ d.groups, g.pid = f.id) ∧
      d'.groups.Perm d.groups ∧
      d'.events.Perm (d.events.filter fun e => ∃ g ∈ d.groups, g.id = e.pid) := by
  refine ⟨_, repair_inconsistent order h hc, ?_, ?_, ?_⟩
  · have hn : (order (npUnique (d.groups.map Row.pid))).Nodup :=
      (ho _).nodup_iff.mpr (npUnique_nodup _)
    refine (rowsInOrder_perm hn _).trans (List.Perm.of_eq ?_)
    apply List.filter_congr
    intro f _
    rw [decide_eq_decide, perm_mem_order ho, mem_npUnique, List.mem_map]
  · have hn : (order (npUnique (d.groups.map Row.pid))).Nodup :=
      (ho _).nodup_iff.mpr (npUnique_nodup _)
    refine (childrenInOrder_perm hn _).trans (List.Perm.of_eq ?_)
    rw [List.filter_eq_self]
    intro g hg
    simp only [decide_eq_true_eq, perm_mem_order ho, mem_npUnique]
    exact List.mem_map.mpr ⟨g, hg, rfl⟩
  · have hn : (order (npUnique (d.groups.map Row.pid))).Nodup :=
      (ho _).nodup_iff.mpr (npUnique_nodup _)
    refine (childrenInOrder_perm (childrenInOrder_unique hn hu) _).trans (List.Perm.of_eq ?_)
    apply List.filter_congr
    intro e _
    rw [decide_eq_decide, List.mem_map]
    constructor
    · rintro ⟨g, hg, hg2⟩
      exact ⟨g, (mem_childrenInOrder.mp hg).1, hg2⟩
    · rintro ⟨g, hg, hg2⟩
      refine ⟨g, mem_childrenInOrder.mpr ⟨hg, ?_⟩, hg2⟩
      rw [perm_mem_order ho, mem_npUnique]
      exact List.mem_map.mpr ⟨g, hg, rfl⟩

/-- Exactly when the repair succeeds: iff every group in the file has a flash and an event. -/
theorem C10_repair_iff {d : GFile} {order : List Int → List Int} (ho : ∀ l, (order l).Perm l)
    (h : HasData d) (hu : UniqueIds d.groups) :
    ∃ d', repairTree order d = .ok d' ∧
      (Consistent d' ↔ (∀ g ∈ d.groups, ∃ f ∈ d.flashes, f.id = g.pid) ∧
        (∀ g ∈ d.groups, ∃ e ∈ d.events, e.pid = g.id)) := by
  by_cases hc : Consistent d
  · exact ⟨d, repair_consistent order h hc, ⟨fun h => ⟨h.1, h.4⟩, fun _ => hc⟩⟩
  · obtain ⟨d', h1, h2, h3, h4⟩ := C10_repair_partial ho h hc hu
    refine ⟨d', h1, ?_⟩
    have m2 : ∀ f, f ∈ d'.flashes ↔ f ∈ d.flashes ∧ ∃ g ∈ d.groups, g.pid = f.id := by
      intro f; rw [h2.mem_iff]; simp
    have m4 : ∀ e, e ∈ d'.events ↔ e ∈ d.events ∧ ∃ g ∈ d.groups, g.id = e.pid := by
      intro f; rw [h4.mem_iff]; simp
    constructor
    · rintro ⟨a, b, c, e⟩
      constructor
      · intro g hg
        obtain ⟨f, hf, hf2⟩ := a g (h3.mem_iff.mpr hg)
        exact ⟨f, ((m2 f).mp hf).1, hf2⟩
      · intro g hg
        obtain ⟨f, hf, hf2⟩ := e g (h3.mem_iff.mpr hg)
        exact ⟨f, ((m4 f).mp hf).1, hf2⟩
    · rintro ⟨a, b⟩
      refine ⟨?_, ?_, ?_, ?_⟩
      · intro g hg
        obtain ⟨f, hf, hf2⟩ := a g (h3.mem_iff.mp hg)
        exact ⟨f, (m2 f).mpr ⟨hf, g, h3.mem_iff.mp hg, hf2.symm⟩, hf2⟩
      · intro e he
        obtain ⟨_, g, hg, hg2⟩ := (m4 e).mp he
        exact ⟨g, h3.mem_iff.mpr hg, hg2⟩
      · intro f hf
        obtain ⟨_, g, hg, hg2⟩ := (m2 f).mp hf
        exact ⟨g, h3.mem_iff.mpr hg, hg2⟩
      · intro g hg
        obtain ⟨e, he, he2⟩ := b g (h3.mem_iff.mp hg)
        exact ⟨e, (m4 e).mpr ⟨he, g, h3.mem_iff.mp hg, he2.symm⟩, he2⟩

/-- The property fails: `brokenFile` is not made consistent. -/
theorem C10_full_false : ¬ C10_full := by
  intro hf
  obtain ⟨d', h1, h2⟩ := hf id brokenFile id_perm brokenFile_ok.1 brokenFile_ok.2.2.1
    brokenFile_ok.2.2.2
  obtain ⟨d'', h3, h4⟩ := C10_repair_iff id_perm brokenFile_ok.1 brokenFile_ok.2.2.2
  rw [h1] at h3
  cases h3
  have := (h4.mp h2).1
  revert this
  decide

/-- Result on the broken file: orphan group 14 and childless group 15 are still there. -/
example : (repairTree id brokenFile).map (fun d => (d.flashes.map Row.id, d.groups.map Row.id,
    d.events.map Row.id)) = .ok ([3, 5], [12, 11, 13, 15, 14], [102, 103, 101, 100, 104]) := by rfl

/-! ## C11 -/

/-- The property: a file with an empty level can be opened. -/
def C11_full : Prop := ∀ order nav checkTree (d : GFile), (∀ l : List Int, (order l).Perm l) →
  ¬ HasData d → ∃ d', openDataset order nav checkTree true d = .ok d'

/-- With the check on (the default), every file with an empty level raises AttributeError. -/
theorem C11_check_tree_fails (order nav pc) (d : GFile) (h : ¬ HasData d) :
    openDataset order nav true pc d = .error .attributeError := by
  simp [openDataset, repair_noData order h, bind, Except.bind]

/-- With the check off, a file in which nothing is recorded opens and has empty variables.
Missing from the full property: the default `check_tree=True`, and files with only one or two
empty levels. -/
theorem C11_empty_opens_partial (order nav) :
    openDataset order nav false true ⟨[], [], []⟩ = .ok ⟨[], [], []⟩ := rfl

/-- With the check off, a file with an empty and a non-empty level raises ValueError. -/
theorem C11_half_empty_fails (order nav) (d : GFile) (h : ¬ HasData d)
    (hne : d.flashes ≠ [] ∨ d.groups ≠ [] ∨ d.events ≠ []) :
    openDataset order nav false true d = .error .valueError := by
  have hn : d.flashes.length = 0 ∨ d.groups.length = 0 ∨ d.events.length = 0 := by
    simp only [List.length_eq_zero_iff]
    unfold HasData at h
    tauto
  simp only [openDataset, initParentChild, hn, if_true, bind, Except.bind, pure, Except.pure,
    Bool.false_eq_true, if_false, setVar, List.length_nil]
  by_cases h1 : d.events = []
  · by_cases h2 : d.flashes = []
    · have h3 : d.groups ≠ [] := by tauto
      have : ¬ 0 = d.groups.length := by
        intro hc; exact h3 (List.length_eq_zero_iff.mp hc.symm)
      simp [h1, h2, this]
    · have : ¬ 0 = d.flashes.length := by
        intro hc; exact h2 (List.length_eq_zero_iff.mp hc.symm)
      simp [h1, this]
  · have : ¬ 0 = d.events.length := by
      intro hc; exact h1 (List.length_eq_zero_iff.mp hc.symm)
    simp [this]

theorem C11_full_false : ¬ C11_full := by
  intro hf
  have hd : ¬ HasData ⟨[], [], []⟩ := by simp [HasData]
  obtain ⟨d', h⟩ := hf id toyNav true ⟨[], [], []⟩ id_perm hd
  rw [C11_check_tree_fails id toyNav true _ hd] at h
  simp at h

example : ¬ HasData ⟨sampleFile.flashes, [], []⟩ := by simp [HasData]

/-! ## C12 -/

theorem filter_length_of_forall₂ {xs ys : List (Row GVal)}
    (h : List.Forall₂ (fun a b => a.pid = b.pid) xs ys) (P : Int → Prop) [DecidablePred P] :
    (xs.filter fun e => P e.pid).length = (ys.filter fun e => P e.pid).length := by
  induction h with
  | nil => rfl
  | @cons a b _ _ hab _ ih =>
    rw [List.filter_cons, List.filter_cons, ← hab]
    split <;> simp [ih]

/-- Opening a consistent file: nothing recorded changes, coordinates are those of the navigation,
and the derived variables describe the tree. -/
theorem C12_derived_variables (order nav checkTree) {d : GFile} (h : HasData d)
    (hc : Consistent d) (hu : UniqueIds d.groups) :
    ∃ d', openDataset order nav checkTree true d = .ok d' ∧
      List.Forall₂ SameContent d.flashes d'.flashes ∧
      List.Forall₂ SameContent d.groups d'.groups ∧
      List.Forall₂ SameContent d.events d'.events ∧
      (∀ r, r ∈ d'.flashes ∨ r ∈ d'.groups ∨ r ∈ d'.events →
        (r.val.x, r.val.y) = nav r.val.lon r.val.lat) ∧
      Derived d' := by
  obtain ⟨ids, h1, h2⟩ := replicate_levels hu hc.eventHasGroup
  have hl : ids.length = d.events.length := (List.Forall₂.length_eq h2).symm
  have h3 := initParentChild_closed h h1 hl
  -- the rows of the result
  have hev : List.Forall₂ (fun (e e' : Row GVal) => SameContent e e' ∧
      EventOfFlash d e'.val.flashOf e) d.events
      ((List.zipWith setFlashOf d.events ids).map (setXY nav)) := by
    clear h3 hl h1
    generalize d.events = evs at h2
    induction h2 with
    | nil => exact List.Forall₂.nil
    | cons hab _ ih => exact List.Forall₂.cons ⟨⟨rfl, rfl, rfl, rfl, rfl, rfl, rfl⟩, hab⟩ ih
  have hgr : ∀ {e : Row GVal} {i : Int}, EventOfFlash
      ⟨(d.flashes.map (fun f => setNEvents
          (setNGroups f (childCount d.groups f.id)) (ids.count f.id))).map (setXY nav),
        (d.groups.map (fun g => setNEvents g (childCount d.events g.id))).map (setXY nav),
        (List.zipWith setFlashOf d.events ids).map (setXY nav)⟩ i e ↔ EventOfFlash d i e := by
    intro e i
    simp [EventOfFlash, setXY, setNEvents]
  -- an event and its image have the same parent, so counts agree
  have hcnt : ∀ P : Int → Prop, [DecidablePred P] →
      (((List.zipWith setFlashOf d.events ids).map (setXY nav)).filter
        fun e => P e.pid).length = (d.events.filter fun e => P e.pid).length := by
    intro P _
    exact (filter_length_of_forall₂ (hev.imp fun _ _ h => h.1.pid) P).symm
  refine ⟨⟨(d.flashes.map (fun f => setNEvents
      (setNGroups f (childCount d.groups f.id)) (ids.count f.id))).map (setXY nav),
    (d.groups.map (fun g => setNEvents g (childCount d.events g.id))).map (setXY nav),
    (List.zipWith setFlashOf d.events ids).map (setXY nav)⟩, ?_, ?_, ?_, ?_, ?_, ?_, ?_, ?_, ?_⟩
  · cases checkTree
    · simp only [openDataset, bind, Except.bind, h3, if_true, pure, Except.pure,
        Bool.false_eq_true, if_false]
      rfl
    · simp only [openDataset, repair_consistent order h hc, bind, Except.bind, h3, if_true, pure,
        Except.pure]
      rfl
  · simp only [List.forall₂_map_right_iff, List.forall₂_same]
    intro r _
    exact ⟨rfl, rfl, rfl, rfl, rfl, rfl, rfl⟩
  · simp only [List.forall₂_map_right_iff, List.forall₂_same]
    intro r _
    exact ⟨rfl, rfl, rfl, rfl, rfl, rfl, rfl⟩
  · exact hev.imp fun _ _ h => h.1
  · intro r hr
    simp only [List.mem_map] at hr
    rcases hr with ⟨s, _, rfl⟩ | ⟨s, _, rfl⟩ | ⟨s, _, rfl⟩ <;> rfl
  · intro e' he'
    rw [hgr]
    obtain ⟨n, hn, rfl⟩ := List.mem_iff_getElem.mp he'
    have hn' : n < d.events.length := by rw [hev.length_eq]; exact hn
    obtain ⟨hs, g, hg, hg1, hg2⟩ := hev.get hn' hn
    simp only [List.get_eq_getElem] at hs hg1 hg2
    exact ⟨g, hg, by rw [hg1, hs.pid], hg2⟩
  · intro f' hf'
    simp only [List.mem_map] at hf'
    obtain ⟨_, ⟨f, hf, rfl⟩, rfl⟩ := hf'
    have : ((d.groups.map (fun g => setNEvents g (childCount d.events g.id))).map (setXY nav)).filter
        (fun g => g.pid = f.id) = ((d.groups.filter fun g => g.pid = f.id).map
          (fun g => setNEvents g (childCount d.events g.id))).map (setXY nav) := by
      rw [List.filter_map, List.filter_map]; rfl
    show childCount d.groups f.id = (((d.groups.map (fun g => setNEvents g
      (childCount d.events g.id))).map (setXY nav)).filter (fun g => g.pid = f.id)).length
    rw [this, List.length_map, List.length_map, childCount, List.countP_eq_length_filter]
  · intro g' hg'
    simp only [List.mem_map] at hg'
    obtain ⟨_, ⟨g, hg, rfl⟩, rfl⟩ := hg'
    show childCount d.events g.id = (((List.zipWith setFlashOf d.events ids).map
      (setXY nav)).filter (fun e => e.pid = g.id)).length
    rw [hcnt (fun p => p = g.id), childCount, List.countP_eq_length_filter]
  · intro f' hf'
    simp only [List.mem_map] at hf'
    obtain ⟨_, ⟨f, hf, rfl⟩, rfl⟩ := hf'
    have e1 : ids.count f.id = (d.events.filter fun e => EventOfFlash d f.id e).length := by
      apply forall₂_count h2
      intro e a ha
      rw [decide_eq_true_eq]
      constructor
      · rintro rfl; exact ha
      · intro h; exact eventOfFlash_unique hu ha h
    have e2 := hcnt (fun p => ∃ g ∈ d.groups, g.id = p ∧ g.pid = f.id)
    show ids.count f.id = _
    rw [e1]
    refine Eq.trans ?_ (Eq.trans e2.symm ?_)
    · rfl
    · congr 1
      apply List.filter_congr
      intro e _
      rw [decide_eq_decide]
      exact (hgr (e := e) (i := f.id)).symm

/-- The counts add up: groups over flashes, events over groups. -/
theorem C12_counts_sum {d : GFile} (hd : Derived d) (hc : Consistent d)
    (huf : UniqueIds d.flashes) (hug : UniqueIds d.groups) :
    (d.flashes.map fun f => f.val.nGroups).sum = d.groups.length ∧
    (d.groups.map fun g => g.val.nEvents).sum = d.events.length := by
  have key : ∀ (ps cs : List (Row GVal)), UniqueIds ps → (∀ c ∈ cs, ∃ p ∈ ps, p.id = c.pid) →
      (ps.map fun p => (cs.filter fun c => c.pid = p.id).length).sum = cs.length := by
    intro ps cs hu ho
    have := sum_count_of_nodup hu cs
    rw [List.map_map] at this
    have h2 : (ps.map fun p => (cs.filter fun c => c.pid = p.id).length) =
        ps.map (childCount cs ∘ Row.id) := by
      apply List.map_congr_left
      intro p _
      simp [childCount, List.countP_eq_length_filter]
    rw [h2, this, List.countP_eq_length]
    intro c hcm
    obtain ⟨p, hp, hp2⟩ := ho c hcm
    simp only [decide_eq_true_eq]
    exact List.mem_map.mpr ⟨p, hp, hp2⟩
  constructor
  · rw [← key d.flashes d.groups huf hc.groupHasFlash]
    congr 1
    exact List.map_congr_left hd.nGroups
  · rw [← key d.groups d.events hug hc.eventHasGroup]
    congr 1
    exact List.map_congr_left hd.nEventsGroup

/-- The number of events of a flash is the sum over its groups. -/
theorem C12_flash_events_sum {d : GFile} (hd : Derived d) (hug : UniqueIds d.groups)
    {f : Row GVal} (hf : f ∈ d.flashes) :
    f.val.nEvents = ((d.groups.filter fun g => g.pid = f.id).map fun g => g.val.nEvents).sum := by
  rw [hd.nEventsFlash f hf]
  have hsub : UniqueIds (d.groups.filter fun g => g.pid = f.id) :=
    hug.sublist (List.Sublist.map _ List.filter_sublist)
  have h1 : ((d.groups.filter fun g => g.pid = f.id).map fun g => g.val.nEvents) =
      ((d.groups.filter fun g => g.pid = f.id).map Row.id).map (childCount d.events) := by
    rw [List.map_map]
    apply List.map_congr_left
    intro g hg
    rw [List.mem_filter] at hg
    rw [hd.nEventsGroup g hg.1]
    simp [childCount, List.countP_eq_length_filter]
  rw [h1, sum_count_of_nodup hsub, List.countP_eq_length_filter]
  congr 1
  apply List.filter_congr
  intro e _
  rw [decide_eq_decide]
  simp only [EventOfFlash, List.mem_map, List.mem_filter, decide_eq_true_eq]
  constructor
  · rintro ⟨g, hg, h1, h2⟩; exact ⟨g, ⟨hg, h2⟩, h1⟩
  · rintro ⟨g, ⟨hg, h2⟩, h1⟩; exact ⟨g, hg, h1, h2⟩

example : (openDataset id toyNav true true sampleFile).map (fun d =>
      (d.events.map fun e => e.val.flashOf, d.flashes.map fun f => (f.val.nGroups, f.val.nEvents),
        d.groups.map fun g => g.val.nEvents)) =
    .ok ([5, 5, 3, 3], [(2, 2), (1, 2)], [1, 2, 1]) := by rfl
example : HasData sampleFile ∧ Consistent sampleFile ∧ UniqueIds sampleFile.groups :=
  ⟨sampleFile_ok.1, sampleFile_ok.2.1, sampleFile_ok.2.2.2⟩

/-! ## C13 -/

theorem rangeMask_iff (r : Option (Rat × Rat)) (v : Rat) (b : Bool) :
    rangeMask r v b = true ↔ b = true ∧ Inside r v := by
  cases r with
  | none => simp [rangeMask, Inside]
  | some r =>
    simp [rangeMask, Inside]
    tauto

theorem countMask_iff (m : Option Int) (n : Nat) (b : Bool) :
    countMask m n b = true ↔ b = true ∧ AtLeast m n := by
  cases m <;> simp [countMask, AtLeast]

theorem flashMask_iff (c : Criteria) (f : Row GVal) : flashMask c f = true ↔ Meets c f := by
  simp only [flashMask, countMask_iff, rangeMask_iff]
  constructor
  · rintro ⟨⟨⟨⟨⟨⟨_, h1⟩, h2⟩, h3⟩, h4⟩, h5⟩, h6⟩
    exact ⟨h3, h4, h1, h2, h5, h6⟩
  · rintro ⟨h3, h4, h1, h2, h5, h6⟩
    exact ⟨⟨⟨⟨⟨⟨trivial, h1⟩, h2⟩, h3⟩, h4⟩, h5⟩, h6⟩

theorem clipped_range (r : Option (Rat × Rat)) (v : Rat) :
    (v < min fovLimit (r.getD (-fovLimit, fovLimit)).2 ∧
      v > max (-fovLimit) (r.getD (-fovLimit, fovLimit)).1) ↔
    ((-(1349 / 10000 : Rat) < v ∧ v < 1349 / 10000) ∧ Inside r v) := by
  cases r with
  | none => simp [Inside, fovLimit]; tauto
  | some r => simp [Inside, fovLimit]; tauto

theorem mem_checkEventXY (d : GFile) (c : Criteria) (i : Int) :
    i ∈ checkEventXY d (c.x.getD (-fovLimit, fovLimit)) (c.y.getD (-fovLimit, fovLimit)) ↔
      ∃ e ∈ d.events, e.val.flashOf = i ∧ InView c e := by
  unfold checkEventXY
  simp only [mem_npUnique, List.mem_map, List.mem_filter, Bool.and_eq_true, decide_eq_true_eq,
    clipped_range]
  constructor
  · rintro ⟨e, ⟨he, ⟨h1, h2⟩, h3, h4⟩, rfl⟩
    exact ⟨e, he, rfl, ⟨h1, h3, h2, h4⟩⟩
  · rintro ⟨e, he, rfl, ⟨h1, h3, h2, h4⟩⟩
    exact ⟨e, ⟨he, ⟨h1, h2⟩, h3, h4⟩, rfl⟩

open scoped Classical in
/-- `subset_flashes` returns exactly the flashes that meet every criterion given and have an event
in view, with exactly their groups and events, each once. -/
theorem C13_subset_flashes {d : GFile} {order : List Int → List Int} (ho : ∀ l, (order l).Perm l)
    (c : Criteria) (h : HasData d) (hd : Derived d) (huf : UniqueIds d.flashes)
    (hug : UniqueIds d.groups) :
    ∃ d', subsetFlashes order d c true = .ok d' ∧
      d'.flashes.Perm (d.flashes.filter fun f => Meets c f ∧
        ∃ e ∈ d.events, EventOfFlash d f.id e ∧ InView c e) ∧
      d'.groups.Perm (d.groups.filter fun g => ∃ f ∈ d'.flashes, f.id = g.pid) ∧
      d'.events.Perm (d.events.filter fun e => ∃ f ∈ d'.flashes, EventOfFlash d f.id e) := by
  set ids := (npUnique ((d.flashes.filter (flashMask c)).map Row.id)).filter
    (· ∈ checkEventXY d (c.x.getD (-fovLimit, fovLimit)) (c.y.getD (-fovLimit, fovLimit)))
    with hids
  have hn : (order ids).Nodup := (ho _).nodup_iff.mpr ((npUnique_nodup _).filter _)
  have hmem : ∀ i, i ∈ order ids ↔ (∃ f ∈ d.flashes, Meets c f ∧ f.id = i) ∧
      ∃ e ∈ d.events, EventOfFlash d i e ∧ InView c e := by
    intro i
    rw [perm_mem_order ho, hids]
    simp only [List.mem_filter, mem_npUnique, List.mem_map, decide_eq_true_eq, mem_checkEventXY,
      flashMask_iff]
    constructor
    · rintro ⟨⟨f, ⟨hf, hm⟩, hi⟩, e, he, hfl, hv⟩
      refine ⟨⟨f, hf, hm, hi⟩, e, he, ?_, hv⟩
      rw [← hfl]; exact hd.flashOf e he
    · rintro ⟨⟨f, hf, hm, hi⟩, e, he, hfl, hv⟩
      exact ⟨⟨f, ⟨hf, hm⟩, hi⟩, e, he, eventOfFlash_unique hug (hd.flashOf e he) hfl, hv⟩
  have hkept : ∀ i, i ∈ order ids ↔ ∃ f ∈ rowsInOrder (order ids) d.flashes, f.id = i := by
    intro i
    constructor
    · intro hi
      obtain ⟨⟨f, hf, hm, hfi⟩, -⟩ := (hmem i).mp hi
      exact ⟨f, mem_rowsInOrder.mpr ⟨hf, by rw [hfi]; exact hi⟩, hfi⟩
    · rintro ⟨f, hf, rfl⟩
      exact (mem_rowsInOrder.mp hf).2
  refine ⟨keptFlashes d (order ids), ?_, ?_, ?_, ?_⟩
  · simp only [subsetFlashes, if_true, bind, Except.bind, pure, Except.pure]
    rw [← hids]
    exact getFlashes_ok h _
  · refine (rowsInOrder_perm hn _).trans (List.Perm.of_eq ?_)
    apply List.filter_congr
    intro f hf
    rw [decide_eq_decide, hmem]
    constructor
    · rintro ⟨⟨f', hf', hm, hi⟩, he⟩
      have : f' = f := List.inj_on_of_nodup_map huf hf' hf hi
      subst this
      exact ⟨hm, he⟩
    · rintro ⟨hm, he⟩
      exact ⟨⟨f, hf, hm, rfl⟩, he⟩
  · refine (childrenInOrder_perm hn _).trans (List.Perm.of_eq ?_)
    apply List.filter_congr
    intro g _
    rw [decide_eq_decide]
    exact hkept g.pid
  · refine (childrenInOrder_perm (childrenInOrder_unique hn hug) _).trans (List.Perm.of_eq ?_)
    apply List.filter_congr
    intro e _
    rw [decide_eq_decide, List.mem_map]
    constructor
    · rintro ⟨g, hg, hg2⟩
      obtain ⟨hg0, hgp⟩ := mem_childrenInOrder.mp hg
      obtain ⟨f, hf, hf2⟩ := (hkept _).mp hgp
      exact ⟨f, hf, g, hg0, hg2, hf2.symm⟩
    · rintro ⟨f, hf, g, hg0, hg2, hf2⟩
      refine ⟨g, mem_childrenInOrder.mpr ⟨hg0, ?_⟩, hg2⟩
      rw [hkept]
      exact ⟨f, hf, hf2.symm⟩

/-- `subset_flashes` on a dataset with an empty level raises AttributeError. -/
theorem C13_no_data_error {d : GFile} (order : List Int → List Int) (c : Criteria)
    (h : ¬ HasData d) : subsetFlashes order d c true = .error .attributeError := by
  simp only [subsetFlashes, if_true, bind, Except.bind, pure, Except.pure]
  exact getFlashes_error h _

/-- An opened dataset meets the hypotheses of C13: `C12_derived_variables` gives `Derived`. -/
def openSample : GFile :=
  match openDataset id toyNav true true sampleFile with
  | .ok d => d
  | .error _ => sampleFile

theorem openSample_derived : HasData openSample ∧ Derived openSample ∧
    UniqueIds openSample.flashes ∧ UniqueIds openSample.groups := by
  obtain ⟨d', h1, -, -, -, -, h2⟩ := C12_derived_variables id toyNav true sampleFile_ok.1
    sampleFile_ok.2.1 sampleFile_ok.2.2.2
  have : openSample = d' := by
    unfold openSample
    rw [h1]
  refine ⟨?_, this ▸ h2, ?_, ?_⟩
  · unfold HasData; decide
  · unfold UniqueIds; decide
  · unfold UniqueIds; decide

example : (subsetFlashes id openSample { minGroups := some 2 } true).map (fun d =>
    (d.flashes.map Row.id, d.groups.map Row.id, d.events.map Row.id)) =
    .ok ([5], [11, 13], [101, 100]) := by decide +kernel

/-! ## C14 -/

/-- The property: every event returned is inside the field of view. -/
def C14_full : Prop := ∀ (order : List Int → List Int) (d : GFile) (c : Criteria),
  (∀ l, (order l).Perm l) → HasData d → Derived d → UniqueIds d.flashes → UniqueIds d.groups →
  ∃ d', subsetFlashes order d c true = .ok d' ∧ ∀ e ∈ d'.events, InView c e

/-- Every flash returned has at least one event in view, and that event is returned.  Missing from
the full property: the other events of the flash may be anywhere. -/
theorem C14_one_event_in_view_partial {d : GFile} {order : List Int → List Int}
    (ho : ∀ l, (order l).Perm l) (c : Criteria) (h : HasData d) (hd : Derived d)
    (huf : UniqueIds d.flashes) (hug : UniqueIds d.groups) :
    ∃ d', subsetFlashes order d c true = .ok d' ∧
      ∀ f ∈ d'.flashes, ∃ e ∈ d'.events, EventOfFlash d f.id e ∧ InView c e := by
  obtain ⟨d', h1, h2, h3, h4⟩ := C13_subset_flashes ho c h hd huf hug
  refine ⟨d', h1, ?_⟩
  intro f hf
  have hf' := h2.mem_iff.mp hf
  simp only [List.mem_filter, decide_eq_true_eq] at hf'
  obtain ⟨_, _, e, he, he1, he2⟩ := hf'
  refine ⟨e, h4.mem_iff.mpr ?_, he1, he2⟩
  simp only [List.mem_filter, decide_eq_true_eq]
  exact ⟨he, f, hf, he1⟩

/-- If no flash has events both in and out of view, every event returned is in view. -/
theorem C14_unmixed_partial {d : GFile} {order : List Int → List Int}
    (ho : ∀ l, (order l).Perm l) (c : Criteria) (h : HasData d) (hd : Derived d)
    (huf : UniqueIds d.flashes) (hug : UniqueIds d.groups)
    (hun : ∀ i, ∀ e ∈ d.events, ∀ e' ∈ d.events, EventOfFlash d i e → EventOfFlash d i e' →
      InView c e → InView c e') :
    ∃ d', subsetFlashes order d c true = .ok d' ∧ ∀ e ∈ d'.events, InView c e := by
  obtain ⟨d', h1, h2, h3, h4⟩ := C13_subset_flashes ho c h hd huf hug
  refine ⟨d', h1, ?_⟩
  intro e' he'
  have := h4.mem_iff.mp he'
  simp only [List.mem_filter, decide_eq_true_eq] at this
  obtain ⟨he0, f, hf, hef⟩ := this
  have hf' := h2.mem_iff.mp hf
  simp only [List.mem_filter, decide_eq_true_eq] at hf'
  obtain ⟨_, _, e, he, he1, he2⟩ := hf'
  exact hun f.id e he e' he0 he1 hef he2

/-- Exactly when the property holds: every flash that meets the criteria has all its events in view or none. -/
theorem C14_iff {d : GFile} {order : List Int → List Int}
    (ho : ∀ l, (order l).Perm l) (c : Criteria) (h : HasData d) (hd : Derived d)
    (huf : UniqueIds d.flashes) (hug : UniqueIds d.groups) :
    ∃ d', subsetFlashes order d c true = .ok d' ∧
      ((∀ e ∈ d'.events, InView c e) ↔ ∀ f ∈ d.flashes, Meets c f →
        (∀ e ∈ d.events, EventOfFlash d f.id e → InView c e) ∨
        ∀ e ∈ d.events, EventOfFlash d f.id e → ¬ InView c e) := by
  obtain ⟨d', h1, h2, h3, h4⟩ := C13_subset_flashes ho c h hd huf hug
  refine ⟨d', h1, ?_, ?_⟩
  · intro hall f hf hm
    by_cases hv : ∃ e ∈ d.events, EventOfFlash d f.id e ∧ InView c e
    · left
      intro e he hef
      refine hall e (h4.mem_iff.mpr ?_)
      simp only [List.mem_filter, decide_eq_true_eq]
      refine ⟨he, f, h2.mem_iff.mpr ?_, hef⟩
      simp only [List.mem_filter, decide_eq_true_eq]
      exact ⟨hf, hm, hv⟩
    · right
      intro e he hef hin
      exact hv ⟨e, he, hef, hin⟩
  · intro hall e' he'
    have := h4.mem_iff.mp he'
    simp only [List.mem_filter, decide_eq_true_eq] at this
    obtain ⟨he0, f, hf, hef⟩ := this
    have hf' := h2.mem_iff.mp hf
    simp only [List.mem_filter, decide_eq_true_eq] at hf'
    obtain ⟨hfd, hm, e, he, he1, he2⟩ := hf'
    rcases hall f hfd hm with hin | hout
    · exact hin e' he0 hef
    · exact absurd he2 (hout e he he1)

/-- The property fails: event 103 of flash 3 is far outside and is returned. -/
theorem C14_full_false : ¬ C14_full := by
  intro hf
  obtain ⟨d', h1, h2⟩ := hf id openSample {} id_perm openSample_derived.1 openSample_derived.2.1
    openSample_derived.2.2.1 openSample_derived.2.2.2
  have h3 : subsetFlashes id openSample {} true = .ok d' := h1
  have hk : (match subsetFlashes id openSample {} true with
    | .ok d => d.events.any (fun e => e.val.x > 1349 / 10000)
    | .error _ => false) = true := by decide +kernel
  rw [h3] at hk
  simp only [List.any_eq_true, decide_eq_true_eq] at hk
  obtain ⟨e, he, hx⟩ := hk
  have := (h2 e he).x.2
  linarith

/-! ## C15 -/

/-- The property: with the location check off, the other criteria select. -/
def C15_full : Prop := ∀ (order : List Int → List Int) (d : GFile) (c : Criteria),
  (∀ l, (order l).Perm l) → HasData d → Derived d → UniqueIds d.flashes → UniqueIds d.groups →
  ∃ d', subsetFlashes order d c false = .ok d' ∧
    ∀ f, f ∈ d'.flashes ↔ f ∈ d.flashes ∧ Meets c f

/-- The call fails for every dataset and every request. -/
theorem C15_check_off_always_fails (order) (d : GFile) (c : Criteria) :
    subsetFlashes order d c false = .error .unboundLocalError := rfl

theorem C15_full_false : ¬ C15_full := by
  intro hf
  obtain ⟨d', h1, -⟩ := hf id openSample {} id_perm openSample_derived.1 openSample_derived.2.1
    openSample_derived.2.2.1 openSample_derived.2.2.2
  rw [C15_check_off_always_fails] at h1
  simp at h1

/-- What a caller can do instead: with the check on, the other criteria alone select if every flash
has an event in view.  Missing: `check_event_xy=False` itself. -/
theorem C15_criteria_select_partial {d : GFile} {order : List Int → List Int}
    (ho : ∀ l, (order l).Perm l) (c : Criteria) (h : HasData d) (hd : Derived d)
    (huf : UniqueIds d.flashes) (hug : UniqueIds d.groups)
    (hv : ∀ f ∈ d.flashes, ∃ e ∈ d.events, EventOfFlash d f.id e ∧ InView c e) :
    ∃ d', subsetFlashes order d c true = .ok d' ∧
      ∀ f, f ∈ d'.flashes ↔ f ∈ d.flashes ∧ Meets c f := by
  obtain ⟨d', h1, h2, -, -⟩ := C13_subset_flashes ho c h hd huf hug
  refine ⟨d', h1, ?_⟩
  intro f
  rw [h2.mem_iff]
  simp only [List.mem_filter, decide_eq_true_eq]
  constructor
  · rintro ⟨a, b, -⟩; exact ⟨a, b⟩
  · rintro ⟨a, b⟩; exact ⟨a, b, hv f a⟩

example : ∀ f ∈ openSample.flashes, ∃ e ∈ openSample.events,
    EventOfFlash openSample f.id e ∧ InView {} e := by
  intro f hf
  have hk : ∀ f ∈ openSample.flashes, ∃ e ∈ openSample.events, EventOfFlash openSample f.id e ∧
      ((-(1349 / 10000 : Rat) < e.val.x ∧ e.val.x < 1349 / 10000) ∧
       (-(1349 / 10000 : Rat) < e.val.y ∧ e.val.y < 1349 / 10000)) := by decide +kernel
  obtain ⟨e, he, h1, h2, h3⟩ := hk f hf
  exact ⟨e, he, h1, ⟨h2, h3, by simp [Inside], by simp [Inside]⟩⟩

end Verif.Props
