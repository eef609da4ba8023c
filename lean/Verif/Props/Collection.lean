import Verif.Model.Collection
import Verif.Props.Chunk

/-!
# Properties of collections of files (mimic_lma.py): C89-C92
-/

namespace Verif.Props

open Verif.Py Verif.Model Verif.Spec Verif.Proofs

/-! ## C89: one result per file -/

open scoped Classical in
/-- The events and flashes are those that were asked for from dataset `d`: one record for every flash, and one
for every event of these flashes, with the id of its flash. -/
def DataOf (base : Option Int) (c : Criteria) (d : GFile) (out : List ChildRow × List ParentRow) : Prop :=
  (∃ fs : List (Row GVal), fs.Perm (askedFor d c) ∧
    List.Forall₂ (ParentOf base (fun r => r.val.area) endsAt) fs out.2) ∧
  ∃ es : List (Row GVal), es.Perm (d.events.filter fun e => ∃ f ∈ askedFor d c, EventOfFlash d f.id e) ∧
    List.Forall₂ (fun e p => ∃ i, EventOfFlash d i e ∧ ChildOf base i e p) es out.1

/-- The files can be opened; `time f` and `data f` are what is in them. -/
structure FilesOk (env : CollectionEnv) (names : List String) (time : String → Int)
    (data : String → GFile) : Prop where
  order : ∀ l, (env.order l).Perm l
  productTime : ∀ f ∈ names, env.productTime f = .ok (time f)
  openFile : ∀ f ∈ names, env.openFile f = .ok (data f)
  hasData : ∀ f ∈ names, HasData (data f)
  consistent : ∀ f ∈ names, Consistent (data f)
  derived : ∀ f ∈ names, Derived (data f)
  flashes : ∀ f ∈ names, UniqueIds (data f).flashes
  groups : ∀ f ∈ names, UniqueIds (data f).groups

/-- The second in which the product of a file begins. -/
def secondOf (time : String → Int) (f : String) : Int := time f / 1000000000

/-- `g` is the last of the files that begin in the same second as `f`. -/
def LastInSecond (names : List String) (time : String → Int) (f g : String) : Prop :=
  secondOf time g = secondOf time f ∧
    ∃ l r, names = l ++ g :: r ∧ ∀ h ∈ r, secondOf time h ≠ secondOf time f

/-- The property: iterating over the collection gives the data of every file, in the order of time. -/
def C89_full : Prop := ∀ (env : CollectionEnv) (names : List String) (time : String → Int)
    (data : String → GFile) (base : Option Int) (c : Criteria), env.acceptsGenerators = true →
  FilesOk env names time data → names.Nodup →
  ∃ col res, newCollection env.productTime names base c = .ok col ∧ iterateCollection env col = .ok res ∧
    ∃ fs : List String, fs.Perm names ∧ fs.Pairwise (fun a b => secondOf time a ≤ secondOf time b) ∧
      List.Forall₂ (fun f out => DataOf base c (data f) out) fs res

theorem dictGet_set {β : Type} (d : List (Int × β)) (k t : Int) (v : β) :
    dictGet (dictSet d k v) t = if k = t then some v else dictGet d t := by
  unfold dictSet
  rw [dictGet]
  split
  · rfl
  · rename_i hk
    induction d with
    | nil => rfl
    | cons e d ih =>
      obtain ⟨k', v'⟩ := e
      rw [List.filter_cons]
      by_cases h : k' = k
      · rw [if_neg (by simpa using h), ih, dictGet, if_neg (by rw [h]; exact hk)]
      · rw [if_pos (by simpa using h), dictGet, dictGet, ih]

theorem tableTimes_ok {productTime : String → Except Err Int} {time : String → Int} :
    ∀ (names : List String) (lookup : List (Int × String)), (∀ f ∈ names, productTime f = .ok (time f)) →
    ∃ lookup', tableTimes productTime lookup names = .ok (lookup', names.map (secondOf time)) ∧
      ∀ t, dictGet lookup' t =
        ((names.filter fun f => secondOf time f = t).getLast?).or (dictGet lookup t) := by
  intro names
  induction names with
  | nil => intro lookup _; exact ⟨lookup, rfl, fun t => by simp⟩
  | cons f fs ih =>
    intro lookup h
    obtain ⟨l', h1, h2⟩ := ih (dictSet lookup (secondOf time f) f) fun g hg => h g (by simp [hg])
    refine ⟨l', ?_, ?_⟩
    · unfold tableTimes tableTimesForFile
      rw [h f (by simp)]
      simp only [bind, Except.bind, pure, Except.pure]
      rw [show startSecond (time f) = secondOf time f from rfl, h1]
      rfl
    · intro t
      rw [h2 t, dictGet_set, List.filter_cons]
      by_cases ht : secondOf time f = t
      · rw [if_pos ht, if_pos (by simpa using ht), List.getLast?_cons]
        cases (fs.filter fun g => secondOf time g = t).getLast? <;> rfl
      · rw [if_neg ht, if_neg (by simpa using ht)]

theorem getLast_filter_spec {names : List String} {time : String → Int} {f : String} (hf : f ∈ names) :
    ∃ g ∈ names, LastInSecond names time f g ∧
      (names.filter fun h => secondOf time h = secondOf time f).getLast? = some g := by
  suffices ∀ names : List String, (∃ h ∈ names, secondOf time h = secondOf time f) →
      ∃ g ∈ names, LastInSecond names time f g ∧
        (names.filter fun h => secondOf time h = secondOf time f).getLast? = some g from
    this names ⟨f, hf, rfl⟩
  intro names
  induction names with
  | nil => rintro ⟨h, hh, -⟩; simp at hh
  | cons a l ih =>
    intro h
    by_cases hl : ∃ h ∈ l, secondOf time h = secondOf time f
    · obtain ⟨g, hg, ⟨h1, l', r, h2, h3⟩, h4⟩ := ih hl
      refine ⟨g, by simp [hg], ⟨h1, a :: l', r, by rw [h2]; rfl, h3⟩, ?_⟩
      rw [List.filter_cons]
      split
      · rw [List.getLast?_cons, h4]; rfl
      · exact h4
    · obtain ⟨b, hb, hbs⟩ := h
      rcases List.mem_cons.mp hb with rfl | hb
      · refine ⟨b, by simp, ⟨hbs, [], l, rfl, fun h hh he => hl ⟨h, hh, he⟩⟩, ?_⟩
        rw [List.filter_cons, if_pos (by simpa using hbs), List.filter_eq_nil_iff.mpr]
        · rfl
        · intro h hh he
          exact hl ⟨h, hh, of_decide_eq_true he⟩
      · exact absurd ⟨b, hb, hbs⟩ hl

theorem lastInSecond_unique {names : List String} {time : String → Int} {f g g' : String}
    (h : LastInSecond names time f g) (h' : LastInSecond names time f g') : g = g' := by
  have key : ∀ g, LastInSecond names time f g →
      (names.filter fun h => secondOf time h = secondOf time f).getLast? = some g := by
    rintro g ⟨h1, l, r, h2, h3⟩
    rw [h2, List.filter_append, List.filter_cons, if_pos (by simpa using h1),
      List.filter_eq_nil_iff.mpr (fun h hh he => h3 h hh (of_decide_eq_true he))]
    simp
  have a := key g h
  rw [key g' h'] at a
  exact (Option.some.inj a).symm

theorem readFlashesPoints_nil (env : CollectionEnv) {d : GFile} (ho : ∀ l, (env.order l).Perm l)
    (c : Criteria) (base : Option Int) (h : HasData d) (hd : Derived d)
    (huf : UniqueIds d.flashes) (hug : UniqueIds d.groups) (he : askedFor d c = []) :
    readFlashesPoints (fun _ _ => []) (fun _ _ _ => []) id (fun _ _ => []) env.mem env.pmem env.order d c
      20000 false base = .ok [] := by
  obtain ⟨ids, -, -, hp, -, hr, -⟩ := readFlashes_ids ho c (n := 20000) h hd huf hug
  rw [he] at hp
  have : ids = [] := by simpa using hp
  unfold readFlashesPoints
  rw [hr, this]
  rfl

/-- The data of one file. -/
theorem dataForTime_spec {env : CollectionEnv} {names : List String} {time : String → Int}
    {data : String → GFile} (hok : FilesOk env names time data) (ha : env.acceptsGenerators = true)
    {col : Collection} {f : String} (hf : f ∈ names) {t : Int} (hl : dictGet col.lookup t = some f) :
    (askedFor (data f) col.criteria ≠ [] →
      ∃ out, dataForTime env col t = .ok out ∧ DataOf col.baseDate col.criteria (data f) out) ∧
    (askedFor (data f) col.criteria = [] → dataForTime env col t = .error .valueError) := by
  have hd := hok.hasData f hf
  constructor
  · intro hne
    obtain ⟨res, h1, ⟨fs, h2, h3⟩, -, ⟨es, h4, -, h5, -⟩, -⟩ := C86_points (fun _ _ => []) (fun _ _ _ => []) id
      (fun _ _ => []) env.mem env.pmem hok.order col.criteria (n := 20000) (by norm_num) false col.baseDate
      hd (hok.consistent f hf) (hok.derived f hf) (hok.flashes f hf) (hok.groups f hf)
    have hres : res ≠ [] := by
      rintro rfl
      simp only [List.flatMap_nil] at h3
      have := List.forall₂_nil_right_iff.mp h3
      rw [this] at h2
      exact hne (List.nil_perm.mp h2)
    refine ⟨(res.flatMap fun p => p.flash.1, res.flatMap fun p => p.flash.2), ?_, ⟨fs, h2, h3⟩, es, h4, h5⟩
    unfold dataForTime
    simp only [hl, hok.openFile f hf, bind, Except.bind, pure, Except.pure]
    rw [h1]
    simp only [hstackGenerator, ha, Bool.not_true, Bool.false_eq_true, if_false, List.map_eq_nil_iff, hres,
      List.flatMap_def]
  · intro he
    unfold dataForTime
    simp only [hl, hok.openFile f hf, bind, Except.bind, pure, Except.pure]
    rw [readFlashesPoints_nil env hok.order _ _ hd (hok.derived f hf) (hok.flashes f hf) (hok.groups f hf) he]
    simp only [hstackGenerator, ha, Bool.not_true, Bool.false_eq_true, if_false, List.map_nil, if_true]

/-- C89: what iterating gives.  For every file, in the order of time, there is one result, but it is the data
of the last file that begins in the same second; and everything fails if one of these files has none of the
flashes that are asked for. -/
theorem C89_exact {env : CollectionEnv} {names : List String} {time : String → Int}
    {data : String → GFile} (base : Option Int) (c : Criteria) (ha : env.acceptsGenerators = true)
    (hok : FilesOk env names time data) :
    ∃ col, newCollection env.productTime names base c = .ok col ∧
      ((∀ f ∈ names, ∀ g, LastInSecond names time f g → askedFor (data g) c ≠ []) →
        ∃ res, iterateCollection env col = .ok res ∧
          ∃ fs : List String, fs.Perm names ∧ fs.Pairwise (fun a b => secondOf time a ≤ secondOf time b) ∧
            List.Forall₂ (fun f out => ∃ g ∈ names, LastInSecond names time f g ∧ DataOf base c (data g) out)
              fs res) ∧
      ((∃ f ∈ names, ∃ g, LastInSecond names time f g ∧ askedFor (data g) c = []) →
        iterateCollection env col = .error .valueError) := by
  obtain ⟨lookup, h1, h2⟩ := tableTimes_ok names [] hok.productTime
  have htimes : (names.mergeSort fun a b => secondOf time a ≤ secondOf time b).map (secondOf time) =
      (names.map (secondOf time)).mergeSort (· ≤ ·) := List.map_mergeSort fun a _ b _ => rfl
  set fs := names.mergeSort fun a b => secondOf time a ≤ secondOf time b with hfs
  have hperm : fs.Perm names := List.mergeSort_perm _ _
  have hsort : fs.Pairwise (fun a b => secondOf time a ≤ secondOf time b) := by
    have := List.pairwise_mergeSort (le := fun a b : String => decide (secondOf time a ≤ secondOf time b))
      (by intro a b c hab hbc; simp only [decide_eq_true_eq] at *; omega)
      (by intro a b; simp only [Bool.or_eq_true, decide_eq_true_eq]; omega) names
    exact this.imp fun h => of_decide_eq_true h
  have hget : ∀ f ∈ names, ∃ g ∈ names, LastInSecond names time f g ∧
      dictGet lookup (secondOf time f) = some g := by
    intro f hf
    obtain ⟨g, hg, hl, he⟩ := getLast_filter_spec (time := time) hf
    exact ⟨g, hg, hl, by rw [h2, he]; rfl⟩
  refine ⟨⟨lookup, (names.map (secondOf time)).mergeSort (· ≤ ·), base, c⟩, ?_, ?_, ?_⟩
  · unfold newCollection
    simp only [h1, bind, Except.bind, pure, Except.pure]
  · intro hne
    have hall : ∀ f ∈ fs, ∃ out, dataForTime env
        ⟨lookup, (names.map (secondOf time)).mergeSort (· ≤ ·), base, c⟩ (secondOf time f) = .ok out ∧
        ∃ g ∈ names, LastInSecond names time f g ∧ DataOf base c (data g) out := by
      intro f hf
      have hf := hperm.mem_iff.mp hf
      obtain ⟨g, hg, hl, hd⟩ := hget f hf
      obtain ⟨out, ho, hD⟩ := (dataForTime_spec hok ha (col := ⟨lookup,
        (names.map (secondOf time)).mergeSort (· ≤ ·), base, c⟩) hg hd).1 (hne f hf g hl)
      exact ⟨out, ho, g, hg, hl, hD⟩
    obtain ⟨res, hr, hF⟩ := mapM_ok_of_forall (P := fun f out => ∃ g ∈ names, LastInSecond names time f g ∧
      DataOf base c (data g) out) hall
    refine ⟨res, ?_, fs, hperm, hsort, hF⟩
    unfold iterateCollection
    simp only [← htimes, List.mapM_map]
    exact hr
  · rintro ⟨f, hf, g, hl, he⟩
    unfold iterateCollection
    simp only
    have hmem : ∀ t, t ∈ (names.map (secondOf time)).mergeSort (· ≤ ·) ↔ ∃ f ∈ names, secondOf time f = t := by
      intro t
      rw [(List.mergeSort_perm _ _).mem_iff, List.mem_map]
    apply mapM_error_of
    · intro t ht
      obtain ⟨f', hf', rfl⟩ := (hmem t).mp ht
      obtain ⟨g', hg', hl', hd'⟩ := hget f' hf'
      have := dataForTime_spec hok ha (col := ⟨lookup, (names.map (secondOf time)).mergeSort (· ≤ ·), base, c⟩)
        hg' hd'
      by_cases h0 : askedFor (data g') c = []
      · exact Or.inr (this.2 h0)
      · obtain ⟨out, ho, -⟩ := this.1 h0
        exact Or.inl ⟨out, ho⟩
    · obtain ⟨g', hg', hl', hd'⟩ := hget f hf
      have hgg := lastInSecond_unique hl hl'
      subst hgg
      exact ⟨_, (hmem _).mpr ⟨f, hf, rfl⟩, (dataForTime_spec hok ha (col := ⟨lookup,
        (names.map (secondOf time)).mergeSort (· ≤ ·), base, c⟩) hg' hd').2 he⟩

/-- C89 for files that begin in different seconds and contain flashes that are asked for.  Missing: files that
begin in the same second, files without such flashes. -/
theorem C89_partial {env : CollectionEnv} {names : List String} {time : String → Int}
    {data : String → GFile} (base : Option Int) (c : Criteria) (ha : env.acceptsGenerators = true)
    (hok : FilesOk env names time data)
    (hs : ∀ f ∈ names, ∀ g ∈ names, secondOf time f = secondOf time g → f = g)
    (hne : ∀ f ∈ names, askedFor (data f) c ≠ []) :
    ∃ col res, newCollection env.productTime names base c = .ok col ∧ iterateCollection env col = .ok res ∧
      ∃ fs : List String, fs.Perm names ∧ fs.Pairwise (fun a b => secondOf time a ≤ secondOf time b) ∧
        List.Forall₂ (fun f out => DataOf base c (data f) out) fs res := by
  have hlast : ∀ f ∈ names, ∀ g, LastInSecond names time f g → f = g := by
    rintro f hf g ⟨h1, l, r, h2, -⟩
    exact hs f hf g (by rw [h2]; simp) h1.symm
  obtain ⟨col, h1, h2, -⟩ := C89_exact base c ha hok
  obtain ⟨res, h3, fs, h4, h5, h6⟩ := h2 (by
    intro f hf g hl
    rw [← hlast f hf g hl]
    exact hne f hf)
  refine ⟨col, res, h1, h3, fs, h4, h5, ?_⟩
  have : ∀ f ∈ fs, f ∈ names := fun f hf => h4.mem_iff.mp hf
  clear h3 h4 h5
  induction h6 with
  | nil => exact List.Forall₂.nil
  | @cons f out fs res h _ ih =>
    obtain ⟨g, hg, hl, hD⟩ := h
    rw [← hlast f (this f (by simp)) g hl] at hD
    exact List.Forall₂.cons hD (ih fun a ha => this a (by simp [ha]))

/-- C89: with a numpy that does not stack generators there is never a result. -/
theorem C89_generators_partial {env : CollectionEnv} {names : List String} {time : String → Int}
    {data : String → GFile} (base : Option Int) (c : Criteria) (ha : env.acceptsGenerators = false)
    (hok : FilesOk env names time data) (hne : names ≠ []) :
    ∃ col, newCollection env.productTime names base c = .ok col ∧
      iterateCollection env col = .error .typeError := by
  obtain ⟨lookup, h1, h2⟩ := tableTimes_ok names [] hok.productTime
  refine ⟨⟨lookup, (names.map (secondOf time)).mergeSort (· ≤ ·), base, c⟩, ?_, ?_⟩
  · unfold newCollection
    simp only [h1, bind, Except.bind, pure, Except.pure]
  · have hall : ∀ t ∈ (names.map (secondOf time)).mergeSort (· ≤ ·), dataForTime env
        ⟨lookup, (names.map (secondOf time)).mergeSort (· ≤ ·), base, c⟩ t = .error .typeError := by
      intro t ht
      rw [(List.mergeSort_perm _ _).mem_iff, List.mem_map] at ht
      obtain ⟨f, hf, rfl⟩ := ht
      obtain ⟨g, hg, hl, he⟩ := getLast_filter_spec (time := time) hf
      have hd : dictGet lookup (secondOf time f) = some g := by rw [h2, he]; rfl
      obtain ⟨res, hr, -⟩ := C86_points (fun _ _ => []) (fun _ _ _ => []) id (fun _ _ => []) env.mem env.pmem
        hok.order c (n := 20000) (by norm_num) false base (hok.hasData g hg) (hok.consistent g hg)
        (hok.derived g hg) (hok.flashes g hg) (hok.groups g hg)
      unfold dataForTime
      simp only [hd, hok.openFile g hg, bind, Except.bind, pure, Except.pure]
      rw [hr]
      simp only [hstackGenerator, ha, Bool.not_false, if_true]
    unfold iterateCollection
    apply mapM_error_of
    · intro t ht; exact Or.inr (hall t ht)
    · obtain ⟨f, hf⟩ := List.exists_mem_of_ne_nil _ hne
      have : secondOf time f ∈ (names.map (secondOf time)).mergeSort (· ≤ ·) := by
        rw [(List.mergeSort_perm _ _).mem_iff]
        exact List.mem_map_of_mem hf
      exact ⟨_, this, hall _ this⟩

/-! ### Sample -/

/-- A file with one flash of one event. -/
def tinySample : GFile where
  flashes := [⟨77, 0, { lon := -70, lat := 5, energy := 4, nGroups := 1, nEvents := 1 }⟩]
  groups := [⟨1, 77, { nEvents := 1 }⟩]
  events := [⟨2, 1, { lon := -70, lat := 5, energy := 4, flashOf := 77, times := [5000000000] }⟩]

theorem tinySample_hyps : HasData tinySample ∧ Consistent tinySample ∧ Derived tinySample ∧
    UniqueIds tinySample.flashes ∧ UniqueIds tinySample.groups := by
  refine ⟨by unfold HasData; decide, by decide, ⟨by decide, by decide, by decide, by decide⟩,
    by unfold UniqueIds; decide, by unfold UniqueIds; decide⟩

/-- Two files, `a` with `openSample`, every other one with `tinySample`. -/
def pairData (f : String) : GFile := if f = "a" then openSample else tinySample

/-- An environment for them; `time` are their start times. -/
def pairEnv (time : String → Int) : CollectionEnv where
  productTime f := .ok (time f)
  openFile f := .ok (pairData f)
  order := id
  mem _ := ⟨0, 0, 0, 0, none, 0, 0, 0, 0⟩
  pmem _ := ⟨0, 0, 0, 0, 0, 0, none, none, 0, 0, 0, 0, 0⟩
  acceptsGenerators := true

theorem pairEnv_ok (time : String → Int) : FilesOk (pairEnv time) ["a", "b"] time pairData where
  order := fun l => List.Perm.refl l
  productTime := fun _ _ => rfl
  openFile := fun _ _ => rfl
  hasData := by intro f _; unfold pairData; split; exacts [openSample_hyps.1, tinySample_hyps.1]
  consistent := by intro f _; unfold pairData; split; exacts [openSample_hyps.2.1, tinySample_hyps.2.1]
  derived := by intro f _; unfold pairData; split; exacts [openSample_hyps.2.2.1, tinySample_hyps.2.2.1]
  flashes := by
    intro f _; unfold pairData; split; exacts [openSample_hyps.2.2.2.1, tinySample_hyps.2.2.2.1]
  groups := by
    intro f _; unfold pairData; split; exacts [openSample_hyps.2.2.2.2, tinySample_hyps.2.2.2.2]

/-- The hypotheses of `C89_partial` hold for files 20 seconds apart. -/
example := C89_partial (env := pairEnv fun f => if f = "a" then 20000000000 else 0) (names := ["a", "b"])
  (time := fun f => if f = "a" then 20000000000 else 0) (data := pairData) (some 0) {} rfl (pairEnv_ok _)
  (by unfold secondOf; decide) (by
    intro f hf
    rw [askedFor, if_pos (by unfold NoCriteria; decide)]
    unfold pairData
    split
    · exact openSample_hyps.1.1
    · exact tinySample_hyps.1.1)

/-- The data of these two files, in the order of time: first the one flash of `b`, then the two of `a`. -/
example : ((iterateCollection (pairEnv fun _ => 0) ⟨[(0, "b"), (20, "a")], [0, 20], some 0, {}⟩).map
      fun (res : List (List ChildRow × List ParentRow)) =>
        res.map fun (o : List ChildRow × List ParentRow) => o.2.map ParentRow.flashId).toOption =
    some [[77], [5, 3]] := by decide +kernel

/-- C89 fails: of two files that begin in the same second, one is lost and the other comes twice. -/
theorem C89_full_false : ¬ C89_full := by
  intro h
  have hask : ∀ g, askedFor (pairData g) {} = (pairData g).flashes := fun g => by
    rw [askedFor, if_pos (by unfold NoCriteria; decide)]
  obtain ⟨col, res, h1, h2, fs, h3, -, h4⟩ := h (pairEnv fun f => if f = "a" then 900000000 else 0) ["a", "b"]
    (fun f => if f = "a" then 900000000 else 0) pairData (some 0) {} rfl (pairEnv_ok _) (by decide)
  obtain ⟨col', k1, k2, -⟩ := C89_exact (some 0) {} rfl
    (pairEnv_ok fun f => if f = "a" then 900000000 else 0)
  rw [k1] at h1
  obtain rfl : col' = col := by injection h1
  obtain ⟨res', k3, fs', -, -, k4⟩ := k2 (by
    intro f _ g _
    rw [hask]
    unfold pairData
    split
    · exact openSample_hyps.1.1
    · exact tinySample_hyps.1.1)
  rw [k3] at h2
  obtain rfl : res' = res := by injection h2
  have hone : ∀ out ∈ res', out.2.length = 1 := by
    intro out ho
    obtain ⟨f, hf, g, -, hl, ⟨rows, hp, hF⟩, -⟩ := mem_of_forall₂_right k4 ho
    have hb : LastInSecond ["a", "b"] (fun f => if f = "a" then 900000000 else 0) f "b" := by
      refine ⟨?_, ["a"], [], rfl, by simp⟩
      unfold secondOf
      by_cases hfa : f = "a"
      · rw [hfa]; decide
      · simp only [if_neg hfa]; decide
    rw [lastInSecond_unique hl hb, hask] at hp
    rw [← hF.length_eq, hp.length_eq]
    decide
  have ha : "a" ∈ fs := h3.mem_iff.mpr (by simp)
  obtain ⟨out, ho, ⟨rows, hp, hF⟩, -⟩ := mem_of_forall₂_right h4.flip ha
  have hlen := hF.length_eq
  rw [hp.length_eq, hask, hone out ho] at hlen
  revert hlen
  decide

/-- C89: a file without flashes that are asked for makes the iteration fail. -/
example : (iterateCollection (pairEnv fun _ => 0)
    ⟨[(0, "b"), (20, "a")], [0, 20], some 0, { minGroups := some 2 }⟩).map List.length =
      .error .valueError := by decide +kernel

/-! ## C90: the base date -/

/-- The property: the times of a time series refer to the base date that was given. -/
def C90_full : Prop := ∀ (env : CollectionEnv) (defaultBase : Int → Int) (names : List String)
    (time : String → Int) (data : String → GFile) (tStart b : Int) (c : Criteria),
  env.acceptsGenerators = true → FilesOk env names time data →
  (∀ f ∈ names, ∀ g ∈ names, secondOf time f = secondOf time g → f = g) →
  (∀ f ∈ names, askedFor (data f) c ≠ []) →
  ∃ col res, timeSeriesCollection env defaultBase names tStart (some b) c = .ok col ∧
    iterateCollection env col = .ok res ∧
    ∃ fs : List String, fs.Perm names ∧ List.Forall₂ (fun f out => DataOf (some b) c (data f) out) fs res

/-- C90: the times refer to the default base date, whatever was given. -/
theorem C90_exact {env : CollectionEnv} {names : List String} {time : String → Int} {data : String → GFile}
    (defaultBase : Int → Int) (tStart : Int) (b : Option Int) (c : Criteria)
    (ha : env.acceptsGenerators = true) (hok : FilesOk env names time data)
    (hs : ∀ f ∈ names, ∀ g ∈ names, secondOf time f = secondOf time g → f = g)
    (hne : ∀ f ∈ names, askedFor (data f) c ≠ []) :
    ∃ col res, timeSeriesCollection env defaultBase names tStart b c = .ok col ∧
      iterateCollection env col = .ok res ∧
      ∃ fs : List String, fs.Perm names ∧ fs.Pairwise (fun a b => secondOf time a ≤ secondOf time b) ∧
        List.Forall₂ (fun f out => DataOf (some (defaultBase tStart)) c (data f) out) fs res :=
  C89_partial (some (defaultBase tStart)) c ha hok hs hne

/-- C90 if the base date is the one that is used by default.  Missing: every other one. -/
theorem C90_partial {env : CollectionEnv} {names : List String} {time : String → Int} {data : String → GFile}
    (defaultBase : Int → Int) (tStart b : Int) (hb : b = defaultBase tStart) (c : Criteria)
    (ha : env.acceptsGenerators = true) (hok : FilesOk env names time data)
    (hs : ∀ f ∈ names, ∀ g ∈ names, secondOf time f = secondOf time g → f = g)
    (hne : ∀ f ∈ names, askedFor (data f) c ≠ []) :
    ∃ col res, timeSeriesCollection env defaultBase names tStart (some b) c = .ok col ∧
      iterateCollection env col = .ok res ∧
      ∃ fs : List String, fs.Perm names ∧ List.Forall₂ (fun f out => DataOf (some b) c (data f) out) fs res := by
  obtain ⟨col, res, h1, h2, fs, h3, -, h4⟩ := C90_exact defaultBase tStart (some b) c ha hok hs hne
  exact ⟨col, res, h1, h2, fs, h3, hb ▸ h4⟩

theorem tiny_asked : ∀ f ∈ ["b"], askedFor (pairData f) {} ≠ [] := by
  intro f hf
  rw [askedFor, if_pos (by unfold NoCriteria; decide), List.mem_singleton.mp hf]
  exact tinySample_hyps.1.1

theorem tiny_ok : FilesOk (pairEnv fun _ => 0) ["b"] (fun _ => 0) pairData := by
  obtain ⟨h1, h2, h3, h4, h5, h6, h7, h8⟩ := pairEnv_ok fun _ => 0
  refine ⟨h1, ?_, ?_, ?_, ?_, ?_, ?_, ?_⟩ <;>
    · intro f hf
      rw [List.mem_singleton.mp hf]
      first
        | exact h2 "b" (by simp) | exact h3 "b" (by simp) | exact h4 "b" (by simp) | exact h5 "b" (by simp)
        | exact h6 "b" (by simp) | exact h7 "b" (by simp) | exact h8 "b" (by simp)

example := C90_partial (env := pairEnv fun _ => 0) (names := ["b"]) (time := fun _ => 0) (data := pairData)
  id 3 3 rfl {} rfl tiny_ok (by decide) tiny_asked

/-- C90 fails: a base date that is not the default one is ignored. -/
theorem C90_full_false : ¬ C90_full := by
  intro h
  obtain ⟨col, res, h1, h2, fs, h3, h4⟩ := h (pairEnv fun _ => 0) id ["b"] (fun _ => 0) pairData 0 1000000000 {}
    rfl tiny_ok (by decide) tiny_asked
  have hk : ((do
      let col ← timeSeriesCollection (pairEnv fun _ => 0) id ["b"] 0 (some 1000000000) {}
      iterateCollection (pairEnv fun _ => 0) col).map fun (res : List (List ChildRow × List ParentRow)) => res.map fun (o : List ChildRow × List ParentRow) => o.1.map ChildRow.time).toOption =
      some [[some 5]] := by decide +kernel
  simp only [bind, Except.bind] at hk
  rw [h1] at hk
  simp only at hk
  rw [h2] at hk
  have ht : res.map (fun o => o.1.map ChildRow.time) = [[some 5]] := Option.some.inj hk
  have hb : "b" ∈ fs := h3.mem_iff.mpr (by simp)
  obtain ⟨out, ho, -, es, hp, hF⟩ := mem_of_forall₂_right h4.flip hb
  have hout : out.1.map ChildRow.time = [some 5] := by
    have : out.1.map ChildRow.time ∈ [[some (5 : Rat)]] := by
      rw [← ht]
      exact List.mem_map_of_mem (f := fun o : List ChildRow × List ParentRow => o.1.map ChildRow.time) ho
    simpa using this
  obtain ⟨p, hp1, hp2⟩ : ∃ p ∈ out.1, p.time = some 5 := by
    have : some (5 : Rat) ∈ out.1.map ChildRow.time := by rw [hout]; simp
    exact List.mem_map.mp this
  obtain ⟨e, he, i, -, hc⟩ := mem_of_forall₂_right hF hp1
  have he' : e ∈ tinySample.events := (List.mem_filter.mp (hp.mem_iff.mp he)).1
  have hev : e = ⟨2, 1, { lon := -70, lat := 5, energy := 4, flashOf := 77, times := [5000000000] }⟩ := by
    simpa [tinySample] using he'
  have := hc.time
  rw [hp2, hev] at this
  have h5 := Option.some.inj this
  norm_num [beginsAt] at h5

/-! ## C91: lassoed events and flashes -/

/-- The property: the events inside of the lasso that are kept are events of flashes that are kept, and no event
of a kept flash is lost. -/
def C91_full : Prop := ∀ (inside : Rat → Rat → Option Rat → Bool)
    (events : List (List ChildRow)) (flashes : List (List ParentRow)),
  List.Forall₂ (fun ev fl => Linked2 (ev, fl)) events flashes →
  List.Forall₂ (fun io oo => ∀ e ∈ io.1, e ∈ oo.1 ↔ ∃ f ∈ oo.2, f.flashId = e.flashId)
    (events.zip flashes)
    ((lassoSeries inside (events, flashes)).1.zip (lassoSeries inside (events, flashes)).2)

/-- C91: what is kept in every interval: the events inside of the lasso, and the flashes that begin inside. -/
theorem C91_exact (inside : Rat → Rat → Option Rat → Bool) (events : List (List ChildRow))
    (flashes : List (List ParentRow)) :
    List.Forall₂ (fun io oo => oo.Sublist io ∧ ∀ e, e ∈ oo ↔ e ∈ io ∧ inside e.lon e.lat e.time = true) events
      (lassoSeries inside (events, flashes)).1 ∧
    List.Forall₂ (fun io oo => oo.Sublist io ∧ ∀ f, f ∈ oo ↔ f ∈ io ∧
      inside f.initLon f.initLat f.start = true) flashes (lassoSeries inside (events, flashes)).2 := by
  unfold lassoSeries
  refine ⟨?_, ?_⟩ <;>
    · rw [List.forall₂_map_right_iff, List.forall₂_same]
      intro l _
      exact ⟨List.filter_sublist, fun e => by rw [List.mem_filter]⟩

/-- C91 if the lasso does not cut through a flash: all events of a flash are on the same side as its place of
initiation.  Missing: lassos that cut through flashes. -/
theorem C91_partial (inside : Rat → Rat → Option Rat → Bool) (events : List (List ChildRow))
    (flashes : List (List ParentRow)) (h : List.Forall₂ (fun ev fl => Linked2 (ev, fl)) events flashes)
    (hcut : ∀ io ∈ events.zip flashes, ∀ e ∈ io.1, ∀ f ∈ io.2, f.flashId = e.flashId →
      inside f.initLon f.initLat f.start = inside e.lon e.lat e.time) :
    List.Forall₂ (fun io oo => ∀ e ∈ io.1, e ∈ oo.1 ↔ ∃ f ∈ oo.2, f.flashId = e.flashId)
      (events.zip flashes)
      ((lassoSeries inside (events, flashes)).1.zip (lassoSeries inside (events, flashes)).2) := by
  unfold lassoSeries
  simp only
  induction h with
  | nil => exact List.Forall₂.nil
  | @cons ev fl evs fls hl _ ih =>
    rw [List.map_cons, List.map_cons, List.zip_cons_cons, List.zip_cons_cons]
    refine List.Forall₂.cons ?_ (ih fun io hio => hcut io (by rw [List.zip_cons_cons]; simp [hio]))
    have hc := hcut (ev, fl) (by rw [List.zip_cons_cons]; simp)
    intro e he
    simp only [List.mem_filter]
    constructor
    · rintro ⟨-, hi⟩
      obtain ⟨f, hf, hid⟩ := hl.1 e he
      exact ⟨f, ⟨hf, by rw [hc e he f hf hid]; exact hi⟩, hid⟩
    · rintro ⟨f, ⟨hf, hi⟩, hid⟩
      exact ⟨he, by rw [← hc e he f hf hid]; exact hi⟩

/-- One flash that begins at 0 with events at 0 and at 9. -/
def lassoSample : List ChildRow × List ParentRow :=
  ([⟨1, 0, 0, 0, some 0, 0, 0, 0, 2⟩, ⟨1, 0, 0, 9, some 0, 0, 0, 0, 3⟩],
   [⟨0, 5, 0, 0, 0, 0, some 0, some 0, 0, 0, 0, 1, 2⟩])

theorem lassoSample_linked : Linked2 lassoSample := by
  unfold Linked2; decide

example := C91_partial (fun lon _ _ => lon < 20) [lassoSample.1] [lassoSample.2]
  (List.Forall₂.cons lassoSample_linked List.Forall₂.nil) (by decide +kernel)

/-- C91 fails: the event outside of the lasso is lost although its flash is kept. -/
theorem C91_full_false : ¬ C91_full := by
  intro h
  have := h (fun lon _ _ => decide (lon < 5)) [lassoSample.1] [lassoSample.2]
    (List.Forall₂.cons lassoSample_linked List.Forall₂.nil)
  unfold lassoSeries at this
  simp only [List.map_cons, List.map_nil, List.zip_cons_cons, List.zip_nil_right] at this
  obtain ⟨h1, -⟩ := List.forall₂_cons.mp this
  have h2 := (h1 ⟨1, 0, 0, 9, some 0, 0, 0, 0, 3⟩ (by decide)).mpr (by decide +kernel)
  revert h2
  decide +kernel

/-! ## C92: the place of initiation -/

/-- The event is the first one of the flash. -/
def FirstEvent (d : GFile) (f e : Row GVal) : Prop :=
  e ∈ d.events ∧ EventOfFlash d f.id e ∧
    ∀ e' ∈ d.events, EventOfFlash d f.id e' → beginsAt e ≤ beginsAt e'

/-- The property: the place of initiation in the record of a flash is the place of its first event. -/
def C92_full : Prop := ∀ (mem : Nat → ChildRow) (pmem : Nat → ParentRow) (order : List Int → List Int)
    (d : GFile) (c : Criteria) (base : Option Int), (∀ l, (order l).Perm l) → HasData d → Consistent d →
  Derived d → UniqueIds d.flashes → UniqueIds d.groups →
  ∃ res, readFlashesPoints (fun _ _ => []) (fun _ _ _ => []) id (fun _ _ => []) mem pmem order d c 20000 false
      base = .ok res ∧
    ∀ p ∈ res.flatMap fun p => p.flash.2, ∀ f ∈ d.flashes, f.id = p.flashId → ∀ e, FirstEvent d f e →
      (∀ e', FirstEvent d f e' → e' = e) → p.initLon = e.val.lon ∧ p.initLat = e.val.lat

/-- C92: the place of initiation is the centroid of the flash. -/
theorem C92_exact (clip : Poly → Poly → List Poly) (query : List Pt → Pt → Nat → List Nat)
    (join : List Poly → List Poly) (quads : Rat → List Pt → List Poly)
    (mem : Nat → ChildRow) (pmem : Nat → ParentRow) {d : GFile} {order : List Int → List Int}
    (ho : ∀ l, (order l).Perm l) (c : Criteria) {n : Nat} (hn : 0 < n) (fixedGrid : Bool) (base : Option Int)
    (h : HasData d) (hc : Consistent d) (hd : Derived d)
    (huf : UniqueIds d.flashes) (hug : UniqueIds d.groups) :
    ∃ res, readFlashesPoints clip query join quads mem pmem order d c n fixedGrid base = .ok res ∧
      ∀ p ∈ res.flatMap fun p => p.flash.2, ∀ f ∈ d.flashes, f.id = p.flashId →
        p.initLon = f.val.lon ∧ p.initLat = f.val.lat := by
  obtain ⟨res, h1, ⟨fs, h2, h3⟩, -⟩ := C86_points clip query join quads mem pmem ho c hn fixedGrid base h hc hd huf
    hug
  refine ⟨res, h1, ?_⟩
  intro p hp f hf hid
  obtain ⟨f', hf', hP⟩ := mem_of_forall₂_right h3 hp
  have hmem : f' ∈ d.flashes := by
    have := h2.mem_iff.mp hf'
    unfold askedFor at this
    split at this
    · exact this
    · exact (List.mem_filter.mp this).1
  have : f' = f := List.inj_on_of_nodup_map huf hmem hf (by rw [hid, hP.id])
  rw [← this]
  exact ⟨hP.initLon, hP.initLat⟩

/-- C92 for flashes whose centroid is the place of their first event, as for flashes of one event.  Missing:
every other flash. -/
theorem C92_partial (mem : Nat → ChildRow) (pmem : Nat → ParentRow) {order : List Int → List Int}
    {d : GFile} (c : Criteria) (base : Option Int) (ho : ∀ l, (order l).Perm l) (h : HasData d)
    (hc : Consistent d) (hd : Derived d) (huf : UniqueIds d.flashes) (hug : UniqueIds d.groups)
    (hcen : ∀ f ∈ d.flashes, ∀ e, FirstEvent d f e → f.val.lon = e.val.lon ∧ f.val.lat = e.val.lat) :
    ∃ res, readFlashesPoints (fun _ _ => []) (fun _ _ _ => []) id (fun _ _ => []) mem pmem order d c 20000 false
        base = .ok res ∧
      ∀ p ∈ res.flatMap fun p => p.flash.2, ∀ f ∈ d.flashes, f.id = p.flashId → ∀ e, FirstEvent d f e →
        p.initLon = e.val.lon ∧ p.initLat = e.val.lat := by
  obtain ⟨res, h1, h2⟩ := C92_exact (fun _ _ => []) (fun _ _ _ => []) id (fun _ _ => []) mem pmem ho c
    (n := 20000) (by norm_num) false base h hc hd huf hug
  refine ⟨res, h1, ?_⟩
  intro p hp f hf hid e he
  obtain ⟨a, b⟩ := h2 p hp f hf hid
  obtain ⟨a', b'⟩ := hcen f hf e he
  exact ⟨a.trans a', b.trans b'⟩

example (mem : Nat → ChildRow) (pmem : Nat → ParentRow) := C92_partial mem pmem (order := id) {} (some 0)
  (fun l => List.Perm.refl l) tinySample_hyps.1 tinySample_hyps.2.1 tinySample_hyps.2.2.1
  tinySample_hyps.2.2.2.1 tinySample_hyps.2.2.2.2 (by
    rintro f hf e ⟨he, -⟩
    have hf : f = ⟨77, 0, { lon := -70, lat := 5, energy := 4, nGroups := 1, nEvents := 1 }⟩ := by
      simpa [tinySample] using hf
    have he : e = ⟨2, 1, { lon := -70, lat := 5, energy := 4, flashOf := 77, times := [5000000000] }⟩ := by
      simpa [tinySample] using he
    rw [hf, he]
    exact ⟨rfl, rfl⟩)

/-- A flash of two events at -70 and -72 degrees, the second one later; its centroid is at -71 degrees. -/
def movingSample : GFile where
  flashes := [⟨77, 0, { lon := -71, lat := 5, energy := 8, nGroups := 1, nEvents := 2 }⟩]
  groups := [⟨1, 77, { nEvents := 2 }⟩]
  events := [⟨2, 1, { lon := -70, lat := 5, energy := 4, flashOf := 77, times := [5000000000] }⟩,
    ⟨3, 1, { lon := -72, lat := 5, energy := 4, flashOf := 77, times := [6000000000] }⟩]

/-- C92 fails: the record has the centroid. -/
theorem C92_full_false : ¬ C92_full := by
  intro h
  obtain ⟨res, h1, h2⟩ := h (fun _ => ⟨0, 0, 0, 0, none, 0, 0, 0, 0⟩)
    (fun _ => ⟨0, 0, 0, 0, 0, 0, none, none, 0, 0, 0, 0, 0⟩) id movingSample {} (some 0)
    (fun l => List.Perm.refl l) (by unfold HasData; decide) (by decide)
    ⟨by decide, by decide, by decide, by decide⟩ (by unfold UniqueIds; decide) (by unfold UniqueIds; decide)
  have hk : (readFlashesPoints (fun _ _ => []) (fun _ _ _ => []) id (fun _ _ => [])
      (fun _ => ⟨0, 0, 0, 0, none, 0, 0, 0, 0⟩)
      (fun _ => ⟨0, 0, 0, 0, 0, 0, none, none, 0, 0, 0, 0, 0⟩) id movingSample {} 20000 false (some 0)).map
      (fun res => (res.flatMap fun p => p.flash.2).map fun p => (p.flashId, p.initLon)) = .ok [(77, -71)] := by
    decide +kernel
  rw [h1] at hk
  have hk : (res.flatMap fun p => p.flash.2).map (fun p => (p.flashId, p.initLon)) = [(77, -71)] := by
    injection hk
  obtain ⟨p, hp, hpe⟩ : ∃ p ∈ res.flatMap fun p => p.flash.2, (p.flashId, p.initLon) = ((77, -71) : Int × Rat) := by
    have : ((77, -71) : Int × Rat) ∈ (res.flatMap fun p => p.flash.2).map fun p => (p.flashId, p.initLon) := by
      rw [hk]; simp
    exact List.mem_map.mp this
  have hfirst : ∀ e, FirstEvent movingSample
      ⟨77, 0, { lon := -71, lat := 5, energy := 8, nGroups := 1, nEvents := 2 }⟩ e →
      e = ⟨2, 1, { lon := -70, lat := 5, energy := 4, flashOf := 77, times := [5000000000] }⟩ := by
    rintro e ⟨he, -, hle⟩
    have he' : e = ⟨2, 1, { lon := -70, lat := 5, energy := 4, flashOf := 77, times := [5000000000] }⟩ ∨
        e = ⟨3, 1, { lon := -72, lat := 5, energy := 4, flashOf := 77, times := [6000000000] }⟩ := by
      simpa [movingSample] using he
    rcases he' with rfl | rfl
    · rfl
    · have := hle ⟨2, 1, { lon := -70, lat := 5, energy := 4, flashOf := 77, times := [5000000000] }⟩
        (by decide) (by decide)
      revert this
      decide
  have := h2 p hp ⟨77, 0, { lon := -71, lat := 5, energy := 8, nGroups := 1, nEvents := 2 }⟩ (by decide)
    (by rw [(Prod.mk.inj hpe).1]) ⟨2, 1, { lon := -70, lat := 5, energy := 4, flashOf := 77, times := [5000000000] }⟩
    ⟨by decide, by decide, by decide⟩ (fun e he => hfirst e he)
  rw [(Prod.mk.inj hpe).2] at this
  norm_num at this

end Verif.Props
