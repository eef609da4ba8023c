import Verif.Props.Driver

/-!
# C70, C72, C73: which flashes, options and files a gridding call takes
-/

namespace Verif.Props

open Verif.Py Verif.Model Verif.Spec Verif.Proofs

attribute [local irreducible] moveKeys Dict.put Dict.popD Dict.get Dict.has

variable {σ ι : Type}

/-! ## C73 -/

/-- C73: a file without events makes no difference. -/
def C73_full : Prop := ∀ (σ ι : Type) (G : Gridder σ ι) (order : List Int → List Int)
  (nav : Rat → Rat → Rat × Rat) (pre post : List GFile) (f : GFile) (kw shared : Dict),
  (G.openFile = fun _ d => openDataset order nav true true d) → f.events = [] →
  gridGlmFlashes G (pre ++ f :: post) kw shared = gridGlmFlashes G (pre ++ post) kw shared

theorem processFiles_append {G : Gridder σ ι} {rev : Val} {proc : Dict} {pre post : List GFile} :
    ∀ {s : σ × Bool}, processFiles G rev proc s (pre ++ post) =
      (processFiles G rev proc s pre).bind fun s => processFiles G rev proc s post := by
  induction pre with
  | nil => intro s; obtain ⟨s, b⟩ := s; rfl
  | cons f rest ih =>
    intro s
    obtain ⟨s, b⟩ := s
    rw [List.cons_append, processFiles, processFiles]
    simp only [bind, Except.bind]
    cases G.openFile rev f with
    | error e => rfl
    | ok d =>
      simp only
      by_cases hd : d.events.length > 0
      · rw [if_pos hd, if_pos hd]
        cases G.process s proc d with
        | error e => rfl
        | ok s' => simp only; rw [ih]; rfl
      · rw [if_neg hd, if_neg hd, ih]; rfl

theorem processFiles_skip {G : Gridder σ ι} {rev : Val} {proc : Dict} {f d : GFile}
    {pre post : List GFile} {s : σ × Bool} (ho : G.openFile rev f = .ok d) (he : d.events = []) :
    processFiles G rev proc s (pre ++ f :: post) = processFiles G rev proc s (pre ++ post) := by
  have h1 : ∀ s : σ × Bool, processFiles G rev proc s (f :: post) = processFiles G rev proc s post := by
    rintro ⟨s, b⟩
    rw [processFiles, ho]
    simp only [bind, Except.bind, he, List.length_nil, gt_iff_lt, Nat.lt_irrefl, if_false]
  rw [processFiles_append, processFiles_append]
  cases processFiles G rev proc s pre with
  | error e => rfl
  | ok s' => exact h1 s'

theorem processFiles_bad {G : Gridder σ ι} {rev : Val} {proc : Dict} {f : GFile} {e : Err}
    (ho : G.openFile rev f = .error e) {pre post : List GFile} {s t : σ × Bool} :
    processFiles G rev proc s (pre ++ f :: post) ≠ .ok t := by
  rw [processFiles_append]
  cases processFiles G rev proc s pre with
  | error e => intro h; cases h
  | ok s' =>
    obtain ⟨s', b⟩ := s'
    show processFiles G rev proc (s', b) (f :: post) ≠ _
    rw [processFiles, ho]
    intro h
    cases h

/-- The states in which a tile that succeeds has gone through its files. -/
theorem procEachGrid_files {G : Gridder σ ι} {files : List GFile} {shared shared' : Dict} {g : Subgrid}
    {r : TileRun σ ι} (h : procEachGrid G files shared g = .ok (r, shared')) :
    ∃ rev proc, g.proc.get "ellipse_rev" = .ok rev ∧
      processFiles G rev proc (G.init g.kwargs, false) files = .ok (r.state, true) := by
  unfold procEachGrid at h
  cases he : g.proc.get "ellipse_rev" with
  | error e => rw [he] at h; cases h
  | ok rev =>
    rw [he] at h
    cases hl : (g.proc.del "ellipse_rev").has "clip_events" with
    | false => simp only [bind, Except.bind, hl] at h; cases h
    | true =>
      have hlut : ∃ o, lutPipelineSetup = .ok o := ⟨_, rfl⟩
      obtain ⟨o, ho⟩ := hlut
      simp only [bind, Except.bind, hl, if_true, ho] at h
      generalize (Dict.del g.proc "ellipse_rev").put "clip_events" Val.mesh = proc at h
      refine ⟨rev, proc, rfl, ?_⟩
      cases hp : processFiles G rev proc (G.init g.kwargs, false) files with
      | error e => rw [hp] at h; cases h
      | ok sf =>
        obtain ⟨s, first⟩ := sf
        rw [hp] at h
        simp only at h
        cases first with
        | false =>
          cases hpre : g.preprocess with
          | none => rw [hpre] at h; simp [writeGrids] at h
          | some p => rw [hpre] at h; simp [writeGrids] at h
        | true =>
          cases hpre : g.preprocess with
          | none =>
            rw [hpre] at h
            obtain ⟨o', e1, -⟩ := writeGrids_ok G s g.out
              (if g.out.has "output_kwargs" = true then shared else [])
            rw [e1] at h
            cases hwr : G.write s g.out _ _ with
            | error e => rw [hwr] at h; cases h
            | ok written =>
            rw [hwr] at h
            simp only [bind, Except.bind, pure, Except.pure, Except.ok.injEq, Prod.mk.injEq] at h
            rw [← h.1]
          | some p =>
            rw [hpre] at h
            obtain ⟨o', e1, -⟩ := writeGrids_ok G s g.out
              ((if g.out.has "output_kwargs" = true then shared else []).put "pad"
                (.slices (getPadSlices p.1).1 (getPadSlices p.1).2))
            simp only at h
            rw [e1] at h
            cases hwr : G.write s g.out _ _ with
            | error e => rw [hwr] at h; cases h
            | ok written =>
            rw [hwr] at h
            simp only [bind, Except.bind, pure, Except.pure, Except.ok.injEq, Prod.mk.injEq] at h
            rw [← h.1]

theorem tiles_nonempty {xBnd yBnd : Rat × Rat} {dx dy xp yp : Rat} {s : Nat} {ts : List Tile}
    (h : subdividedFixedGrid xBnd yBnd dx dy s xp yp = .ok ts) : ts ≠ [] := by
  unfold subdividedFixedGrid at h
  simp only [bind, Except.bind] at h
  by_cases hs : s = 0
  · subst hs
    have : ∀ b d, subdivideBnd b d 0 = .error .zeroDivisionError := fun b d => if_pos (Or.inr rfl)
    rw [this] at h
    split at h <;> cases h
  · repeat' (split at h)
    all_goals first
      | (cases h; done)
      | (cases h
         obtain ⟨n, rfl⟩ := Nat.exists_eq_succ_of_ne_zero hs
         simp [List.range_succ_eq_map])

theorem subgrids_nonempty {c : CallOpts} {gs : List Subgrid} (h : subgridsFor c = .ok gs) :
    gs ≠ [] := by
  unfold subgridsFor at h
  simp only [bind, Except.bind, pure, Except.pure] at h
  split at h
  · cases h
  · split at h
    · repeat' (split at h)
      all_goals (cases h; try simp)
    · split at h
      · split at h
        · cases h
        · unfold subdividedOptions at h
          simp only [bind, Except.bind] at h
          repeat' (split at h)
          all_goals first
            | cases h; done
            | (rename_i ht _ _ _
               have hl := (mapM_ok_forall₂ h).length_eq
               have hne := tiles_nonempty ht
               intro hg
               rw [hg, List.length_nil, List.length_eq_zero_iff] at hl
               exact hne hl)
      · cases h; simp

/-- A successful call processes at least one tile. -/
theorem runs_nonempty {G : Gridder σ ι} {files : List GFile} {kw shared shared' : Dict}
    {runs : List (TileRun σ ι)} (h : gridGlmFlashes G files kw shared = .ok (runs, shared')) :
    runs ≠ [] := by
  obtain ⟨gs, hgs, hp⟩ := gridGlm_ok h
  have := (procAll_forall₂ hp).length_eq
  intro hr
  rw [hr, List.length_nil, List.length_eq_zero_iff] at this
  exact subgrids_nonempty hgs this

/-- C73, exactly, for the opening of files as `grid_GLM_flashes` does it: a file without flashes,
groups or events makes the whole call fail. -/
theorem C73_exact (G : Gridder σ ι) (order : List Int → List Int) (nav : Rat → Rat → Rat × Rat)
    (hG : G.openFile = fun _ d => openDataset order nav true true d) (files : List GFile)
    (f : GFile) (hf : f ∈ files) (hd : ¬ HasData f) (kw shared : Dict) :
    ∀ out, gridGlmFlashes G files kw shared ≠ .ok out := by
  rintro ⟨runs, shared'⟩ h
  obtain ⟨gs, hgs, hp⟩ := gridGlm_ok h
  obtain ⟨r, hr⟩ := List.exists_mem_of_ne_nil _ (runs_nonempty h)
  obtain ⟨g, hg, sh, sh', h1⟩ := mem_of_forall₂_right (procAll_forall₂ hp) hr
  obtain ⟨rev, proc, -, h2⟩ := procEachGrid_files h1
  obtain ⟨pre, post, rfl⟩ := List.append_of_mem hf
  refine processFiles_bad (e := .attributeError) ?_ h2
  rw [hG]
  exact C11_check_tree_fails order nav true f hd

/-- C73 is violated: one file with lightning succeeds, with an empty file before it fails. -/
theorem C73_full_false : ¬ C73_full := by
  intro h
  have h1 := h Nat Nat toyGridder id toyNav [] [sampleFile] ⟨[], [], []⟩ latlongCall [] rfl rfl
  have h2 : (gridGlmFlashes toyGridder [sampleFile] latlongCall []).toOption.isSome = true := by
    decide +kernel
  cases hr : gridGlmFlashes toyGridder [sampleFile] latlongCall [] with
  | error e => rw [hr] at h2; cases h2
  | ok out =>
    rw [List.nil_append, List.nil_append, hr] at h1
    refine C73_exact toyGridder id toyNav rfl [⟨[], [], []⟩, sampleFile] ⟨[], [], []⟩ (by simp)
      ?_ _ _ out h1
    simp [HasData]

/-- C73, the part that holds: a file that opens as a dataset without events makes no difference.
Missing: opening such a file (see C11). -/
theorem C73_partial (G : Gridder σ ι) (pre post : List GFile) (f : GFile)
    (ho : ∀ rev, ∃ d, G.openFile rev f = .ok d ∧ d.events = []) (kw shared : Dict) :
    gridGlmFlashes G (pre ++ f :: post) kw shared = gridGlmFlashes G (pre ++ post) kw shared := by
  have h1 : ∀ sh g, procEachGrid G (pre ++ f :: post) sh g = procEachGrid G (pre ++ post) sh g := by
    intro sh g
    unfold procEachGrid
    cases g.proc.get "ellipse_rev" with
    | error e => rfl
    | ok rev =>
      obtain ⟨d, hd, he⟩ := ho rev
      simp only [bind, Except.bind, processFiles_skip hd he]
  have h2 : ∀ gs sh, procAll G (pre ++ f :: post) sh gs = procAll G (pre ++ post) sh gs := by
    intro gs
    induction gs with
    | nil => intro sh; rfl
    | cons g rest ih => intro sh; rw [procAll, procAll, h1]; simp only [ih]
  unfold gridGlmFlashes
  simp only [h2]

/-- Without any event in any file nothing can be written. -/
theorem C73_no_events_error (G : Gridder σ ι) (files : List GFile)
    (ho : ∀ f ∈ files, ∀ rev d, G.openFile rev f = .ok d → d.events = []) (kw shared : Dict) :
    ∀ out, gridGlmFlashes G files kw shared ≠ .ok out := by
  rintro ⟨runs, shared'⟩ h
  obtain ⟨gs, hgs, hp⟩ := gridGlm_ok h
  obtain ⟨r, hr⟩ := List.exists_mem_of_ne_nil _ (runs_nonempty h)
  obtain ⟨g, hg, sh, sh', h1⟩ := mem_of_forall₂_right (procAll_forall₂ hp) hr
  obtain ⟨rev, proc, -, h2⟩ := procEachGrid_files h1
  have : ∀ s t : σ × Bool, processFiles G rev proc s files = .ok t → t.2 = s.2 := by
    clear h2 h1 hp h hr hg
    induction files with
    | nil => rintro ⟨s, b⟩ t h; cases h; rfl
    | cons f rest ih =>
      rintro ⟨s, b⟩ t h
      rw [processFiles] at h
      cases hf : G.openFile rev f with
      | error e => rw [hf] at h; cases h
      | ok d =>
        rw [hf] at h
        have := ho f (List.mem_cons_self) rev d hf
        simp only [bind, Except.bind, this] at h
        exact ih (fun f hf => ho f (List.mem_cons_of_mem _ hf)) (s, b) t h
  have := this _ _ h2
  cases this

/-- A gridder that opens files without the check. -/
def lenientGridder : Gridder Nat Nat :=
  { toyGridder with openFile := fun _ d => openDataset id toyNav false true d }

example : ∀ rev, ∃ d, lenientGridder.openFile rev ⟨[], [], []⟩ = .ok d ∧ d.events = [] :=
  fun _ => ⟨_, rfl, rfl⟩

/-! ## C72 -/

theorem mem_of_forall₂_left {β γ : Type} {R : β → γ → Prop} {l : List β} {m : List γ}
    (h : List.Forall₂ R l m) {x : β} (hx : x ∈ l) : ∃ y ∈ m, R x y := by
  obtain ⟨y, hy, hr⟩ := mem_of_forall₂_right h.flip hx
  exact ⟨y, hy, hr⟩

/-- Nothing goes wrong while reading the files and writing the images, and one of the files has events. -/
def Works (G : Gridder σ ι) (files : List GFile) : Prop :=
  (∀ f ∈ files, ∀ rev proc s, ∃ d s', G.openFile rev f = .ok d ∧ G.process s proc d = .ok s') ∧
  (∃ f ∈ files, ∀ rev d, G.openFile rev f = .ok d → d.events ≠ []) ∧
  ∀ s out pad scale, ∃ written, G.write s out pad scale = .ok written

/-- The target grid is given: projection, bounds, spacing and, if at all, a positive number of
tiles. -/
structure GridGiven (kw : Dict) : Prop where
  proj : ∃ p, kw.get "proj_name" = .ok p
  x : ∃ a b, kw.get "x_bnd" = .ok (.bnd a b)
  y : ∃ a b, kw.get "y_bnd" = .ok (.bnd a b)
  dx : ∃ d, kw.get "dx" = .ok (.num d) ∧ d ≠ 0
  dy : ∃ d, kw.get "dy" = .ok (.num d) ∧ d ≠ 0
  subdivide : kw.get "subdivide" = .error .keyError ∨ ∃ s, kw.get "subdivide" = .ok (.nat s) ∧ 0 < s

/-- C72: the target grid and clipping are all that has to be given. -/
def C72_full : Prop := ∀ (σ ι : Type) (G : Gridder σ ι) (files : List GFile) (kw shared : Dict),
  Works G files → GridGiven kw → kw.has "clip_events" = true →
  ∃ out, gridGlmFlashes G files kw shared = .ok out

theorem processFiles_works {G : Gridder σ ι} {files : List GFile} (rev : Val) (proc : Dict)
    (h : ∀ f ∈ files, ∀ rev proc s, ∃ d s', G.openFile rev f = .ok d ∧ G.process s proc d = .ok s') :
    ∀ s : σ × Bool, ∃ t : σ × Bool, processFiles G rev proc s files = .ok t ∧
      ((s.2 = true ∨ ∃ f ∈ files, ∀ rev d, G.openFile rev f = .ok d → d.events ≠ []) → t.2 = true) := by
  induction files with
  | nil =>
    rintro ⟨s, b⟩
    exact ⟨(s, b), rfl, fun h => h.elim id fun ⟨f, hf, _⟩ => absurd hf (List.not_mem_nil)⟩
  | cons f rest ih =>
    rintro ⟨s, b⟩
    obtain ⟨d, s', h1, h2⟩ := h f (List.mem_cons_self) rev proc s
    have ih := ih fun f hf => h f (List.mem_cons_of_mem _ hf)
    rw [processFiles, h1]
    simp only [bind, Except.bind]
    by_cases hd : d.events.length > 0
    · rw [if_pos hd, h2]
      obtain ⟨t, i1, i2⟩ := ih (s', true)
      exact ⟨t, i1, fun _ => i2 (Or.inl rfl)⟩
    · rw [if_neg hd]
      obtain ⟨t, i1, i2⟩ := ih (s, b)
      refine ⟨t, i1, fun hh => i2 (hh.imp id ?_)⟩
      rintro ⟨f', hf', hev⟩
      rcases List.mem_cons.mp hf' with rfl | hf'
      · exact absurd (List.length_pos_iff.mpr (hev rev d h1)) hd
      · exact ⟨f', hf', hev⟩

theorem procEachGrid_works {G : Gridder σ ι} {files : List GFile} (hw : Works G files)
    (shared : Dict) {g : Subgrid} {rev : Val} (h1 : g.proc.get "ellipse_rev" = .ok rev)
    (h2 : g.proc.has "clip_events" = true) : ∃ out, procEachGrid G files shared g = .ok out := by
  unfold procEachGrid
  have hl : (g.proc.del "ellipse_rev").has "clip_events" = true := by
    rw [← h2]; exact Dict.has_congr (Dict.get_del_ne _ (by decide))
  rw [h1]
  obtain ⟨⟨s, first⟩, h3, h4⟩ := processFiles_works rev
    ((g.proc.del "ellipse_rev").put "clip_events" .mesh) hw.1 (G.init g.kwargs, false)
  have h4 : first = true := h4 (Or.inr hw.2.1)
  subst h4
  have hlut : ∃ o, lutPipelineSetup = .ok o := ⟨_, rfl⟩
  obtain ⟨o, ho⟩ := hlut
  simp only [bind, Except.bind, hl, if_true, ho, h3]
  cases hpre : g.preprocess with
  | none =>
    obtain ⟨o', e1, -⟩ := writeGrids_ok G s g.out
      (if g.out.has "output_kwargs" = true then shared else [])
    obtain ⟨written, hwr⟩ := hw.2.2 s g.out _ _
    simp only [e1]
    rw [hwr]
    exact ⟨_, rfl⟩
  | some p =>
    obtain ⟨o', e1, -⟩ := writeGrids_ok G s g.out
      ((if g.out.has "output_kwargs" = true then shared else []).put "pad"
        (.slices (getPadSlices p.1).1 (getPadSlices p.1).2))
    obtain ⟨written, hwr⟩ := hw.2.2 s g.out _ _
    simp only [e1]
    rw [hwr]
    exact ⟨_, rfl⟩

theorem procAll_works {G : Gridder σ ι} {files : List GFile} (hw : Works G files)
    {gs : List Subgrid} (h : ∀ g ∈ gs, (∃ rev, g.proc.get "ellipse_rev" = .ok rev) ∧
      g.proc.has "clip_events" = true) :
    ∀ shared, ∃ out, procAll G files shared gs = .ok out := by
  induction gs with
  | nil => intro shared; exact ⟨_, rfl⟩
  | cons g rest ih =>
    intro shared
    obtain ⟨⟨rev, h1⟩, h2⟩ := h g (List.mem_cons_self)
    obtain ⟨out, ho⟩ := procEachGrid_works hw shared h1 h2
    obtain ⟨out', ho'⟩ := ih (fun g hg => h g (List.mem_cons_of_mem _ hg)) out.2
    rw [procAll, ho]
    simp only [bind, Except.bind, ho']
    exact ⟨_, rfl⟩

theorem subgrids_exists {kw : Dict} (hg : GridGiven kw) :
    (∃ gs, subgridsFor (splitKwargs kw) = .ok gs) ↔
      (FixedGridCall kw → kw.has "nadir_lon" = true ∧ kw.has "output_filename_prefix" = true ∧
        kw.has "output_writer" = true) := by
  have hk : ∀ k, k ∉ procKeys → k ∉ outKeys → k ≠ "do_3d" → k ≠ "subdivide" →
      k ≠ "event_grid_area_fraction_key" → (splitKwargs kw).kwargs.get k = kw.get k :=
    fun k a b c d e => split_kwargs kw k a b c d e
  obtain ⟨⟨p, hp⟩, ⟨x1, x2, hx⟩, ⟨y1, y2, hy⟩, ⟨dx, hdx, hdx0⟩, ⟨dy, hdy, hdy0⟩, hs⟩ := hg
  have hp' := (hk "proj_name" (by decide) (by decide) (by decide) (by decide) (by decide)).trans hp
  have hx' := (hk "x_bnd" (by decide) (by decide) (by decide) (by decide) (by decide)).trans hx
  have hy' := (hk "y_bnd" (by decide) (by decide) (by decide) (by decide) (by decide)).trans hy
  have hdx' := (hk "dx" (by decide) (by decide) (by decide) (by decide) (by decide)).trans hdx
  have hdy' := (hk "dy" (by decide) (by decide) (by decide) (by decide) (by decide)).trans hdy
  have hf : (splitKwargs kw).proc.has "fixed_grid" = kw.has "fixed_grid" :=
    Dict.has_congr (split_proc kw _ (by decide))
  have hn : (splitKwargs kw).proc.get "nadir_lon" = kw.get "nadir_lon" :=
    split_proc kw _ (by decide)
  have hpx : (splitKwargs kw).out.get "output_filename_prefix" = kw.get "output_filename_prefix" :=
    split_out kw _ (by decide)
  have hwr : (splitKwargs kw).out.get "output_writer" = kw.get "output_writer" :=
    split_out kw _ (by decide)
  have hsub : ∃ s, 0 < s ∧ (splitKwargs kw).subdivide = .nat s := by
    rw [split_subdivide]
    rcases hs with hs | ⟨s, hs, h0⟩
    · exact ⟨1, by decide, optionOr_error hs⟩
    · exact ⟨s, h0, optionOr_ok hs⟩
  obtain ⟨s, hs0, hsub⟩ := hsub
  unfold subgridsFor
  rw [hp']
  simp only [bind, Except.bind]
  by_cases hl : p = .str "latlong"
  · rw [if_pos hl, hx', hy']
    simp only [pure, Except.pure]
    exact ⟨fun _ hh => absurd (by rw [hp, hl]) hh.1, fun _ => ⟨_, rfl⟩⟩
  · rw [if_neg hl, hf]
    cases hfx : kw.has "fixed_grid" with
    | false =>
      simp only [Bool.false_eq_true, if_false, pure, Except.pure]
      exact ⟨fun _ hh => absurd hh.2 (by rw [hfx]; decide), fun _ => ⟨_, rfl⟩⟩
    | true =>
      have hcall : FixedGridCall kw := ⟨by rw [hp]; intro hh; cases hh; exact hl rfl, hfx⟩
      simp only [if_true, hsub, Val.asNat]
      unfold subdividedOptions
      simp only [bind, Except.bind, hdx', hdy', hx', hy', Val.asNum, Val.asBnd, hn]
      have ht : ∃ ts, subdividedFixedGrid (x1, x2) (y1, y2) dx dy s defaultPad defaultPad = .ok ts := by
        unfold subdividedFixedGrid
        have a1 : ∃ q, padsFor defaultPad defaultPad dx dy = .ok q :=
          ⟨_, if_neg (by simp [hdx0, hdy0])⟩
        have a2 : ∀ b, ∃ q, subdivideBnd b dx s = .ok q :=
          fun b => ⟨_, if_neg (by simp [hdx0]; omega)⟩
        have a3 : ∀ b, ∃ q, subdivideBnd b dy s = .ok q :=
          fun b => ⟨_, if_neg (by simp [hdy0]; omega)⟩
        obtain ⟨q1, a1⟩ := a1
        obtain ⟨q2, a2⟩ := a2 (x1, x2)
        obtain ⟨q3, a3⟩ := a3 (y1, y2)
        simp only [bind, Except.bind, a1, a2, a3]
        exact ⟨_, rfl⟩
      obtain ⟨ts, ht⟩ := ht
      simp only [ht]
      constructor
      · rintro ⟨gs, h⟩ -
        cases hnl : kw.get "nadir_lon" with
        | error e => rw [hnl] at h; cases h
        | ok v =>
          rw [hnl] at h
          obtain ⟨t, htm⟩ := List.exists_mem_of_ne_nil _ (tiles_nonempty ht)
          obtain ⟨g, -, hgm⟩ := mem_of_forall₂_left (mapM_ok_forall₂ h) htm
          unfold tileOptions at hgm
          rw [hpx] at hgm
          simp only [bind, Except.bind] at hgm
          cases hpp : kw.get "output_filename_prefix" with
          | error e => rw [hpp] at hgm; cases hgm
          | ok w =>
            rw [hpp] at hgm
            simp only at hgm
            rw [Dict.get_put_ne _ _ (by decide), hwr] at hgm
            cases hww : kw.get "output_writer" with
            | error e => rw [hww] at hgm; cases hgm
            | ok z =>
              exact ⟨(Dict.has_iff _ _).mpr ⟨v, hnl⟩, (Dict.has_iff _ _).mpr ⟨w, hpp⟩,
                (Dict.has_iff _ _).mpr ⟨z, hww⟩⟩
      · intro h
        obtain ⟨a, b, c⟩ := h hcall
        obtain ⟨v, hv⟩ := (Dict.has_iff _ _).mp a
        obtain ⟨w, hw⟩ := (Dict.has_iff _ _).mp b
        obtain ⟨z, hz⟩ := (Dict.has_iff _ _).mp c
        rw [hv]
        simp only
        suffices h : ∀ t ∈ ts, ∃ g, tileOptions (splitKwargs kw).kwargs (splitKwargs kw).proc
            (splitKwargs kw).out t = .ok g ∧ True from
          let ⟨gs, h, _⟩ := mapM_ok_of_forall h; ⟨gs, h⟩
        intro t _
        unfold tileOptions
        rw [hpx, hw]
        simp only [bind, Except.bind]
        rw [Dict.get_put_ne _ _ (by decide), hwr, hz]
        exact ⟨_, rfl, trivial⟩

/-- C72, exactly: with the grid given and readable files the call succeeds iff `clip_events` and
`ellipse_rev` are given and, for tiles of a fixed grid, also `nadir_lon`, `output_filename_prefix`
and `output_writer`. -/
theorem C72_exact (G : Gridder σ ι) (files : List GFile) (kw shared : Dict) (hw : Works G files)
    (hg : GridGiven kw) :
    (∃ out, gridGlmFlashes G files kw shared = .ok out) ↔
      kw.has "clip_events" = true ∧ kw.has "ellipse_rev" = true ∧
      (FixedGridCall kw → kw.has "nadir_lon" = true ∧ kw.has "output_filename_prefix" = true ∧
        kw.has "output_writer" = true) := by
  constructor
  · rintro ⟨⟨runs, shared'⟩, h⟩
    obtain ⟨gs, hgs, hp⟩ := gridGlm_ok h
    refine ⟨(C50_exact G files kw shared shared' runs h).2 (runs_nonempty h), ?_,
      (subgrids_exists hg).mp ⟨gs, hgs⟩⟩
    obtain ⟨r, hr⟩ := List.exists_mem_of_ne_nil _ (runs_nonempty h)
    obtain ⟨g, hgm, sh, sh', h1⟩ := mem_of_forall₂_right (procAll_forall₂ hp) hr
    obtain ⟨-, -, -, e, -⟩ := procEachGrid_ok h1
    rw [← e]
    exact Dict.has_congr (subgrids_common hgs g hgm).2.2.1.symm
  · rintro ⟨hc, he, hf⟩
    obtain ⟨gs, hgs⟩ := (subgrids_exists hg).mpr hf
    unfold gridGlmFlashes
    rw [hgs]
    refine procAll_works hw ?_ shared
    intro g hgm
    obtain ⟨-, e1, e2, -⟩ := subgrids_common hgs g hgm
    exact ⟨by rw [e2]; exact (Dict.has_iff _ _).mp he, by rw [e1, hc]⟩

theorem toy_works : Works toyGridder [sampleFile] :=
  have h : ∀ rev, toyGridder.openFile rev sampleFile = .ok openSample :=
    fun _ => (by decide +kernel : openDataset id toyNav true true sampleFile = .ok openSample)
  ⟨fun f hf rev _ _ => by
      rw [List.mem_singleton] at hf
      subst hf
      exact ⟨openSample, _, h rev, rfl⟩, ⟨sampleFile, List.mem_singleton.mpr rfl, by
    intro rev d hd
    rw [h rev] at hd
    cases hd
    decide⟩, fun _ _ _ _ => ⟨_, rfl⟩⟩

unseal Dict.get in
theorem latlong_given : GridGiven latlongCall where
  proj := ⟨.str "latlong", rfl⟩
  x := ⟨0, 1, rfl⟩
  y := ⟨0, 1, rfl⟩
  dx := ⟨1/4, rfl, by norm_num⟩
  dy := ⟨1/4, rfl, by norm_num⟩
  subdivide := Or.inl rfl

unseal Dict.get Dict.has in
/-- C72 is violated: `ellipse_rev`, which is not documented, is required. -/
theorem C72_full_false : ¬ C72_full := by
  intro h
  have hg : GridGiven (latlongCall.del "ellipse_rev") :=
    ⟨⟨.str "latlong", rfl⟩, ⟨0, 1, rfl⟩, ⟨0, 1, rfl⟩, ⟨1/4, rfl, by norm_num⟩,
      ⟨1/4, rfl, by norm_num⟩, Or.inl rfl⟩
  have := (C72_exact toyGridder [sampleFile] (latlongCall.del "ellipse_rev") [] toy_works hg).mp
    (h Nat Nat toyGridder [sampleFile] _ _ toy_works hg (by decide))
  have := this.2.1
  revert this
  decide

/-- C72, the part that holds: the other options can be omitted. -/
theorem C72_partial (G : Gridder σ ι) (files : List GFile) (kw shared : Dict) (hw : Works G files)
    (hg : GridGiven kw) (h : ∀ k ∈ ["clip_events", "ellipse_rev", "nadir_lon",
      "output_filename_prefix", "output_writer"], kw.has k = true) :
    ∃ out, gridGlmFlashes G files kw shared = .ok out :=
  (C72_exact G files kw shared hw hg).mpr
    ⟨h _ (by simp), h _ (by simp), fun _ => ⟨h _ (by simp), h _ (by simp), h _ (by simp)⟩⟩

unseal Dict.get in
example : GridGiven (sampleCall true) :=
  ⟨⟨_, rfl⟩, ⟨_, _, rfl⟩, ⟨_, _, rfl⟩, ⟨_, rfl, by norm_num⟩, ⟨_, rfl, by norm_num⟩, by
    first | exact Or.inl rfl | exact Or.inr ⟨_, rfl, by decide⟩⟩

/-! ## C70 -/

/-- The event lies in the part of the tile that is written, inside the field of view. -/
structure InTile (t : Tile) (e : Row GVal) : Prop where
  x : t.xBnd.1 + t.pads.x ≤ e.val.x ∧ e.val.x ≤ t.xBnd.2 - t.pads.x
  y : t.yBnd.1 + t.pads.y ≤ e.val.y ∧ e.val.y ≤ t.yBnd.2 - t.pads.y
  view : |e.val.x| < 1349 / 10000 ∧ |e.val.y| < 1349 / 10000

/-- The criteria by which the flashes of a tile are selected. -/
def tileCriteria (t : Tile) : Criteria := { x := some t.xBnd, y := some t.yBnd }

/-- C70: all flashes with an event in the tile contribute to it. -/
def C70_full : Prop := ∀ (order : List Int → List Int) (d d' : GFile) (xBnd yBnd : Rat × Rat)
  (dx dy : Rat) (s : Nat) (ts : List Tile) (t : Tile), (∀ l, (order l).Perm l) → HasData d →
  Derived d → UniqueIds d.flashes → UniqueIds d.groups →
  subdividedFixedGrid xBnd yBnd dx dy s defaultPad defaultPad = .ok ts → t ∈ ts →
  subsetFlashes order d (tileCriteria t) true = .ok d' →
  ∀ f ∈ d.flashes, (∃ e ∈ d.events, EventOfFlash d f.id e ∧ InTile t e) → f ∈ d'.flashes

/-- C70, the part that holds: the flash is selected, with all its events, if its centroid is closer
to the event than the padding.  Missing: flashes whose centroid is further away. -/
theorem C70_partial {d : GFile} {order : List Int → List Int} (ho : ∀ l, (order l).Perm l)
    (h : HasData d) (hd : Derived d) (huf : UniqueIds d.flashes) (hug : UniqueIds d.groups)
    (t : Tile) :
    ∃ d', subsetFlashes order d (tileCriteria t) true = .ok d' ∧
      ∀ f ∈ d.flashes, ∀ e ∈ d.events, EventOfFlash d f.id e → InTile t e →
        |f.val.x - e.val.x| < t.pads.x → |f.val.y - e.val.y| < t.pads.y →
        f ∈ d'.flashes ∧ ∀ e' ∈ d.events, EventOfFlash d f.id e' → e' ∈ d'.events := by
  obtain ⟨d', h1, h2, h3, h4⟩ := C13_subset_flashes ho (tileCriteria t) h hd huf hug
  refine ⟨d', h1, ?_⟩
  intro f hf e he hfe hin hx hy
  rw [abs_lt] at hx hy
  obtain ⟨⟨a1, a2⟩, ⟨b1, b2⟩, c1, c2⟩ := hin
  rw [abs_lt] at c1 c2
  have hmem : f ∈ d'.flashes := by
    rw [h2.mem_iff]
    simp only [List.mem_filter, decide_eq_true_eq]
    refine ⟨hf, ⟨?_, ?_, ?_, ?_, ?_, ?_⟩, e, he, hfe, c1, c2, ?_, ?_⟩
    · intro r hr; cases hr
    · intro r hr; cases hr
    · intro r hr; cases hr; exact ⟨by linarith, by linarith⟩
    · intro r hr; cases hr; exact ⟨by linarith, by linarith⟩
    · intro r hr; cases hr
    · intro r hr; cases hr
    · intro r hr; cases hr; exact ⟨by linarith, by linarith⟩
    · intro r hr; cases hr; exact ⟨by linarith, by linarith⟩
  refine ⟨hmem, ?_⟩
  intro e' he' hfe'
  rw [h4.mem_iff]
  simp only [List.mem_filter, decide_eq_true_eq]
  exact ⟨he', f, hmem, hfe'⟩

/-- C70, exactly: a flash with an event in the tile is selected if and only if its centroid is in the tile with its
padding. -/
theorem C70_iff {d : GFile} {order : List Int → List Int} (ho : ∀ l, (order l).Perm l)
    (h : HasData d) (hd : Derived d) (huf : UniqueIds d.flashes) (hug : UniqueIds d.groups)
    (t : Tile) (hp : 0 < t.pads.x ∧ 0 < t.pads.y) :
    ∃ d', subsetFlashes order d (tileCriteria t) true = .ok d' ∧
      ∀ f ∈ d.flashes, (∃ e ∈ d.events, EventOfFlash d f.id e ∧ InTile t e) →
        (f ∈ d'.flashes ↔ (t.xBnd.1 < f.val.x ∧ f.val.x < t.xBnd.2) ∧ t.yBnd.1 < f.val.y ∧ f.val.y < t.yBnd.2) := by
  obtain ⟨d', h1, h2, h3, h4⟩ := C13_subset_flashes ho (tileCriteria t) h hd huf hug
  refine ⟨d', h1, ?_⟩
  rintro f hf ⟨e, he, hfe, ⟨a1, a2⟩, ⟨b1, b2⟩, c1, c2⟩
  rw [abs_lt] at c1 c2
  rw [h2.mem_iff]
  simp only [List.mem_filter, decide_eq_true_eq]
  constructor
  · rintro ⟨-, hm, -⟩
    exact ⟨hm.x _ rfl, hm.y _ rfl⟩
  · rintro ⟨hx, hy⟩
    refine ⟨hf, ⟨?_, ?_, ?_, ?_, ?_, ?_⟩, e, he, hfe, c1, c2, ?_, ?_⟩
    · intro r hr; cases hr
    · intro r hr; cases hr
    · intro r hr; cases hr; exact hx
    · intro r hr; cases hr; exact hy
    · intro r hr; cases hr
    · intro r hr; cases hr
    · intro r hr; cases hr; exact ⟨by linarith, by linarith⟩
    · intro r hr; cases hr; exact ⟨by linarith, by linarith⟩

/-- A flash with two events far apart; its centroid lies between them. -/
def farFile : GFile where
  flashes := [⟨5, 0, { x := 11/1000, nGroups := 1, nEvents := 2 }⟩]
  groups := [⟨11, 5, { nEvents := 2 }⟩]
  events := [⟨100, 11, { x := 1/1000, flashOf := 5 }⟩, ⟨101, 11, { x := 21/1000, flashOf := 5 }⟩]

/-- A tile of four by four boxes. -/
def farTile : Tile := ⟨(0, 0), (-2/1000, 6/1000), (-4/1000, 4/1000), ⟨2, 2, 2/1000, 2/1000⟩⟩

/-- C70 is violated: the centroid of the flash is outside of the padded tile. -/
theorem C70_full_false : ¬ C70_full := by
  intro h
  have hd : Derived farFile := by
    refine ⟨?_, ?_, ?_, ?_⟩
    · decide
    · decide
    · decide
    · decide
  have h1 := h id farFile ⟨[], [], []⟩ (0, 4/1000) (-2/1000, 2/1000) (1/1000) (1/1000) 1 [farTile]
    farTile (fun _ => List.Perm.refl _) (by unfold HasData; decide) hd (by unfold UniqueIds; decide)
    (by unfold UniqueIds; decide) (by decide +kernel) (by simp) (by decide +kernel)
    ⟨5, 0, { x := 11/1000, nGroups := 1, nEvents := 2 }⟩ (List.mem_singleton.mpr rfl)
    ⟨⟨100, 11, { x := 1/1000, flashOf := 5 }⟩, List.mem_cons_self, by decide,
      ⟨by decide +kernel, by decide +kernel⟩, ⟨by decide +kernel, by decide +kernel⟩,
      by norm_num [abs_lt], by norm_num [abs_lt]⟩
  exact absurd h1 (List.not_mem_nil)

/-- The hypotheses of the part that holds: the event is in the larger tile and within the padding of
the centroid. -/
example : ∃ f ∈ farFile.flashes, ∃ e ∈ farFile.events, EventOfFlash farFile f.id e ∧
    InTile ⟨(0, 0), (-30/1000, 30/1000), (-30/1000, 30/1000), ⟨12, 12, 12/1000, 12/1000⟩⟩ e ∧
    |f.val.x - e.val.x| < 12/1000 ∧ |f.val.y - e.val.y| < 12/1000 := by
  refine ⟨_, List.mem_singleton.mpr rfl, _, List.mem_cons_self, by decide,
    ⟨⟨by decide +kernel, by decide +kernel⟩, ⟨by decide +kernel, by decide +kernel⟩,
      by norm_num [abs_lt], by norm_num [abs_lt]⟩, by norm_num [abs_lt], by norm_num [abs_lt]⟩

end Verif.Props
