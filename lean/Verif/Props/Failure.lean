import Verif.Model.Writing
import Verif.Props.Whole

/-!
# C138: calls that fail

A gridding call that ends with an exception has written no image.  It is not so: the tiles are written one by one, and
an exception for a later tile leaves the images of the earlier ones behind.  What holds is that the images left behind
are those of an initial segment of the tiles, and that the usual reasons to fail leave nothing behind.
-/

namespace Verif.Props

open Verif.Py Verif.Model Verif.Spec Verif.Proofs

variable {σ ι : Type}

/-- C138: a call that ends with an exception has written nothing. -/
def C138_full : Prop := ∀ (env : Surroundings) (files : List GFile) (kwargs shared : Dict),
  (callTrace (lutGridder env) files kwargs shared).2 ≠ none → (callTrace (lutGridder env) files kwargs shared).1 = []

/-- One event, in the last two of the four tiles of `wholeCall` and their padding. -/
def strayFile : GFile where
  flashes := [⟨5, 0, { x := 5/1000, y := 1/1000, area := 100, nGroups := 1, nEvents := 2 }⟩]
  groups := [⟨11, 5, { x := 5/1000, y := 1/1000, nEvents := 2 }⟩]
  events := [⟨100, 11, { x := 5/1000, y := 1/1000, energy := 1, flashOf := 5 }⟩]

/-- Corners of pixels that lie to the right of the position of the event, beyond the tiles. -/
def strayEnv : Surroundings :=
  { wholeEnv with foot := fun p => rect (p.1 + 3/1000) (p.1 + 4/1000) p.2 (p.2 + 1/1000) }

/-- What the call does: two images are written, then it fails. -/
def strayTrace : List String × Option Err :=
  ((callTrace (lutGridder strayEnv) [strayFile] wholeCall []).1.map Prod.fst,
    (callTrace (lutGridder strayEnv) [strayFile] wholeCall []).2)

theorem stray_trace : strayTrace = (["image.nc", "image.nc"], some .valueError) := by decide +kernel

theorem C138_full_false : ¬ C138_full := by
  intro h
  have h2 : (callTrace (lutGridder strayEnv) [strayFile] wholeCall []).2 = some .valueError := congrArg Prod.snd stray_trace
  have h1 : (callTrace (lutGridder strayEnv) [strayFile] wholeCall []).1.map Prod.fst = ["image.nc", "image.nc"] :=
    congrArg Prod.fst stray_trace
  rw [h strayEnv [strayFile] wholeCall [] (by rw [h2]; exact nofun)] at h1
  cases h1

/-! ### What has been written when a call ends -/

theorem procTrace_ok {G : Gridder σ ι} {files : List GFile} {gs : List Subgrid} :
    ∀ {shared shared' : Dict} {runs : List (TileRun σ ι)}, procAll G files shared gs = .ok (runs, shared') →
      procTrace G files shared gs = (runs.flatMap fun r => r.written, none) := by
  induction gs with
  | nil => intro _ _ _ h; cases h; rfl
  | cons g rest ih =>
    intro shared shared' runs h
    obtain ⟨r, sh, rs, h1, h2, rfl⟩ := procAll_cons_ok h
    rw [procTrace, h1]
    simp only [ih h2, List.flatMap_cons]

theorem procTrace_error {G : Gridder σ ι} {files : List GFile} {gs : List Subgrid} {e : Err} :
    ∀ {shared : Dict}, procAll G files shared gs = .error e →
      ∃ before g after runs sh, gs = before ++ g :: after ∧ procAll G files shared before = .ok (runs, sh) ∧
        procEachGrid G files sh g = .error e ∧
        procTrace G files shared gs = (runs.flatMap fun r => r.written, some e) := by
  induction gs with
  | nil => intro _ h; cases h
  | cons g rest ih =>
    intro shared h
    rw [procAll] at h
    simp only [bind, Except.bind] at h
    cases h1 : procEachGrid G files shared g with
    | error e' =>
      rw [h1] at h
      cases h
      refine ⟨[], g, rest, [], shared, rfl, rfl, h1, ?_⟩
      rw [procTrace, h1]
      rfl
    | ok v =>
      obtain ⟨r, sh⟩ := v
      rw [h1] at h
      simp only at h
      cases h2 : procAll G files sh rest with
      | ok w => rw [h2] at h; cases h
      | error e' =>
        rw [h2] at h
        cases h
        obtain ⟨before, g', after, runs, sh', rfl, hb, hg, ht⟩ := ih h2
        refine ⟨g :: before, g', after, r :: runs, sh', rfl, ?_, hg, ?_⟩
        · rw [procAll, h1]
          simp only [bind, Except.bind, hb]
          rfl
        · rw [procTrace, h1]
          simp only [ht, List.flatMap_cons]

/-- C138: a call that returns has written the images of all tiles, in the order of the tiles. -/
theorem C138_partial_success (G : Gridder σ ι) (files : List GFile) (kw shared shared' : Dict) (runs : List (TileRun σ ι))
    (h : gridGlmFlashes G files kw shared = .ok (runs, shared')) :
    callTrace G files kw shared = (runs.flatMap fun r => r.written, none) := by
  obtain ⟨gs, hgs, hall⟩ := gridGlm_ok h
  unfold callTrace
  rw [hgs]
  exact procTrace_ok hall

/-- C138: a call that fails ends with that exception; it has failed before the first tile and written nothing, or it has
written the images of the tiles before the one for which it fails, and of no others. -/
theorem C138_partial_prefix (G : Gridder σ ι) (files : List GFile) (kw shared : Dict) (e : Err)
    (h : gridGlmFlashes G files kw shared = .error e) :
    (callTrace G files kw shared).2 = some e ∧
    ((callTrace G files kw shared).1 = [] ∨
      ∃ before g after runs sh, subgridsFor (splitKwargs kw) = .ok (before ++ g :: after) ∧
        procAll G files shared before = .ok (runs, sh) ∧ procEachGrid G files sh g = .error e ∧
        (callTrace G files kw shared).1 = runs.flatMap fun r => r.written) := by
  unfold gridGlmFlashes at h
  unfold callTrace
  simp only [bind, Except.bind] at h
  cases hgs : subgridsFor (splitKwargs kw) with
  | error e' => rw [hgs] at h; cases h; exact ⟨rfl, Or.inl rfl⟩
  | ok gs =>
    rw [hgs] at h
    obtain ⟨before, g, after, runs, sh, rfl, hb, hg, ht⟩ := procTrace_error h
    simp only [ht]
    exact ⟨trivial, Or.inr ⟨before, g, after, runs, sh, rfl, hb, hg, rfl⟩⟩

/-- The trace and the call agree on failure. -/
theorem callTrace_fails (G : Gridder σ ι) (files : List GFile) (kw shared : Dict) :
    (callTrace G files kw shared).2 ≠ none ↔ ∃ e, gridGlmFlashes G files kw shared = .error e := by
  cases h : gridGlmFlashes G files kw shared with
  | error e => simp [(C138_partial_prefix G files kw shared e h).1]
  | ok v => obtain ⟨runs, sh⟩ := v; simp [C138_partial_success G files kw shared sh runs h]

/-! ### Reasons to fail that leave nothing behind -/

theorem procTrace_nothing {G : Gridder σ ι} {files : List GFile} {gs : List Subgrid} (shared : Dict)
    (h : ∀ g ∈ gs, ∀ sh r sh', procEachGrid G files sh g ≠ .ok (r, sh')) : (procTrace G files shared gs).1 = [] := by
  cases gs with
  | nil => rfl
  | cons g rest =>
    rw [procTrace]
    cases h1 : procEachGrid G files shared g with
    | error e => rfl
    | ok v => exact absurd h1 (h g List.mem_cons_self shared v.1 v.2)

theorem callTrace_nothing {G : Gridder σ ι} {files : List GFile} {kw : Dict} (shared : Dict)
    (h : ∀ gs, subgridsFor (splitKwargs kw) = .ok gs → ∀ g ∈ gs, ∀ sh r sh', procEachGrid G files sh g ≠ .ok (r, sh')) :
    (callTrace G files kw shared).1 = [] := by
  unfold callTrace
  cases hgs : subgridsFor (splitKwargs kw) with
  | error e => rfl
  | ok gs => exact procTrace_nothing shared (h gs hgs)

theorem processFiles_opened {G : Gridder σ ι} {rev : Val} {proc : Dict} {files : List GFile} :
    ∀ {s t : σ × Bool}, processFiles G rev proc s files = .ok t →
      (∀ f ∈ files, ∃ d, G.openFile rev f = .ok d) ∧
      (t.2 = true → s.2 = true ∨ ∃ f ∈ files, ∃ d, G.openFile rev f = .ok d ∧ d.events ≠ []) := by
  induction files with
  | nil => intro s t h; cases h; exact ⟨fun _ h => absurd h List.not_mem_nil, Or.inl⟩
  | cons f rest ih =>
    rintro ⟨s, b⟩ t h
    rw [processFiles] at h
    simp only [bind, Except.bind] at h
    cases hd : G.openFile rev f with
    | error e => rw [hd] at h; cases h
    | ok d =>
      rw [hd] at h
      simp only at h
      by_cases hl : d.events.length > 0
      · rw [if_pos hl] at h
        cases hp : G.process s proc d with
        | error e => rw [hp] at h; cases h
        | ok s' =>
          rw [hp] at h
          obtain ⟨h1, -⟩ := ih h
          refine ⟨fun f' hf' => ?_, fun _ => Or.inr ⟨f, List.mem_cons_self, d, hd, fun h0 => ?_⟩⟩
          · rcases List.mem_cons.mp hf' with rfl | hf'
            · exact ⟨d, hd⟩
            · exact h1 f' hf'
          · rw [h0] at hl; exact absurd hl (by simp)
      · rw [if_neg hl] at h
        obtain ⟨h1, h2⟩ := ih h
        refine ⟨fun f' hf' => ?_, fun ht => ?_⟩
        · rcases List.mem_cons.mp hf' with rfl | hf'
          · exact ⟨d, hd⟩
          · exact h1 f' hf'
        · rcases h2 ht with hb | ⟨f', hf', d', hd', hne⟩
          · exact Or.inl hb
          · exact Or.inr ⟨f', List.mem_cons_of_mem _ hf', d', hd', hne⟩

/-- C138: a file that cannot be opened leaves nothing behind, whichever file it is and however many tiles there are. -/
theorem C138_partial_unreadable (G : Gridder σ ι) (files : List GFile) (kw shared : Dict) (f : GFile) (hf : f ∈ files)
    (hbad : ∀ rev d, G.openFile rev f ≠ .ok d) : (callTrace G files kw shared).1 = [] := by
  refine callTrace_nothing shared fun gs _ g _ sh r sh' h => ?_
  obtain ⟨rev, -, hp⟩ := procEachGrid_state h
  obtain ⟨d, hd⟩ := (processFiles_opened hp).1 f hf
  exact hbad rev d hd

/-- C138: if no file has events, nothing is left behind. -/
theorem C138_partial_no_events (G : Gridder σ ι) (files : List GFile) (kw shared : Dict)
    (hnone : ∀ f ∈ files, ∀ rev d, G.openFile rev f = .ok d → d.events = []) : (callTrace G files kw shared).1 = [] := by
  refine callTrace_nothing shared fun gs _ g _ sh r sh' h => ?_
  obtain ⟨rev, -, hp⟩ := procEachGrid_state h
  rcases (processFiles_opened hp).2 rfl with h0 | ⟨f, hf, d, hd, hne⟩
  · cases h0
  · exact hne (hnone f hf rev d hd)

/-- C138: without the option `clip_events` or `ellipse_rev` nothing is left behind. -/
theorem C138_partial_options (G : Gridder σ ι) (files : List GFile) (kw shared : Dict)
    (h : kw.has "clip_events" = false ∨ kw.has "ellipse_rev" = false) : (callTrace G files kw shared).1 = [] := by
  refine callTrace_nothing shared fun gs hgs g hg sh r sh' hr => ?_
  obtain ⟨-, hc, he, -⟩ := subgrids_common hgs g hg
  obtain ⟨-, -, h1, h2, -⟩ := procEachGrid_ok hr
  rcases h with h | h
  · rw [hc, h] at h1; cases h1
  · rw [Dict.has_congr he, h] at h2; cases h2

theorem subgrids_one {kw : Dict} {gs : List Subgrid} (h : subgridsFor (splitKwargs kw) = .ok gs)
    (hone : ¬ FixedGridCall kw ∨ kw.get "subdivide" = .error .keyError ∨ kw.get "subdivide" = .ok (.nat 1)) :
    gs.length = 1 := by
  have hk : (splitKwargs kw).kwargs.get "proj_name" = kw.get "proj_name" :=
    split_kwargs kw _ (by decide) (by decide) (by decide) (by decide) (by decide)
  have hf : (splitKwargs kw).proc.has "fixed_grid" = kw.has "fixed_grid" :=
    Dict.has_congr (split_proc kw _ (by decide))
  unfold subgridsFor at h
  rw [hk] at h
  simp only [bind, Except.bind] at h
  cases hp : kw.get "proj_name" with
  | error e => rw [hp] at h; cases h
  | ok p =>
    rw [hp] at h
    simp only at h
    by_cases hl : p = .str "latlong"
    · rw [if_pos hl] at h
      cases hx : (splitKwargs kw).kwargs.get "x_bnd" with
      | error e => rw [hx] at h; cases h
      | ok x =>
        cases hy : (splitKwargs kw).kwargs.get "y_bnd" with
        | error e => rw [hx, hy] at h; cases h
        | ok y => rw [hx, hy] at h; cases h; rfl
    · rw [if_neg hl] at h
      by_cases hfix : (splitKwargs kw).proc.has "fixed_grid" = true
      · rw [if_pos hfix] at h
        have hsub : (splitKwargs kw).subdivide = .nat 1 := by
          rw [split_subdivide]
          rcases hone with h0 | h0 | h0
          · refine absurd ⟨?_, hf ▸ hfix⟩ h0
            rw [hp]; rintro ⟨⟩; exact hl rfl
          · exact optionOr_error h0
          · exact optionOr_ok h0
        rw [hsub] at h
        simp only [Val.asNat] at h
        unfold subdividedOptions at h
        obtain ⟨v1, -, h⟩ := bind_ok h
        obtain ⟨v2, -, h⟩ := bind_ok h
        obtain ⟨v3, -, h⟩ := bind_ok h
        obtain ⟨v4, -, h⟩ := bind_ok h
        obtain ⟨v5, -, h⟩ := bind_ok h
        obtain ⟨v6, -, h⟩ := bind_ok h
        obtain ⟨v7, -, h⟩ := bind_ok h
        obtain ⟨v8, -, h⟩ := bind_ok h
        obtain ⟨tiles, ht, h⟩ := bind_ok h
        obtain ⟨nadir, -, h⟩ := bind_ok h
        unfold subdividedFixedGrid at ht
        obtain ⟨w1, -, ht⟩ := bind_ok ht
        obtain ⟨w2, -, ht⟩ := bind_ok ht
        obtain ⟨w3, -, ht⟩ := bind_ok ht
        cases ht
        exact (mapM_ok_forall₂ h).length_eq.symm
      · rw [if_neg hfix] at h
        cases h
        rfl

/-- C138: a call for one tile that fails has written nothing. -/
theorem C138_partial_one_tile (G : Gridder σ ι) (files : List GFile) (kw shared : Dict)
    (hone : ¬ FixedGridCall kw ∨ kw.get "subdivide" = .error .keyError ∨ kw.get "subdivide" = .ok (.nat 1))
    (hfail : (callTrace G files kw shared).2 ≠ none) : (callTrace G files kw shared).1 = [] := by
  unfold callTrace at hfail ⊢
  cases hgs : subgridsFor (splitKwargs kw) with
  | error e => rfl
  | ok gs =>
    obtain ⟨g, rfl⟩ := List.length_eq_one_iff.mp (subgrids_one hgs hone)
    rw [hgs] at hfail
    simp only [procTrace] at hfail ⊢
    cases h1 : procEachGrid G files shared g with
    | error e => rfl
    | ok v => rw [h1] at hfail; exact absurd rfl hfail

/-- C138: for files like those of C137, with corners of pixels around the position of the event, no call fails. -/
theorem C138_partial_centred (env : Surroundings) (kw shared : Dict) (xlo ylo dx dy : Rat) (M N s : Nat) (me mg : Option Int)
    (files opened : List GFile) (hkw : FixedGridAsked kw xlo ylo dx dy M N s me mg) (hdx : 0 < dx) (hdy : 0 < dy)
    (hs : 0 < s) (hM : 2 * s ≤ M) (hN : s ≤ N) (hpx : 2 * dx ≤ 28 / 10000) (hpy : 2 * dy ≤ 28 / 10000)
    (hedges : MakesEdges env.edges) (hclip : ∀ p q s, s ∈ env.clip p q → s ≠ [])
    (hbeside : ∀ x y p i j, Beside x y p i j → env.clip p (cellRect x y j i) = []) (horder : ∀ l, (env.order l).Perm l)
    (hopen : ∀ rev, kw.get "ellipse_rev" = .ok rev → List.Forall₂ (fun f d => env.openFile rev f = .ok d) files opened)
    (hsome : ∃ d ∈ opened, d.events ≠ [])
    (hcompact : ∀ d ∈ opened, d.events ≠ [] →
      CompactFile env.foot env.loc dx dy (padBoxes (28 / 10000) dx * dx) (padBoxes (28 / 10000) dy * dy) d)
    (hcentred : ∀ d ∈ opened, ∀ e ∈ d.events, CentredAt env.clip env.foot dx dy (placeOf e)) :
    (callTrace (lutGridder env) files kw shared).2 = none ∧
      (callTrace (lutGridder env) files kw shared).1.length = s * s := by
  obtain ⟨runs, sh, h, hij, hw, -⟩ := C137_end_to_end env kw shared xlo ylo dx dy M N s me mg files opened hkw hdx hdy hs hM
    hN hpx hpy hedges hclip hbeside horder hopen hsome hcompact hcentred
  rw [C138_partial_success _ _ _ _ _ _ h]
  refine ⟨rfl, ?_⟩
  have hlen : runs.length = s * s := by
    have := congrArg List.length hij
    simpa using this
  rw [List.length_flatMap, ← hlen]
  have : ∀ l : List (TileRun TileState ImageFile), (∀ r ∈ l, ∃ f : ImageFile, r.written = [(f.name, f)]) →
      (l.map fun r => r.written.length).sum = l.length := by
    intro l
    induction l with
    | nil => intro; rfl
    | cons r l ih =>
      intro hl
      obtain ⟨f, hf⟩ := hl r List.mem_cons_self
      simp only [List.map_cons, List.sum_cons, List.length_cons, hf, List.length_nil,
        ih fun r hr => hl r (List.mem_cons_of_mem _ hr)]
      omega
  exact this runs fun r hr => (hw r hr).imp fun f hf => hf.1

/-! ### Samples -/

/-- The sample of C137 is written in full. -/
def wholeTrace : Nat × Option Err :=
  ((callTrace (lutGridder wholeEnv) [noFlashes, wholeSample] wholeCall []).1.length,
    (callTrace (lutGridder wholeEnv) [noFlashes, wholeSample] wholeCall []).2)

example : wholeTrace = (4, none) := by decide +kernel

/-- Files without events cannot be opened. -/
def brokenEnv : Surroundings :=
  { wholeEnv with openFile := fun _ d => if d.events.isEmpty then .error .valueError else .ok d }

/-- A last file that cannot be opened: the hypothesis of `C138_partial_unreadable`, and the call does fail. -/
example : (∀ rev d, (lutGridder brokenEnv).openFile rev noFlashes ≠ .ok d) ∧
    (callTrace (lutGridder brokenEnv) [wholeSample, noFlashes] wholeCall []).2 = some .valueError :=
  ⟨fun _ _ h => (by cases h), by decide +kernel⟩

example : (callTrace (lutGridder wholeEnv) [noFlashes, noFlashes] wholeCall []).2 = some .attributeError := by decide +kernel

example : (callTrace (lutGridder wholeEnv) [wholeSample] (wholeCall.del "clip_events") []).2 ≠ none := by decide +kernel

/-- A failing call for one tile. -/
example : (callTrace (lutGridder strayEnv) [strayFile] (wholeCall.del "subdivide") []).2 = some .valueError := by
  decide +kernel

end Verif.Props
