import Verif.Proofs.Dict
import Verif.Props.Lut
import Verif.Props.Tiles

/-!
# C49, C50, C70-C73: the options of `grid_GLM_flashes`
-/

namespace Verif.Props

open Verif.Py Verif.Model Verif.Spec Verif.Proofs

variable {σ ι : Type}

/-! ## Where the options go -/

attribute [local irreducible] moveKeys Dict.put Dict.popD Dict.get Dict.has

theorem split_proc (kw : Dict) (k : String) (hk : k ∈ procKeys) :
    (splitKwargs kw).proc.get k = kw.get k := by
  have hne : k ≠ "do_3d" ∧ k ≠ "subdivide" := by
    constructor <;> (rintro rfl; revert hk; decide)
  show (moveKeys procKeys [] ((kw.put "do_3d" (.bool false)).popD "subdivide" (.nat 1)).2).1.get k = _
  rw [(moveKeys_get _ _ _ _).1]
  have e : ((kw.put "do_3d" (.bool false)).popD "subdivide" (.nat 1)).2.get k = kw.get k := by
    rw [Dict.popD_get, if_neg hne.2, Dict.get_put_ne _ _ hne.1]
  split
  · exact e
  · rename_i h
    have : ((kw.put "do_3d" (.bool false)).popD "subdivide" (.nat 1)).2.has k = false := by
      simpa [hk] using h
    rw [(Dict.not_has_iff _ _).mp this] at e
    rw [← e]
    exact Dict.get_nil k

theorem split_kwargs_aux (kw : Dict) (k : String) (hk : k ∉ procKeys) (h1 : k ≠ "do_3d")
    (h2 : k ≠ "subdivide") (h3 : k ≠ "event_grid_area_fraction_key") :
    (let m := moveKeys procKeys [] ((kw.put "do_3d" (.bool false)).popD "subdivide" (.nat 1)).2
     if m.1.has "clip_events" then m.2.put "event_grid_area_fraction_key" (.str "mesh_frac")
     else m.2).get k = kw.get k := by
  have e : (moveKeys procKeys [] ((kw.put "do_3d" (.bool false)).popD "subdivide" (.nat 1)).2).2.get k =
      kw.get k := by
    rw [(moveKeys_get _ _ _ _).2, if_neg hk, Dict.popD_get, if_neg h2, Dict.get_put_ne _ _ h1]
  simp only
  split
  · rw [Dict.get_put_ne _ _ h3, e]
  · exact e

theorem split_out (kw : Dict) (k : String) (hk : k ∈ outKeys) :
    (splitKwargs kw).out.get k = kw.get k := by
  have hne : k ∉ procKeys ∧ k ≠ "do_3d" ∧ k ≠ "subdivide" ∧ k ≠ "event_grid_area_fraction_key" := by
    simp only [outKeys, List.mem_cons, List.not_mem_nil, or_false] at hk
    rcases hk with rfl | rfl | rfl | rfl | rfl <;> decide
  have e := split_kwargs_aux kw k hne.1 hne.2.1 hne.2.2.1 hne.2.2.2
  have key : ∀ D : Dict, D.get k = kw.get k → (moveKeys outKeys [] D).1.get k = kw.get k := by
    intro D hD
    rw [(moveKeys_get _ _ _ _).1]
    by_cases h : D.has k = true
    · rw [if_pos ⟨hk, h⟩, hD]
    · rw [if_neg fun hh => h hh.2, Dict.get_nil, ← hD,
        (Dict.not_has_iff D k).mp (Bool.eq_false_iff.mpr h)]
  exact key _ e

theorem split_kwargs (kw : Dict) (k : String) (hk : k ∉ procKeys) (ho : k ∉ outKeys)
    (h1 : k ≠ "do_3d") (h2 : k ≠ "subdivide") (h3 : k ≠ "event_grid_area_fraction_key") :
    (splitKwargs kw).kwargs.get k = kw.get k := by
  refine Eq.trans (moveKeys_get outKeys [] _ k).2 ?_
  rw [if_neg ho]
  exact split_kwargs_aux kw k hk h1 h2 h3

theorem split_subdivide (kw : Dict) :
    (splitKwargs kw).subdivide = optionOr kw "subdivide" (.nat 1) := by
  show ((kw.put "do_3d" (.bool false)).popD "subdivide" (.nat 1)).1 = _
  rw [Dict.popD_eq]
  exact optionOr_congr (Dict.get_put_ne _ _ (by decide))

/-- What `write_grids` does with its options. -/
theorem writeGrids_ok (G : Gridder σ ι) (s : σ) (out options : Dict) :
    ∃ options', writeGrids G s true out options = (do
      let files ← G.write s out (optionOr options "pad" .none) (optionOr options "scale_and_offset" (.bool true))
      .ok ((optionOr options "pad" .none, optionOr options "scale_and_offset" (.bool true), files), options')) ∧
      ∀ k, options'.get k =
        if k = "pad" ∨ k = "scale_and_offset" then .error .keyError else options.get k := by
  refine ⟨((options.popD "pad" .none).2.popD "scale_and_offset" (.bool true)).2, ?_, ?_⟩
  · have h1 : (options.popD "pad" .none).1 = optionOr options "pad" .none := Dict.popD_eq _ _ _
    have h2 : ((options.popD "pad" .none).2.popD "scale_and_offset" (.bool true)).1 =
        optionOr options "scale_and_offset" (.bool true) := by
      rw [Dict.popD_eq]
      exact optionOr_congr (by rw [Dict.popD_get, if_neg (by decide)])
    rw [← h1, ← h2]
    rfl
  · intro k
    rw [Dict.popD_get, Dict.popD_get]
    by_cases h1 : k = "scale_and_offset"
    · simp [h1]
    · by_cases h2 : k = "pad" <;> simp [h1, h2]

/-- A tile whose processing succeeded. -/
theorem procEachGrid_ok {G : Gridder σ ι} {files : List GFile} {shared shared' : Dict} {g : Subgrid}
    {r : TileRun σ ι} (h : procEachGrid G files shared g = .ok (r, shared')) :
    r.ij = g.ij ∧ r.lut = true ∧ g.proc.has "clip_events" = true ∧ g.proc.has "ellipse_rev" = true ∧
    r.pad = (match g.preprocess with
      | some p => .slices (getPadSlices p.1).1 (getPadSlices p.1).2
      | none => if g.out.has "output_kwargs" then optionOr shared "pad" .none else .none) ∧
    r.scale = (if g.out.has "output_kwargs" then optionOr shared "scale_and_offset" (.bool true)
      else .bool true) ∧
    G.write r.state g.out r.pad r.scale = .ok r.written ∧
    r.returned = (match g.preprocess with | some _ => [] | none => r.written.map Prod.fst) ∧
    (g.out.has "output_kwargs" = false → shared' = shared) ∧
    (g.out.has "output_kwargs" = true → ∀ k, shared'.get k =
      if k = "pad" ∨ k = "scale_and_offset" then .error .keyError else shared.get k) := by
  unfold procEachGrid at h
  cases he : g.proc.get "ellipse_rev" with
  | error e => rw [he] at h; cases h
  | ok rev =>
    have hrev := (Dict.has_iff _ _).mpr ⟨rev, he⟩
    cases hl : (g.proc.del "ellipse_rev").has "clip_events" with
    | false => rw [he] at h; simp only [bind, Except.bind, hl] at h; cases h
    | true =>
      have hcl : g.proc.has "clip_events" = true := by
        rw [← hl]; exact Dict.has_congr (Dict.get_del_ne _ (by decide)).symm
      rw [he] at h
      simp only [bind, Except.bind, hl, if_true] at h
      cases hp : processFiles G rev ((g.proc.del "ellipse_rev").put "clip_events" .mesh)
          (G.init g.kwargs, false) files with
      | error e => rw [hp] at h; simp only [lutPipelineSetup] at h; cases h
      | ok sf =>
        obtain ⟨s, first⟩ := sf
        rw [hp] at h
        have hlut : ∃ o, lutPipelineSetup = .ok o := ⟨_, rfl⟩
        obtain ⟨o, ho⟩ := hlut
        rw [ho] at h
        simp only at h
        cases first with
        | false =>
          cases hpre : g.preprocess with
          | none => rw [hpre] at h; simp [writeGrids] at h
          | some p => rw [hpre] at h; simp [writeGrids] at h
        | true =>
          cases hpre : g.preprocess with
          | none =>
            rw [hpre] at h
            obtain ⟨o', e1, e2⟩ := writeGrids_ok G s g.out
              (if g.out.has "output_kwargs" = true then shared else [])
            rw [e1] at h
            cases hwr : G.write s g.out _ _ with
            | error e => rw [hwr] at h; cases h
            | ok written =>
            rw [hwr] at h
            simp only [bind, Except.bind, pure, Except.pure, Except.ok.injEq, Prod.mk.injEq] at h
            obtain ⟨rfl, rfl⟩ := h
            refine ⟨rfl, rfl, hcl, hrev, ?_, ?_, hwr, rfl, ?_, ?_⟩
            · cases g.out.has "output_kwargs"
              · exact optionOr_error (Dict.get_nil _)
              · rfl
            · cases g.out.has "output_kwargs"
              · exact optionOr_error (Dict.get_nil _)
              · rfl
            · intro hb; rw [hb]; rfl
            · intro hb k; rw [hb] at e2 ⊢; exact e2 k
          | some p =>
            rw [hpre] at h
            obtain ⟨o', e1, e2⟩ := writeGrids_ok G s g.out
              ((if g.out.has "output_kwargs" = true then shared else []).put "pad"
                (.slices (getPadSlices p.1).1 (getPadSlices p.1).2))
            simp only at h
            rw [e1] at h
            cases hwr : G.write s g.out _ _ with
            | error e => rw [hwr] at h; cases h
            | ok written =>
            rw [hwr] at h
            simp only [bind, Except.bind, pure, Except.pure, Except.ok.injEq, Prod.mk.injEq] at h
            obtain ⟨rfl, rfl⟩ := h
            refine ⟨rfl, rfl, hcl, hrev, ?_, ?_, hwr, rfl, ?_, ?_⟩
            · exact optionOr_ok (Dict.get_put_same _ _ _)
            · have : ∀ D : Dict, optionOr (D.put "pad" (.slices (getPadSlices p.1).1 (getPadSlices p.1).2))
                  "scale_and_offset" (.bool true) = optionOr D "scale_and_offset" (.bool true) :=
                fun D => optionOr_congr (Dict.get_put_ne _ _ (by decide))
              show optionOr _ _ _ = _
              rw [this]
              cases g.out.has "output_kwargs"
              · exact optionOr_error (Dict.get_nil _)
              · rfl
            · intro hb; rw [hb]; rfl
            · intro hb k
              rw [hb] at e2 ⊢
              refine (e2 k).trans ?_
              split
              · rfl
              · rename_i hk
                exact Dict.get_put_ne _ _ fun h => hk (Or.inl h)

/-- Is the target a padded tile of the fixed grid? -/
def FixedGridCall (kw : Dict) : Prop :=
  kw.get "proj_name" ≠ .ok (.str "latlong") ∧ kw.has "fixed_grid" = true

theorem mapM_ok_mem {α β : Type} {f : α → Except Err β} {l : List α} {r : List β}
    (h : l.mapM f = .ok r) {b : β} (hb : b ∈ r) : ∃ a ∈ l, f a = .ok b :=
  mem_of_forall₂_right (mapM_ok_forall₂ h) hb

theorem subdividedOptions_mapM {kwargs proc out : Dict} {s : Nat} {gs : List Subgrid}
    (h : subdividedOptions kwargs proc out s = .ok gs) :
    ∃ tiles : List Tile, tiles.mapM (tileOptions kwargs proc out) = .ok gs := by
  unfold subdividedOptions at h
  simp only [bind, Except.bind] at h
  repeat' (split at h)
  all_goals first | exact ⟨_, h⟩ | cases h

theorem tileOptions_ok {kwargs proc out : Dict} {t : Tile} {g : Subgrid}
    (h : tileOptions kwargs proc out t = .ok g) :
    (∀ k, k ≠ "output_filename_prefix" → k ≠ "output_writer" → g.out.get k = out.get k) ∧
    (∀ k, k ∉ ["x_bnd", "y_bnd", "lon_bnd", "lat_bnd"] → g.proc.get k = proc.get k) ∧
    (∃ p, g.preprocess = some p) ∧ g.ij = t.ij := by
  unfold tileOptions at h
  simp only [bind, Except.bind] at h
  split at h
  · cases h
  · split at h
    · cases h
    · cases h
      refine ⟨?_, ?_, ⟨_, rfl⟩, rfl⟩
      · intro k h1 h2
        show Dict.get (Dict.put _ _ _) k = _
        rw [Dict.get_put_ne _ _ h2, Dict.get_put_ne _ _ h1]
      · intro k hk
        simp only [List.mem_cons, List.not_mem_nil, or_false, not_or] at hk
        show Dict.get (Dict.put _ _ _) k = _
        rw [Dict.get_put_ne _ _ hk.2.2.2, Dict.get_put_ne _ _ hk.2.2.1, Dict.get_put_ne _ _ hk.2.1,
          Dict.get_put_ne _ _ hk.1]

/-- What all tiles have in common with the call. -/
theorem subgrids_common {kw : Dict} {gs : List Subgrid} (h : subgridsFor (splitKwargs kw) = .ok gs) :
    ∀ g ∈ gs, g.out.has "output_kwargs" = kw.has "output_kwargs" ∧
      g.proc.has "clip_events" = kw.has "clip_events" ∧
      g.proc.get "ellipse_rev" = kw.get "ellipse_rev" ∧
      (FixedGridCall kw → ∃ p, g.preprocess = some p) ∧ (¬ FixedGridCall kw → g.preprocess = none) := by
  have hk : (splitKwargs kw).kwargs.get "proj_name" = kw.get "proj_name" :=
    split_kwargs kw _ (by decide) (by decide) (by decide) (by decide) (by decide)
  have ho : (splitKwargs kw).out.has "output_kwargs" = kw.has "output_kwargs" :=
    Dict.has_congr (split_out kw _ (by decide))
  have hc : (splitKwargs kw).proc.get "clip_events" = kw.get "clip_events" :=
    split_proc kw _ (by decide)
  have he : (splitKwargs kw).proc.get "ellipse_rev" = kw.get "ellipse_rev" :=
    split_proc kw _ (by decide)
  have hf : (splitKwargs kw).proc.has "fixed_grid" = kw.has "fixed_grid" :=
    Dict.has_congr (split_proc kw _ (by decide))
  have put2 : ∀ (k a b : String) (v w : Val), k ≠ a → k ≠ b →
      (((splitKwargs kw).proc.put a v).put b w).get k = (splitKwargs kw).proc.get k := by
    intro k a b v w h1 h2
    rw [Dict.get_put_ne _ _ h2, Dict.get_put_ne _ _ h1]
  unfold subgridsFor at h
  rw [hk] at h
  cases hpn : kw.get "proj_name" with
  | error e => rw [hpn] at h; cases h
  | ok pn =>
    rw [hpn] at h
    simp only [bind, Except.bind] at h
    by_cases hl : pn = .str "latlong"
    · rw [if_pos hl] at h
      have hnf : ¬ FixedGridCall kw := fun hh => hh.1 (by rw [hpn, hl])
      cases hx : (splitKwargs kw).kwargs.get "x_bnd" with
      | error e => rw [hx] at h; cases h
      | ok x =>
        rw [hx] at h
        cases hy : (splitKwargs kw).kwargs.get "y_bnd" with
        | error e => rw [hy] at h; cases h
        | ok y =>
          rw [hy] at h
          simp only [pure, Except.pure, Except.ok.injEq] at h
          subst h
          intro g hg
          rw [List.mem_singleton] at hg
          subst hg
          refine ⟨ho, ?_, ?_, fun hh => absurd hh hnf, fun _ => rfl⟩
          · exact Dict.has_congr ((put2 _ _ _ _ _ (by decide) (by decide)).trans hc)
          · exact (put2 _ _ _ _ _ (by decide) (by decide)).trans he
    · rw [if_neg hl] at h
      cases hfx : kw.has "fixed_grid" with
      | false =>
        rw [hf, hfx] at h
        simp only [Bool.false_eq_true, if_false, pure, Except.pure, Except.ok.injEq] at h
        subst h
        have hnf : ¬ FixedGridCall kw := fun hh => by have := hh.2; rw [hfx] at this; cases this
        intro g hg
        rw [List.mem_singleton] at hg
        subst hg
        refine ⟨ho, ?_, ?_, fun hh => absurd hh hnf, fun _ => rfl⟩
        · exact Dict.has_congr ((put2 _ _ _ _ _ (by decide) (by decide)).trans hc)
        · exact (put2 _ _ _ _ _ (by decide) (by decide)).trans he
      | true =>
        rw [hf, hfx] at h
        simp only [if_true] at h
        have hyf : FixedGridCall kw := ⟨by rw [hpn]; intro hh; cases hh; exact hl rfl, hfx⟩
        cases hs : (splitKwargs kw).subdivide.asNat with
        | error e => rw [hs] at h; cases h
        | ok s =>
          rw [hs] at h
          obtain ⟨tiles, ht⟩ := subdividedOptions_mapM h
          intro g hg
          obtain ⟨t, -, hg⟩ := mapM_ok_mem ht hg
          obtain ⟨h1, h2, h3, -⟩ := tileOptions_ok hg
          refine ⟨?_, ?_, ?_, fun _ => ⟨_, h3.choose_spec⟩, fun hh => absurd hyf hh⟩
          · rw [← ho]
            exact Dict.has_congr (h1 _ (by decide) (by decide))
          · exact Dict.has_congr ((h2 _ (by decide)).trans hc)
          · exact (h2 _ (by decide)).trans he

theorem procAll_cons_ok {G : Gridder σ ι} {files : List GFile} {shared shared' : Dict} {g : Subgrid}
    {rest : List Subgrid} {runs : List (TileRun σ ι)}
    (h : procAll G files shared (g :: rest) = .ok (runs, shared')) :
    ∃ r sh rs, procEachGrid G files shared g = .ok (r, sh) ∧
      procAll G files sh rest = .ok (rs, shared') ∧ runs = r :: rs := by
  rw [procAll] at h
  simp only [bind, Except.bind] at h
  cases h1 : procEachGrid G files shared g with
  | error e => rw [h1] at h; cases h
  | ok v =>
    rw [h1] at h
    cases h2 : procAll G files v.2 rest with
    | error e => simp only [h2] at h; cases h
    | ok w =>
      simp only [h2] at h
      cases h
      exact ⟨v.1, v.2, w.1, rfl, h2, rfl⟩

/-- Every run of a list of tiles comes from a tile at the same position. -/
theorem procAll_forall₂ {G : Gridder σ ι} {files : List GFile} {gs : List Subgrid} :
    ∀ {shared shared' : Dict} {runs : List (TileRun σ ι)},
      procAll G files shared gs = .ok (runs, shared') →
      List.Forall₂ (fun (g : Subgrid) (r : TileRun σ ι) =>
        ∃ sh sh', procEachGrid G files sh g = .ok (r, sh')) gs runs := by
  induction gs with
  | nil => intro _ _ _ h; cases h; exact List.Forall₂.nil
  | cons g rest ih =>
    intro shared shared' runs h
    obtain ⟨r, sh, rs, h1, h2, rfl⟩ := procAll_cons_ok h
    exact List.Forall₂.cons ⟨_, _, h1⟩ (ih h2)

theorem gridGlm_ok {G : Gridder σ ι} {files : List GFile} {kw shared shared' : Dict}
    {runs : List (TileRun σ ι)} (h : gridGlmFlashes G files kw shared = .ok (runs, shared')) :
    ∃ gs, subgridsFor (splitKwargs kw) = .ok gs ∧ procAll G files shared gs = .ok (runs, shared') := by
  unfold gridGlmFlashes at h
  simp only [bind, Except.bind] at h
  split at h
  · cases h
  · rename_i gs hgs; exact ⟨gs, hgs, h⟩

/-! ### Sample call -/

/-- A gridder that counts events. -/
def toyGridder : Gridder Nat Nat where
  init := fun _ => 0
  openFile := fun _ d => openDataset id toyNav true true d
  process := fun s _ d => .ok (s + d.events.length)
  write := fun s _ _ _ => .ok [("image.nc", s)]

/-- A call for a fixed grid of four by four boxes in two by two tiles. -/
def sampleCall (clip : Bool) : Dict :=
  [("proj_name", .str "geos"), ("x_bnd", .bnd 0 1), ("y_bnd", .bnd 0 1), ("dx", .num (1/4)),
   ("dy", .num (1/4)), ("subdivide", .nat 2), ("clip_events", .bool clip), ("fixed_grid", .bool true),
   ("nadir_lon", .num (-75)), ("ellipse_rev", .nat 1), ("output_writer", .function "write"),
   ("output_filename_prefix", .str "GLM"), ("output_kwargs", .shared)]

/-- What is looked at below. -/
structure RunView where
  ij : Nat × Nat
  lut : Bool
  scale : Val
  written : List (String × Nat)
  returned : List String
  deriving DecidableEq

/-- The same. -/
def TileRun.view (t : TileRun Nat Nat) : RunView := ⟨t.ij, t.lut, t.scale, t.written, t.returned⟩

/-- The call with the caller's dictionary of output options. -/
abbrev sampleRun (clip : Bool) : Except Err (List (TileRun Nat Nat) × Dict) :=
  gridGlmFlashes toyGridder [sampleFile] (sampleCall clip) [("scale_and_offset", .bool false)]

theorem sample_run (clip : Bool) : (sampleRun clip).toOption.map (fun o => o.1.map TileRun.view) =
    some [⟨(0, 0), true, .bool false, [("image.nc", 4)], []⟩,
      ⟨(0, 1), true, .bool true, [("image.nc", 4)], []⟩,
      ⟨(1, 0), true, .bool true, [("image.nc", 4)], []⟩,
      ⟨(1, 1), true, .bool true, [("image.nc", 4)], []⟩] := by
  cases clip <;> decide +kernel

/-- A run of the sample call. -/
theorem sample_member (clip : Bool) {v : RunView}
    (hv : v ∈ [(⟨(0, 0), true, .bool false, [("image.nc", 4)], []⟩ : RunView),
      ⟨(0, 1), true, .bool true, [("image.nc", 4)], []⟩]) :
    ∃ runs shared', sampleRun clip = .ok (runs, shared') ∧ ∃ r ∈ runs, TileRun.view r = v := by
  have h := sample_run clip
  cases hr : sampleRun clip with
  | error e => rw [hr] at h; cases h
  | ok o =>
    rw [hr] at h
    have h' : o.1.map TileRun.view = _ := Option.some.inj h
    refine ⟨o.1, o.2, rfl, ?_⟩
    have : v ∈ o.1.map TileRun.view := by
      rw [h']
      simp only [List.mem_cons, List.not_mem_nil, or_false] at hv ⊢
      tauto
    exact List.mem_map.mp this

/-! ## C49 -/

/-- C49: every tile is written with the `scale_and_offset` option of the call. -/
def C49_full : Prop := ∀ (σ ι : Type) (G : Gridder σ ι) (files : List GFile)
  (kw shared shared' : Dict) (runs : List (TileRun σ ι)), kw.get "output_kwargs" = .ok .shared →
  gridGlmFlashes G files kw shared = .ok (runs, shared') →
  ∀ r ∈ runs, r.scale = optionOr shared "scale_and_offset" (.bool true)

/-- C49 is violated: the second tile is written with the default. -/
theorem C49_full_false : ¬ C49_full := by
  intro h
  obtain ⟨runs, sh, h1, r, hr, hv⟩ := sample_member true
    (v := ⟨(0, 1), true, .bool true, [("image.nc", 4)], []⟩) (by simp)
  have h2 := h Nat Nat toyGridder [sampleFile] _ _ _ runs (by decide +kernel) h1 r hr
  have h3 : r.scale = .bool true := congrArg RunView.scale hv
  rw [h3] at h2
  revert h2
  decide +kernel

theorem scales_default {G : Gridder σ ι} {files : List GFile} {gs : List Subgrid} :
    ∀ {shared shared' : Dict} {runs : List (TileRun σ ι)},
      (∀ g ∈ gs, g.out.has "output_kwargs" = true) →
      shared.get "scale_and_offset" = .error .keyError →
      procAll G files shared gs = .ok (runs, shared') →
      (∀ r ∈ runs, r.scale = .bool true) ∧ shared'.get "scale_and_offset" = .error .keyError := by
  induction gs with
  | nil => intro _ _ _ _ hn h; cases h; exact ⟨fun _ h => absurd h (List.not_mem_nil), hn⟩
  | cons g rest ih =>
    intro shared shared' runs ho hn h
    obtain ⟨r, sh, rs, h1, h2, rfl⟩ := procAll_cons_ok h
    have hg := ho g (List.mem_cons_self)
    obtain ⟨-, -, -, -, -, h3, -, -, -, h4⟩ := procEachGrid_ok h1
    have hsh : sh.get "scale_and_offset" = .error .keyError := by
      rw [h4 hg, if_pos (Or.inr rfl)]
    obtain ⟨i1, i2⟩ := ih (fun g hg => ho g (List.mem_cons_of_mem _ hg)) hsh h2
    refine ⟨?_, i2⟩
    intro r' hr'
    rcases List.mem_cons.mp hr' with rfl | hr'
    · rw [h3, if_pos hg, optionOr_error hn]
    · exact i1 r' hr'

/-- C49, exactly: with a dictionary of the caller the first tile gets its `scale_and_offset`, every
other tile the default, and the option is gone from the caller's dictionary afterwards; without one
all tiles get the default. -/
theorem C49_exact (G : Gridder σ ι) (files : List GFile) (kw shared shared' : Dict)
    (runs : List (TileRun σ ι)) (h : gridGlmFlashes G files kw shared = .ok (runs, shared')) :
    (kw.has "output_kwargs" = true →
      (∀ k r, runs[k]? = some r → r.scale =
        if k = 0 then optionOr shared "scale_and_offset" (.bool true) else .bool true) ∧
      (runs ≠ [] → shared'.has "scale_and_offset" = false)) ∧
    (kw.has "output_kwargs" = false → (∀ r ∈ runs, r.scale = .bool true) ∧ shared' = shared) := by
  obtain ⟨gs, hgs, hp⟩ := gridGlm_ok h
  have hc := subgrids_common hgs
  constructor
  · intro hk
    have ho : ∀ g ∈ gs, g.out.has "output_kwargs" = true := fun g hg => by rw [(hc g hg).1, hk]
    cases gs with
    | nil => cases hp; exact ⟨fun k r hr => by simp at hr, fun hne => absurd rfl hne⟩
    | cons g rest =>
      obtain ⟨r, sh, rs, h1, h2, rfl⟩ := procAll_cons_ok hp
      have hg := ho g (List.mem_cons_self)
      obtain ⟨-, -, -, -, -, h3, -, -, -, h4⟩ := procEachGrid_ok h1
      have hsh : sh.get "scale_and_offset" = .error .keyError := by
        rw [h4 hg, if_pos (Or.inr rfl)]
      obtain ⟨i1, i2⟩ := scales_default (fun g hg => ho g (List.mem_cons_of_mem _ hg)) hsh h2
      refine ⟨?_, fun _ => (Dict.not_has_iff _ _).mpr i2⟩
      intro k r' hr'
      cases k with
      | zero =>
        simp only [List.getElem?_cons_zero, Option.some.injEq] at hr'
        subst hr'
        rw [if_pos rfl, h3, if_pos hg]
      | succ k =>
        rw [if_neg (by omega)]
        exact i1 r' (List.mem_of_getElem? hr')
  · intro hk
    have ho : ∀ g ∈ gs, g.out.has "output_kwargs" = false := fun g hg => by rw [(hc g hg).1, hk]
    clear hgs hc h hk
    induction gs generalizing shared runs with
    | nil => cases hp; exact ⟨fun _ h => absurd h (List.not_mem_nil), rfl⟩
    | cons g rest ih =>
      obtain ⟨r, sh, rs, h1, h2, rfl⟩ := procAll_cons_ok hp
      have hg := ho g (List.mem_cons_self)
      obtain ⟨-, -, -, -, -, h3, -, -, h4, -⟩ := procEachGrid_ok h1
      rw [h4 hg] at h2
      obtain ⟨i1, i2⟩ := ih shared rs h2 (fun g hg => ho g (List.mem_cons_of_mem _ hg))
      refine ⟨?_, i2⟩
      intro r' hr'
      rcases List.mem_cons.mp hr' with rfl | hr'
      · rw [h3, hg]; rfl
      · exact i1 r' hr'

/-- C49, the part that holds: all tiles are written with the option of the call when it is the
default or not given, or when there is one tile; and every tile of a fixed grid is written with its
own padding.  Missing: several tiles and another option. -/
theorem C49_partial (G : Gridder σ ι) (files : List GFile) (kw shared shared' : Dict)
    (runs : List (TileRun σ ι)) (h : gridGlmFlashes G files kw shared = .ok (runs, shared')) :
    (kw.has "output_kwargs" = true →
      optionOr shared "scale_and_offset" (.bool true) = .bool true ∨ runs.length ≤ 1 →
      ∀ r ∈ runs, r.scale = optionOr shared "scale_and_offset" (.bool true)) ∧
    (FixedGridCall kw → ∃ gs, subgridsFor (splitKwargs kw) = .ok gs ∧
      List.Forall₂ (fun (g : Subgrid) (r : TileRun σ ι) => r.ij = g.ij ∧
        ∃ p, g.preprocess = some p ∧
          r.pad = .slices (getPadSlices p.1).1 (getPadSlices p.1).2) gs runs) := by
  constructor
  · intro hk hd r hr
    obtain ⟨k, hk', e⟩ := List.getElem_of_mem hr
    have := ((C49_exact G files kw shared shared' runs h).1 hk).1 k r
      (by rw [List.getElem?_eq_getElem hk', e])
    rw [this]
    split
    · rfl
    · rcases hd with hd | hd
      · exact hd.symm
      · omega
  · intro hf
    obtain ⟨gs, hgs, hp⟩ := gridGlm_ok h
    refine ⟨gs, hgs, ?_⟩
    have hc := subgrids_common hgs
    have h2 := procAll_forall₂ hp
    clear hgs hp h
    induction h2 with
    | nil => exact List.Forall₂.nil
    | @cons g r gs rs h1 _ ih =>
      obtain ⟨sh, sh', h1⟩ := h1
      obtain ⟨e1, -, -, -, e2, -⟩ := procEachGrid_ok h1
      obtain ⟨p, hp⟩ := (hc g (List.mem_cons_self)).2.2.2.1 hf
      refine List.Forall₂.cons ⟨e1, p, hp, ?_⟩ (ih fun g hg => hc g (List.mem_cons_of_mem _ hg))
      rw [e2, hp]

example : FixedGridCall (sampleCall true) := ⟨by decide +kernel, by decide +kernel⟩

/-! ## C50 -/

/-- C50: polygon clipping (the LUT gridder) is used iff the `clip_events` option is true. -/
def C50_full : Prop := ∀ (σ ι : Type) (G : Gridder σ ι) (files : List GFile)
  (kw shared shared' : Dict) (runs : List (TileRun σ ι)),
  gridGlmFlashes G files kw shared = .ok (runs, shared') →
  ∀ r ∈ runs, (r.lut = true ↔ kw.get "clip_events" = .ok (.bool true))

/-- C50 is violated by `clip_events=False`. -/
theorem C50_full_false : ¬ C50_full := by
  intro h
  obtain ⟨runs, sh, h1, r, hr, hv⟩ := sample_member false
    (v := ⟨(0, 1), true, .bool true, [("image.nc", 4)], []⟩) (by simp)
  have h2 := h Nat Nat toyGridder [sampleFile] _ _ _ runs h1 r hr
  have h3 : r.lut = true := congrArg RunView.lut hv
  have h4 := h2.mp h3
  revert h4
  decide +kernel

/-- C50, exactly: whatever its value, a `clip_events` option selects clipping; without the option no
tile is processed, because the other gridder cannot be set up. -/
theorem C50_exact (G : Gridder σ ι) (files : List GFile) (kw shared shared' : Dict)
    (runs : List (TileRun σ ι)) (h : gridGlmFlashes G files kw shared = .ok (runs, shared')) :
    (∀ r ∈ runs, r.lut = true) ∧ (runs ≠ [] → kw.has "clip_events" = true) := by
  obtain ⟨gs, hgs, hp⟩ := gridGlm_ok h
  have hc := subgrids_common hgs
  have h2 := procAll_forall₂ hp
  have key : ∀ r ∈ runs, r.lut = true ∧ kw.has "clip_events" = true := by
    intro r hr
    obtain ⟨g, hg, sh, sh', h1⟩ := mem_of_forall₂_right h2 hr
    obtain ⟨-, e1, e2, -⟩ := procEachGrid_ok h1
    exact ⟨e1, by rw [← (hc g hg).2.1, e2]⟩
  refine ⟨fun r hr => (key r hr).1, fun hne => ?_⟩
  obtain ⟨r, hr⟩ := List.exists_mem_of_ne_nil _ hne
  exact (key r hr).2

/-- C50, the part that holds: `clip_events=True` selects clipping. -/
theorem C50_partial (G : Gridder σ ι) (files : List GFile) (kw shared shared' : Dict)
    (runs : List (TileRun σ ι)) (h : gridGlmFlashes G files kw shared = .ok (runs, shared'))
    (hk : kw.get "clip_events" = .ok (.bool true)) :
    ∀ r ∈ runs, (r.lut = true ↔ kw.get "clip_events" = .ok (.bool true)) :=
  fun r hr => ⟨fun _ => hk, fun _ => (C50_exact G files kw shared shared' runs h).1 r hr⟩

/-! ## C71 -/

/-- C71: the call returns, for every tile, the names of the files it wrote. -/
def C71_full : Prop := ∀ (σ ι : Type) (G : Gridder σ ι) (files : List GFile)
  (kw shared shared' : Dict) (runs : List (TileRun σ ι)),
  gridGlmFlashes G files kw shared = .ok (runs, shared') →
  ∀ r ∈ runs, r.returned = r.written.map Prod.fst

/-- C71 is violated for tiles of a fixed grid. -/
theorem C71_full_false : ¬ C71_full := by
  intro h
  obtain ⟨runs, sh, h1, r, hr, hv⟩ := sample_member true
    (v := ⟨(0, 1), true, .bool true, [("image.nc", 4)], []⟩) (by simp)
  have h2 := h Nat Nat toyGridder [sampleFile] _ _ _ runs h1 r hr
  have h3 : r.returned = [] := congrArg RunView.returned hv
  have h4 : r.written = [("image.nc", 4)] := congrArg RunView.written hv
  rw [h3, h4] at h2
  cases h2

/-- C71, exactly: an empty list for every tile of a fixed grid, the names otherwise. -/
theorem C71_exact (G : Gridder σ ι) (files : List GFile) (kw shared shared' : Dict)
    (runs : List (TileRun σ ι)) (h : gridGlmFlashes G files kw shared = .ok (runs, shared')) :
    (FixedGridCall kw → ∀ r ∈ runs, r.returned = []) ∧
    (¬ FixedGridCall kw → ∀ r ∈ runs, r.returned = r.written.map Prod.fst) := by
  obtain ⟨gs, hgs, hp⟩ := gridGlm_ok h
  have hc := subgrids_common hgs
  have h2 := procAll_forall₂ hp
  constructor
  · intro hf r hr
    obtain ⟨g, hg, sh, sh', h1⟩ := mem_of_forall₂_right h2 hr
    obtain ⟨-, -, -, -, -, -, -, e, -⟩ := procEachGrid_ok h1
    obtain ⟨p, hp⟩ := (hc g hg).2.2.2.1 hf
    rw [e, hp]
  · intro hf r hr
    obtain ⟨g, hg, sh, sh', h1⟩ := mem_of_forall₂_right h2 hr
    obtain ⟨-, -, -, -, -, -, -, e, -⟩ := procEachGrid_ok h1
    rw [e, (hc g hg).2.2.2.2 hf]

/-- C71, the part that holds: targets that are not tiles of a fixed grid. -/
theorem C71_partial (G : Gridder σ ι) (files : List GFile) (kw shared shared' : Dict)
    (runs : List (TileRun σ ι)) (hf : ¬ FixedGridCall kw)
    (h : gridGlmFlashes G files kw shared = .ok (runs, shared')) :
    ∀ r ∈ runs, r.returned = r.written.map Prod.fst :=
  (C71_exact G files kw shared shared' runs h).2 hf

/-- A call for a longitude-latitude grid. -/
def latlongCall : Dict :=
  [("proj_name", .str "latlong"), ("x_bnd", .bnd 0 1), ("y_bnd", .bnd 0 1), ("dx", .num (1/4)),
   ("dy", .num (1/4)), ("clip_events", .bool true), ("ellipse_rev", .nat 1)]

example : ¬ FixedGridCall latlongCall := fun h => h.1 (by decide +kernel)
example : (gridGlmFlashes toyGridder [sampleFile] latlongCall []).toOption.map
    (fun o => o.1.map TileRun.view) =
    some [⟨(0, 0), true, .bool true, [("image.nc", 4)], ["image.nc"]⟩] := by decide +kernel

end Verif.Props
