import Verif.Model.Select
import Verif.Props.Call
import Verif.Props.Lut

/-! # C110: the flashes that count in a gridding call -/

namespace Verif.Props

open Verif.Py Verif.Model Verif.Spec Verif.Proofs

/-- The value of an option, as a range. -/
def RangeIs (v : Except Err Val) (r : Option (Rat × Rat)) : Prop :=
  (∃ lo hi, v = .ok (.bnd lo hi) ∧ r = some (lo, hi)) ∨ v = .ok .none ∧ r = none

/-- The value of an option, as a least number; the option may be absent. -/
def LeastIs (v : Except Err Val) (m : Option Int) : Prop :=
  (∃ n : Nat, v = .ok (.nat n) ∧ m = some (n : Int)) ∨ (v = .ok .none ∨ v = .error .keyError) ∧ m = none

/-- A domain of `N` boxes of width `d` from `lo`, cut into `s` tiles, and the range of tile `i`
widened by a margin: 0.0028 radians (100 km), less what is left over of a box. -/
def TileRange (lo d : Rat) (N s i : Nat) (r : Option (Rat × Rat)) : Prop :=
  ∃ m, 28 / 10000 - d < m ∧ m ≤ 28 / 10000 ∧ 0 ≤ m ∧
    r = some (lo + tileStart N s i * d - m, lo + tileStart N s (i + 1) * d + m)

/-- What a call asks of the flashes of tile `ij`. -/
structure CallAsks (kw : Dict) (ij : Nat × Nat) (c : Criteria) : Prop where
  /-- a grid in longitude and latitude: the bounds of the grid, without a margin -/
  latlong : kw.get "proj_name" = .ok (.str "latlong") →
    RangeIs (kw.get "x_bnd") c.lon ∧ RangeIs (kw.get "y_bnd") c.lat ∧ c.x = none ∧ c.y = none
  /-- the fixed grid: the bounds of the tile with a margin -/
  fixedGrid : FixedGridCall kw → c.lon = none ∧ c.lat = none ∧
    ∀ (xlo ylo dx dy : Rat) (M N s : Nat), 0 < dx → 0 < dy → 0 < s →
      kw.get "dx" = .ok (.num dx) → kw.get "dy" = .ok (.num dy) →
      kw.get "x_bnd" = .ok (.bnd xlo (xlo + M * dx)) → kw.get "y_bnd" = .ok (.bnd ylo (ylo + N * dy)) →
      kw.get "subdivide" = .ok (.nat s) →
      TileRange xlo dx M s ij.1 c.x ∧ TileRange ylo dy N s ij.2 c.y
  /-- any other projection: everywhere -/
  other : kw.get "proj_name" ≠ .ok (.str "latlong") → kw.has "fixed_grid" = false →
    c.lon = none ∧ c.lat = none ∧ c.x = none ∧ c.y = none
  minEvents : LeastIs (kw.get "min_points_per_flash") c.minEvents
  minGroups : LeastIs (kw.get "min_groups_per_flash") c.minGroups

theorem procEachGrid_state {σ ι : Type} {G : Gridder σ ι} {files : List GFile}
    {shared shared' : Dict} {g : Subgrid} {r : TileRun σ ι}
    (h : procEachGrid G files shared g = .ok (r, shared')) :
    ∃ rev, g.proc.get "ellipse_rev" = .ok rev ∧
      processFiles G rev ((g.proc.del "ellipse_rev").put "clip_events" .mesh)
        (G.init g.kwargs, false) files = .ok (r.state, true) := by
  unfold procEachGrid at h
  cases he : g.proc.get "ellipse_rev" with
  | error e => rw [he] at h; cases h
  | ok rev =>
    cases hl : (g.proc.del "ellipse_rev").has "clip_events" with
    | false => rw [he] at h; simp only [bind, Except.bind, hl] at h; cases h
    | true =>
      rw [he] at h
      simp only [bind, Except.bind, hl, if_true] at h
      refine ⟨rev, rfl, ?_⟩
      cases hp : processFiles G rev ((g.proc.del "ellipse_rev").put "clip_events" .mesh)
          (G.init g.kwargs, false) files with
      | error e => rw [hp] at h; simp only [lutPipelineSetup] at h; cases h
      | ok sf =>
        obtain ⟨s, first⟩ := sf
        rw [hp] at h
        obtain ⟨o, ho⟩ : ∃ o, lutPipelineSetup = .ok o := ⟨_, rfl⟩
        rw [ho] at h
        simp only at h
        cases first with
        | false =>
          unfold writeGrids at h
          cases hpre : g.preprocess with
          | none => rw [hpre] at h; cases h
          | some p => rw [hpre] at h; cases h
        | true =>
          unfold writeGrids at h
          cases hpre : g.preprocess with
          | none =>
            rw [hpre] at h
            simp only [if_true, bind, Except.bind, pure, Except.pure] at h
            cases hwr : G.write s g.out _ _ with
            | error e => rw [hwr] at h; cases h
            | ok written => rw [hwr] at h; cases h; rfl
          | some p =>
            rw [hpre] at h
            simp only [if_true, bind, Except.bind, pure, Except.pure] at h
            cases hwr : G.write s g.out _ _ with
            | error e => rw [hwr] at h; cases h
            | ok written => rw [hwr] at h; cases h; rfl

theorem processFiles_recorder {order : List Int → List Int} {rev : Val} {proc : Dict}
    (files : List GFile) {s s' : List GFile} {b : Bool}
    (h : processFiles (recorder order) rev proc (s, b) files = .ok (s', true)) :
    (b = true ∨ ∃ c, processCriteria proc = .ok c) ∧
    ∀ c, processCriteria proc = .ok c → ∀ ch, ch ∈ s' ↔ ch ∈ s ∨ ∃ d ∈ files, d.events ≠ [] ∧
      ∃ chunks, readFlashesChunks order d c 20000 = .ok chunks ∧ ch ∈ chunks := by
  induction files generalizing s b with
  | nil =>
    rw [processFiles] at h
    cases h
    exact ⟨Or.inl rfl, fun c _ ch => by simp⟩
  | cons d files ih =>
    rw [processFiles] at h
    simp only [recorder, bind, Except.bind, pure, Except.pure] at h
    by_cases hd : d.events.length > 0
    · rw [if_pos hd] at h
      have hne : d.events ≠ [] := by intro he; rw [he] at hd; simp at hd
      cases hp : processFlashes order proc d with
      | error e => rw [hp] at h; cases h
      | ok chunks =>
        rw [hp] at h
        obtain ⟨-, h2⟩ := ih h
        unfold processFlashes at hp
        cases hc : processCriteria proc with
        | error e => rw [hc] at hp; cases hp
        | ok c =>
          refine ⟨Or.inr ⟨c, rfl⟩, ?_⟩
          intro c' hc' ch
          cases hc'
          rw [hc] at hp
          rw [h2 c hc ch, List.mem_append]
          constructor
          · rintro ((h3 | h3) | ⟨d', h3, h4⟩)
            · exact Or.inl h3
            · exact Or.inr ⟨d, List.mem_cons_self, hne, chunks, hp, h3⟩
            · exact Or.inr ⟨d', List.mem_cons_of_mem _ h3, h4⟩
          · rintro (h3 | ⟨d', h3, h4, chunks', h5, h6⟩)
            · exact Or.inl (Or.inl h3)
            · rcases List.mem_cons.mp h3 with rfl | h3
              · have : chunks' = chunks := Except.ok.inj (h5.symm.trans hp)
                rw [this] at h6
                exact Or.inl (Or.inr h6)
              · exact Or.inr ⟨d', h3, h4, chunks', h5, h6⟩
    · rw [if_neg hd] at h
      obtain ⟨h1, h2⟩ := ih h
      refine ⟨h1, ?_⟩
      intro c hc ch
      rw [h2 c hc ch]
      constructor
      · rintro (h3 | ⟨d', h3, h4⟩)
        · exact Or.inl h3
        · exact Or.inr ⟨d', List.mem_cons_of_mem _ h3, h4⟩
      · rintro (h3 | ⟨d', h3, h4, h5⟩)
        · exact Or.inl h3
        · rcases List.mem_cons.mp h3 with rfl | h3
          · exact absurd (List.length_pos_iff.mpr h4) hd
          · exact Or.inr ⟨d', h3, h4, h5⟩

theorem argOf_congr {d d' : Dict} {k : String} (h : d.get k = d'.get k) : argOf d k = argOf d' k := by
  unfold argOf; rw [h]

theorem argOf_ok {d : Dict} {k : String} {v : Val} (h : d.get k = .ok v) : argOf d k = v := by
  unfold argOf; rw [h]

theorem argOf_error {d : Dict} {k : String} {e : Err} (h : d.get k = .error e) :
    argOf d k = .none := by
  unfold argOf; rw [h]

theorem split_proc_other (kw : Dict) (k : String) (hk : k ∉ procKeys) :
    (splitKwargs kw).proc.get k = .error .keyError := by
  show (moveKeys procKeys [] ((kw.put "do_3d" (.bool false)).popD "subdivide" (.nat 1)).2).1.get k = _
  rw [(moveKeys_get _ _ _ _).1, if_neg fun h => hk h.1, Dict.get_nil]

theorem asRange_none {v : Val} {r : Option (Rat × Rat)} (h : v.asRange = .ok r) (hv : v = .none) :
    r = none := by
  subst hv; cases h; rfl

theorem asRange_bnd {v : Val} {r : Option (Rat × Rat)} (h : v.asRange = .ok r) {lo hi : Rat}
    (hv : v = .bnd lo hi) : r = some (lo, hi) := by
  subst hv; cases h; rfl

theorem asRange_is {v : Val} {r : Option (Rat × Rat)} (h : v.asRange = .ok r) :
    RangeIs (.ok v) r := by
  cases v <;> first
    | (cases h; exact Or.inr ⟨rfl, rfl⟩)
    | (cases h; exact Or.inl ⟨_, _, rfl, rfl⟩)
    | cases h

theorem asLeast_is {d : Dict} {k : String} {m : Option Int} (h : (argOf d k).asLeast = .ok m) :
    LeastIs (d.get k) m := by
  unfold argOf at h
  cases hg : d.get k with
  | error e =>
    have := Dict.get_error d k e hg
    subst this
    rw [hg] at h
    cases h
    exact Or.inr ⟨Or.inr rfl, rfl⟩
  | ok v =>
    rw [hg] at h
    cases v <;> first
      | (cases h; exact Or.inr ⟨Or.inl rfl, rfl⟩)
      | (cases h; exact Or.inl ⟨_, rfl, rfl⟩)
      | cases h

/-- The parts of a successful reading of the options. -/
theorem processCriteria_ok {proc : Dict} {c : Criteria} (h : processCriteria proc = .ok c) :
    (argOf proc "x_bnd").asRange = .ok c.x ∧ (argOf proc "y_bnd").asRange = .ok c.y ∧
    (argOf proc "lon_bnd").asRange = .ok c.lon ∧ (argOf proc "lat_bnd").asRange = .ok c.lat ∧
    (argOf proc "min_points_per_flash").asLeast = .ok c.minEvents ∧
    (argOf proc "min_groups_per_flash").asLeast = .ok c.minGroups := by
  unfold processCriteria at h
  simp only [bind, Except.bind, pure, Except.pure] at h
  split at h
  · cases h
  · repeat' (split at h)
    all_goals first
      | cases h; done
      | skip
    cases h
    refine ⟨?_, ?_, ?_, ?_, ?_, ?_⟩ <;> assumption

theorem tileOptions_bounds {kwargs proc out : Dict} {t : Tile} {g : Subgrid}
    (h : tileOptions kwargs proc out t = .ok g) :
    g.proc.get "x_bnd" = .ok (.bnd t.xBnd.1 t.xBnd.2) ∧
    g.proc.get "y_bnd" = .ok (.bnd t.yBnd.1 t.yBnd.2) ∧
    g.proc.get "lon_bnd" = .ok .none ∧ g.proc.get "lat_bnd" = .ok .none ∧ g.ij = t.ij := by
  unfold tileOptions at h
  simp only [bind, Except.bind] at h
  split at h
  · cases h
  · split at h
    · cases h
    · cases h
      refine ⟨?_, ?_, ?_, ?_, rfl⟩
      · show Dict.get (Dict.put _ _ _) _ = _
        rw [Dict.get_put_ne _ _ (by decide), Dict.get_put_ne _ _ (by decide),
          Dict.get_put_ne _ _ (by decide), Dict.get_put_same]
      · show Dict.get (Dict.put _ _ _) _ = _
        rw [Dict.get_put_ne _ _ (by decide), Dict.get_put_ne _ _ (by decide), Dict.get_put_same]
      · show Dict.get (Dict.put _ _ _) _ = _
        rw [Dict.get_put_ne _ _ (by decide), Dict.get_put_same]
      · show Dict.get (Dict.put _ _ _) _ = _
        rw [Dict.get_put_same]

/-- The ranges of the tiles of a domain of `M` by `N` boxes. -/
theorem tile_ranges {xlo ylo dx dy : Rat} {M N s : Nat} (hs : 0 < s) (hdx : 0 < dx) (hdy : 0 < dy)
    {ts : List Tile}
    (h : subdividedFixedGrid (xlo, xlo + M * dx) (ylo, ylo + N * dy) dx dy s defaultPad defaultPad =
      .ok ts) {t : Tile} (ht : t ∈ ts) :
    TileRange xlo dx M s t.ij.1 (some t.xBnd) ∧ TileRange ylo dy N s t.ij.2 (some t.yBnd) := by
  have hp0 : (0 : Rat) ≤ defaultPad := by norm_num [defaultPad]
  have hpv : defaultPad = 28 / 10000 := by norm_num [defaultPad]
  have hpads : padsFor defaultPad defaultPad dx dy = .ok ⟨⌊defaultPad / dx⌋, ⌊defaultPad / dy⌋,
      ⌊defaultPad / dx⌋ * dx, ⌊defaultPad / dy⌋ * dy⟩ := by
    unfold padsFor
    rw [if_neg (by rintro (h | h); exacts [hdx.ne' h, hdy.ne' h])]
    simp only [pyInt_of_nonneg (div_nonneg hp0 hdx.le), pyInt_of_nonneg (div_nonneg hp0 hdy.le)]
  unfold subdividedFixedGrid at h
  simp only [hpads, subdivideBnd_boxes _ _ _ _ hs hdx, subdivideBnd_boxes _ _ _ _ hs hdy, bind,
    Except.bind, pure, Except.pure, Except.ok.injEq] at h
  subst h
  obtain ⟨i, hi, ht⟩ := List.mem_flatMap.mp ht
  obtain ⟨j, hj, rfl⟩ := List.mem_map.mp ht
  have hi := List.mem_range.mp hi
  have hj := List.mem_range.mp hj
  have margin : ∀ d : Rat, 0 < d → 28 / 10000 - d < ⌊defaultPad / d⌋ * d ∧
      ⌊defaultPad / d⌋ * d ≤ 28 / 10000 ∧ 0 ≤ ⌊defaultPad / d⌋ * d := by
    intro d hd
    have h1 := Int.lt_floor_add_one (defaultPad / d)
    have h2 := Int.floor_le (defaultPad / d)
    have h3 : (0 : Rat) ≤ ⌊defaultPad / d⌋ := by
      exact_mod_cast Int.floor_nonneg.mpr (div_nonneg hp0 hd.le)
    rw [div_lt_iff₀ hd] at h1
    rw [le_div_iff₀ hd] at h2
    rw [hpv] at h1 h2 ⊢
    exact ⟨by linarith, h2, mul_nonneg (by rw [← hpv]; exact h3) hd.le⟩
  obtain ⟨a1, a2, a3⟩ := margin dx hdx
  obtain ⟨b1, b2, b3⟩ := margin dy hdy
  refine ⟨⟨_, a1, a2, a3, ?_⟩, ⟨_, b1, b2, b3, ?_⟩⟩
  · simp only
    rw [edges_boxes _ _ _ _ _ (by omega), edges_boxes _ _ _ _ _ (by omega)]
  · simp only
    rw [edges_boxes _ _ _ _ _ (by omega), edges_boxes _ _ _ _ _ (by omega)]

theorem subdividedOptions_tiles {kwargs proc out : Dict} {s : Nat} {gs : List Subgrid} {dx dy : Rat}
    {x1 x2 y1 y2 : Rat} (hx : kwargs.get "dx" = .ok (.num dx)) (hy : kwargs.get "dy" = .ok (.num dy))
    (hxb : kwargs.get "x_bnd" = .ok (.bnd x1 x2)) (hyb : kwargs.get "y_bnd" = .ok (.bnd y1 y2))
    (h : subdividedOptions kwargs proc out s = .ok gs) {g : Subgrid} (hg : g ∈ gs) :
    ∃ tiles, subdividedFixedGrid (x1, x2) (y1, y2) dx dy s defaultPad defaultPad = .ok tiles ∧
      ∃ t ∈ tiles, tileOptions kwargs proc out t = .ok g := by
  unfold subdividedOptions at h
  simp only [hx, hy, hxb, hyb, bind, Except.bind, Val.asNum, Val.asBnd] at h
  cases ht : subdividedFixedGrid (x1, x2) (y1, y2) dx dy s defaultPad defaultPad with
  | error e => rw [ht] at h; cases h
  | ok tiles =>
    rw [ht] at h
    simp only at h
    split at h
    · cases h
    · exact ⟨tiles, rfl, mapM_ok_mem h hg⟩

/-- The options with which `process_flashes` is called for a tile. -/
def tileProc (g : Subgrid) : Dict := (g.proc.del "ellipse_rev").put "clip_events" .mesh

theorem tileProc_get (g : Subgrid) {k : String} (h1 : k ≠ "ellipse_rev") (h2 : k ≠ "clip_events") :
    (tileProc g).get k = g.proc.get k := by
  unfold tileProc
  rw [Dict.get_put_ne _ _ h2, Dict.get_del_ne _ h1]

theorem callAsks {kw : Dict} {gs : List Subgrid} (h : subgridsFor (splitKwargs kw) = .ok gs)
    {g : Subgrid} (hg : g ∈ gs) {c : Criteria} (hc : processCriteria (tileProc g) = .ok c) :
    CallAsks kw g.ij c := by
  obtain ⟨cx, cy, clon, clat, ce, cg⟩ := processCriteria_ok hc
  rw [argOf_congr (tileProc_get g (by decide) (by decide))] at cx cy clon clat ce cg
  have hk : ∀ k, k ∉ procKeys → k ∉ outKeys → k ≠ "do_3d" → k ≠ "subdivide" →
      k ≠ "event_grid_area_fraction_key" → (splitKwargs kw).kwargs.get k = kw.get k :=
    fun k a b c d e => split_kwargs kw k a b c d e
  have hpn := hk "proj_name" (by decide) (by decide) (by decide) (by decide) (by decide)
  have hxb := hk "x_bnd" (by decide) (by decide) (by decide) (by decide) (by decide)
  have hyb := hk "y_bnd" (by decide) (by decide) (by decide) (by decide) (by decide)
  have hdx := hk "dx" (by decide) (by decide) (by decide) (by decide) (by decide)
  have hdy := hk "dy" (by decide) (by decide) (by decide) (by decide) (by decide)
  have hf : (splitKwargs kw).proc.has "fixed_grid" = kw.has "fixed_grid" :=
    Dict.has_congr (split_proc kw _ (by decide))
  have he := split_proc kw "min_points_per_flash" (by decide)
  have hgr := split_proc kw "min_groups_per_flash" (by decide)
  have hnx := split_proc_other kw "x_bnd" (by decide)
  have hny := split_proc_other kw "y_bnd" (by decide)
  -- the options that are put in last
  have put2 : ∀ (k : String) (v w : Val), k ≠ "lon_bnd" → k ≠ "lat_bnd" →
      (((splitKwargs kw).proc.put "lon_bnd" v).put "lat_bnd" w).get k = (splitKwargs kw).proc.get k := by
    intro k v w h1 h2
    rw [Dict.get_put_ne _ _ h2, Dict.get_put_ne _ _ h1]
  have lon2 : ∀ v w : Val,
      (((splitKwargs kw).proc.put "lon_bnd" v).put "lat_bnd" w).get "lon_bnd" = .ok v := by
    intro v w
    rw [Dict.get_put_ne _ _ (by decide), Dict.get_put_same]
  have lat2 : ∀ v w : Val,
      (((splitKwargs kw).proc.put "lon_bnd" v).put "lat_bnd" w).get "lat_bnd" = .ok w := by
    intro v w
    rw [Dict.get_put_same]
  unfold subgridsFor at h
  rw [hpn] at h
  cases hp : kw.get "proj_name" with
  | error e => rw [hp] at h; cases h
  | ok pn =>
    rw [hp] at h
    simp only [bind, Except.bind] at h
    by_cases hl : pn = .str "latlong"
    · subst hl
      rw [if_pos rfl, hxb, hyb] at h
      cases hx : kw.get "x_bnd" with
      | error e => rw [hx] at h; cases h
      | ok x =>
        cases hy : kw.get "y_bnd" with
        | error e => rw [hx, hy] at h; cases h
        | ok y =>
          rw [hx, hy] at h
          simp only [pure, Except.pure, Except.ok.injEq] at h
          subst h
          rw [List.mem_singleton] at hg
          subst hg
          simp only at cx cy clon clat ce cg
          refine ⟨fun _ => ⟨?_, ?_, ?_, ?_⟩, ?_, ?_, ?_, ?_⟩
          · rw [hx]; exact asRange_is (by rw [← clon, argOf_ok (lon2 _ _)])
          · rw [hy]; exact asRange_is (by rw [← clat, argOf_ok (lat2 _ _)])
          · exact asRange_none cx (argOf_error ((put2 _ _ _ (by decide) (by decide)).trans hnx))
          · exact asRange_none cy (argOf_error ((put2 _ _ _ (by decide) (by decide)).trans hny))
          · exact fun hh => absurd hp hh.1
          · exact fun hh => absurd hp hh
          · rw [← he, ← put2 _ x y (by decide) (by decide)]; exact asLeast_is ce
          · rw [← hgr, ← put2 _ x y (by decide) (by decide)]; exact asLeast_is cg
    · rw [if_neg hl] at h
      have hnl : kw.get "proj_name" ≠ .ok (.str "latlong") := by
        rw [hp]; intro hh; cases hh; exact hl rfl
      cases hfx : kw.has "fixed_grid" with
      | false =>
        rw [hf, hfx] at h
        simp only [Bool.false_eq_true, if_false, pure, Except.pure, Except.ok.injEq] at h
        subst h
        rw [List.mem_singleton] at hg
        subst hg
        simp only at cx cy clon clat ce cg
        refine ⟨fun hh => absurd hh hnl, ?_, fun _ _ => ⟨?_, ?_, ?_, ?_⟩, ?_, ?_⟩
        · intro hh; rw [hh.2] at hfx; cases hfx
        · exact asRange_none clon (argOf_ok (lon2 _ _))
        · exact asRange_none clat (argOf_ok (lat2 _ _))
        · exact asRange_none cx (argOf_error ((put2 _ _ _ (by decide) (by decide)).trans hnx))
        · exact asRange_none cy (argOf_error ((put2 _ _ _ (by decide) (by decide)).trans hny))
        · rw [← he, ← put2 _ .none .none (by decide) (by decide)]; exact asLeast_is ce
        · rw [← hgr, ← put2 _ .none .none (by decide) (by decide)]; exact asLeast_is cg
      | true =>
        rw [hf, hfx] at h
        simp only [if_true] at h
        cases hs : (splitKwargs kw).subdivide.asNat with
        | error e => rw [hs] at h; cases h
        | ok s =>
          rw [hs] at h
          simp only at h
          obtain ⟨tiles, ht⟩ := subdividedOptions_mapM h
          obtain ⟨t, -, hgt⟩ := mapM_ok_mem ht hg
          obtain ⟨-, h2, -, -⟩ := tileOptions_ok hgt
          obtain ⟨-, -, b3, b4, -⟩ := tileOptions_bounds hgt
          refine ⟨fun hh => absurd hh hnl, fun _ => ⟨?_, ?_, ?_⟩, ?_, ?_, ?_⟩
          · exact asRange_none clon (argOf_ok b3)
          · exact asRange_none clat (argOf_ok b4)
          · intro xlo ylo dx dy M N s' d1 d2 d3 e1 e2 e3 e4 e5
            have hs' : s = s' := by
              rw [split_subdivide, optionOr_ok e5] at hs
              cases hs; rfl
            subst hs'
            obtain ⟨ts, hts, t, htm, hgt⟩ := subdividedOptions_tiles (hdx.trans e1) (hdy.trans e2)
              (hxb.trans e3) (hyb.trans e4) h hg
            obtain ⟨a1, a2, -, -, a5⟩ := tileOptions_bounds hgt
            obtain ⟨r1, r2⟩ := tile_ranges d3 d1 d2 hts htm
            rw [asRange_bnd cx (argOf_ok a1), asRange_bnd cy (argOf_ok a2), a5]
            exact ⟨r1, r2⟩
          · intro _ hh; rw [hfx] at hh; cases hh
          · rw [← he, ← h2 _ (by decide)]; exact asLeast_is ce
          · rw [← hgr, ← h2 _ (by decide)]; exact asLeast_is cg

/-- An opened file: consistent, with its derived variables, and with unique ids. -/
structure Opened (d : GFile) : Prop where
  consistent : Consistent d
  derived : Derived d
  flashIds : UniqueIds d.flashes
  groupIds : UniqueIds d.groups

/-- The flash counts under the given criteria: it meets them, and one of its events is in view.
Without any criterion every flash counts. -/
def Counts (c : Criteria) (d : GFile) (f : Row GVal) : Prop :=
  f ∈ d.flashes ∧ (NoCriteria c ∨ Meets c f ∧ ∃ e ∈ d.events, EventOfFlash d f.id e ∧ InView c e)

/-- C110: what a gridding call reads for a tile are exactly the flashes that the call asks for, with
all their groups and events. -/
theorem C110_selected (order : List Int → List Int) (ho : ∀ l, (order l).Perm l)
    (files : List GFile) (hfiles : ∀ d ∈ files, Opened d) (kw shared shared' : Dict)
    (runs : List (TileRun (List GFile) Unit))
    (h : gridGlmFlashes (recorder order) files kw shared = .ok (runs, shared')) :
    ∀ r ∈ runs, ∃ c, CallAsks kw r.ij c ∧
      (∀ f, (∃ ch ∈ r.state, f ∈ ch.flashes) ↔ ∃ d ∈ files, d.events ≠ [] ∧ Counts c d f) ∧
      (∀ g, (∃ ch ∈ r.state, g ∈ ch.groups) ↔
        ∃ d ∈ files, d.events ≠ [] ∧ g ∈ d.groups ∧ ∃ f, Counts c d f ∧ g.pid = f.id) ∧
      (∀ e, (∃ ch ∈ r.state, e ∈ ch.events) ↔
        ∃ d ∈ files, d.events ≠ [] ∧ e ∈ d.events ∧ ∃ f, Counts c d f ∧ EventOfFlash d f.id e) := by
  classical
  intro r hr
  obtain ⟨gs, hgs, hp⟩ := gridGlm_ok h
  obtain ⟨g, hg, sh, sh', h1⟩ := mem_of_forall₂_right (procAll_forall₂ hp) hr
  obtain ⟨hij, -⟩ := procEachGrid_ok h1
  obtain ⟨rev, -, h2⟩ := procEachGrid_state h1
  obtain ⟨h3, h4⟩ := processFiles_recorder files h2
  obtain ⟨c, hc⟩ : ∃ c, processCriteria (tileProc g) = .ok c := by
    rcases h3 with h3 | h3
    · cases h3
    · exact h3
  refine ⟨c, by rw [hij]; exact callAsks hgs hg hc, ?_⟩
  have hst : ∀ ch, ch ∈ r.state ↔ ∃ d ∈ files, d.events ≠ [] ∧
      ∃ chunks, readFlashesChunks order d c 20000 = .ok chunks ∧ ch ∈ chunks := by
    intro ch
    rw [h4 c hc ch]
    constructor
    · rintro (hh | hh)
      · cases hh
      · exact hh
    · exact Or.inr
  -- what the chunks of one file hold
  have file : ∀ d ∈ files, d.events ≠ [] → ∃ chunks, readFlashesChunks order d c 20000 = .ok chunks ∧
      (∀ f, (∃ ch ∈ chunks, f ∈ ch.flashes) ↔ Counts c d f) ∧
      (∀ ch ∈ chunks, (∀ g, g ∈ ch.groups ↔ g ∈ d.groups ∧ ∃ f ∈ ch.flashes, f.id = g.pid) ∧
        ∀ e, e ∈ ch.events ↔ e ∈ d.events ∧ ∃ f ∈ ch.flashes, EventOfFlash d f.id e) := by
    intro d hd hne
    have hd' := hfiles d hd
    have hdata : HasData d := by
      obtain ⟨e, es, he⟩ := List.exists_cons_of_ne_nil hne
      obtain ⟨g, hg, -⟩ := hd'.consistent.eventHasGroup e (by rw [he]; exact List.mem_cons_self)
      obtain ⟨f, hf, -⟩ := hd'.consistent.groupHasFlash g hg
      exact ⟨List.ne_nil_of_mem hf, List.ne_nil_of_mem hg, hne⟩
    obtain ⟨chunks, e1, e2, e3, e4⟩ := C21_filter_iff_asked ho c (n := 20000) (by omega) hdata
      hd'.consistent hd'.derived hd'.flashIds hd'.groupIds
    refine ⟨chunks, e1, ?_, ?_⟩
    · intro f
      have : (∃ ch ∈ chunks, f ∈ ch.flashes) ↔ f ∈ chunks.flatMap fun ch => ch.flashes := by
        rw [List.mem_flatMap]
      rw [this]
      unfold Counts
      by_cases hno : NoCriteria c
      · rw [(e2 hno).1.mem_iff]
        exact ⟨fun h => ⟨h, Or.inl hno⟩, fun h => h.1⟩
      · rw [e3 hno f]
        constructor
        · rintro ⟨a, b⟩; exact ⟨a, Or.inr b⟩
        · rintro ⟨a, b | b⟩
          · exact absurd b hno
          · exact ⟨a, b⟩
    · intro ch hch
      obtain ⟨-, a, b⟩ := e4 ch hch
      refine ⟨?_, ?_⟩
      · intro g; rw [a.mem_iff]; simp
      · intro e; rw [b.mem_iff]; simp
  refine ⟨?_, ?_, ?_⟩
  · intro f
    constructor
    · rintro ⟨ch, hch, hf⟩
      obtain ⟨d, hd, hne, chunks, hr', hm⟩ := (hst ch).mp hch
      obtain ⟨chunks', e1, e2, -⟩ := file d hd hne
      have : chunks' = chunks := Except.ok.inj (e1.symm.trans hr')
      subst this
      exact ⟨d, hd, hne, (e2 f).mp ⟨ch, hm, hf⟩⟩
    · rintro ⟨d, hd, hne, hf⟩
      obtain ⟨chunks, e1, e2, -⟩ := file d hd hne
      obtain ⟨ch, hch, hf'⟩ := (e2 f).mpr hf
      exact ⟨ch, (hst ch).mpr ⟨d, hd, hne, chunks, e1, hch⟩, hf'⟩
  · intro gr
    constructor
    · rintro ⟨ch, hch, hf⟩
      obtain ⟨d, hd, hne, chunks, hr', hm⟩ := (hst ch).mp hch
      obtain ⟨chunks', e1, e2, e3⟩ := file d hd hne
      have : chunks' = chunks := Except.ok.inj (e1.symm.trans hr')
      subst this
      obtain ⟨a, f, hf1, hf2⟩ := ((e3 ch hm).1 gr).mp hf
      exact ⟨d, hd, hne, a, f, (e2 f).mp ⟨ch, hm, hf1⟩, hf2.symm⟩
    · rintro ⟨d, hd, hne, a, f, hf, hf2⟩
      obtain ⟨chunks, e1, e2, e3⟩ := file d hd hne
      obtain ⟨ch, hch, hf'⟩ := (e2 f).mpr hf
      exact ⟨ch, (hst ch).mpr ⟨d, hd, hne, chunks, e1, hch⟩,
        ((e3 ch hch).1 gr).mpr ⟨a, f, hf', hf2.symm⟩⟩
  · intro e
    constructor
    · rintro ⟨ch, hch, hf⟩
      obtain ⟨d, hd, hne, chunks, hr', hm⟩ := (hst ch).mp hch
      obtain ⟨chunks', e1, e2, e3⟩ := file d hd hne
      have : chunks' = chunks := Except.ok.inj (e1.symm.trans hr')
      subst this
      obtain ⟨a, f, hf1, hf2⟩ := ((e3 ch hm).2 e).mp hf
      exact ⟨d, hd, hne, a, f, (e2 f).mp ⟨ch, hm, hf1⟩, hf2⟩
    · rintro ⟨d, hd, hne, a, f, hf, hf2⟩
      obtain ⟨chunks, e1, e2, e3⟩ := file d hd hne
      obtain ⟨ch, hch, hf'⟩ := (e2 f).mpr hf
      exact ⟨ch, (hst ch).mpr ⟨d, hd, hne, chunks, e1, hch⟩,
        ((e3 ch hch).2 e).mpr ⟨a, f, hf', hf2⟩⟩

/-- C70 for a whole call: in a call for the fixed grid, an event over the part of the domain that
tile `ij` writes reaches that tile if its flash meets the thresholds and the position of the flash is
no further from the event, in x and in y, than 0.0028 radians less one pixel. -/
theorem C70_call_partial (order : List Int → List Int) (ho : ∀ l, (order l).Perm l)
    (files : List GFile) (hfiles : ∀ d ∈ files, Opened d) (kw shared shared' : Dict)
    (runs : List (TileRun (List GFile) Unit))
    (h : gridGlmFlashes (recorder order) files kw shared = .ok (runs, shared'))
    (hfix : FixedGridCall kw) {xlo ylo dx dy : Rat} {M N s : Nat} (hdx : 0 < dx) (hdy : 0 < dy)
    (hs : 0 < s) (e1 : kw.get "dx" = .ok (.num dx)) (e2 : kw.get "dy" = .ok (.num dy))
    (e3 : kw.get "x_bnd" = .ok (.bnd xlo (xlo + M * dx)))
    (e4 : kw.get "y_bnd" = .ok (.bnd ylo (ylo + N * dy))) (e5 : kw.get "subdivide" = .ok (.nat s))
    {r : TileRun (List GFile) Unit} (hr : r ∈ runs) {d : GFile} (hd : d ∈ files)
    {f e : Row GVal} (hf : f ∈ d.flashes) (he : e ∈ d.events) (hfe : EventOfFlash d f.id e)
    (hx : xlo + tileStart M s r.ij.1 * dx ≤ e.val.x ∧ e.val.x ≤ xlo + tileStart M s (r.ij.1 + 1) * dx)
    (hy : ylo + tileStart N s r.ij.2 * dy ≤ e.val.y ∧ e.val.y ≤ ylo + tileStart N s (r.ij.2 + 1) * dy)
    (hv : |e.val.x| < 1349 / 10000 ∧ |e.val.y| < 1349 / 10000)
    (hfx : |f.val.x - e.val.x| + dx ≤ 28 / 10000) (hfy : |f.val.y - e.val.y| + dy ≤ 28 / 10000)
    (hme : ∀ n, kw.get "min_points_per_flash" = .ok (.nat n) → n ≤ f.val.nEvents)
    (hmg : ∀ n, kw.get "min_groups_per_flash" = .ok (.nat n) → n ≤ f.val.nGroups) :
    (∃ ch ∈ r.state, f ∈ ch.flashes) ∧ ∃ ch ∈ r.state, e ∈ ch.events := by
  obtain ⟨c, hc, h1, -, h3⟩ := C110_selected order ho files hfiles kw shared shared' runs h r hr
  obtain ⟨c1, c2, c3⟩ := hc.fixedGrid hfix
  obtain ⟨⟨mx, a1, a2, a3, a4⟩, ⟨my, b1, b2, b3, b4⟩⟩ :=
    c3 xlo ylo dx dy M N s hdx hdy hs e1 e2 e3 e4 e5
  have least : ∀ (k : String) (m : Option Int) (n : Nat), LeastIs (kw.get k) m →
      (∀ i, kw.get k = .ok (.nat i) → i ≤ n) → AtLeast m n := by
    rintro k m n (⟨i, hi, rfl⟩ | ⟨-, rfl⟩) hn j hj
    · cases hj; exact_mod_cast hn i hi
    · cases hj
  have fx := abs_le.mp (show |f.val.x - e.val.x| ≤ 28 / 10000 - dx by linarith)
  have fy := abs_le.mp (show |f.val.y - e.val.y| ≤ 28 / 10000 - dy by linarith)
  have p1 : 0 ≤ 28 / 10000 - dx := le_trans (abs_nonneg _) (show |f.val.x - e.val.x| ≤ _ by linarith)
  have p2 : 0 ≤ 28 / 10000 - dy := le_trans (abs_nonneg _) (show |f.val.y - e.val.y| ≤ _ by linarith)
  obtain ⟨x1, x2⟩ := hx
  obtain ⟨y1, y2⟩ := hy
  have hcount : Counts c d f := by
    refine ⟨hf, Or.inr ⟨⟨?_, ?_, ?_, ?_, least _ _ _ hc.minEvents hme, least _ _ _ hc.minGroups hmg⟩,
      e, he, hfe, abs_lt.mp hv.1, abs_lt.mp hv.2, ?_, ?_⟩⟩
    · intro q hq; rw [c1] at hq; cases hq
    · intro q hq; rw [c2] at hq; cases hq
    · intro q hq; rw [a4] at hq; cases hq
      exact ⟨by linarith [fx.1, fx.2], by linarith [fx.1, fx.2]⟩
    · intro q hq; rw [b4] at hq; cases hq
      exact ⟨by linarith [fy.1, fy.2], by linarith [fy.1, fy.2]⟩
    · intro q hq; rw [a4] at hq; cases hq; exact ⟨by linarith, by linarith⟩
    · intro q hq; rw [b4] at hq; cases hq; exact ⟨by linarith, by linarith⟩
  exact ⟨(h1 f).mpr ⟨d, hd, List.ne_nil_of_mem he, hcount⟩,
    (h3 e).mpr ⟨d, hd, List.ne_nil_of_mem he, he, f, hcount, hfe⟩⟩

theorem get_of_mem {d : Dict} {e : String × Val} (he : e ∈ d) : ∃ v, d.get e.1 = .ok v :=
  (Dict.has_iff d e.1).mp (List.any_eq_true.mpr ⟨e, he, by simp⟩)

theorem asRange_total {v : Except Err Val} {r : Option (Rat × Rat)} {w : Val} (h : RangeIs v r)
    (hw : v = .ok w) : w.asRange = .ok r := by
  rcases h with ⟨lo, hi, h, rfl⟩ | ⟨h, rfl⟩ <;> (rw [hw] at h; cases h; rfl)

theorem asLeast_total {d : Dict} {k : String} {m : Option Int} (h : LeastIs (d.get k) m) :
    (argOf d k).asLeast = .ok m := by
  rcases h with ⟨n, h, rfl⟩ | ⟨h | h, rfl⟩
  · rw [argOf_ok h]; rfl
  · rw [argOf_ok h]; rfl
  · rw [argOf_error h]; rfl

theorem known_of_procKeys {k : String} (hk : k ∈ procKeys) :
    k = "ellipse_rev" ∨ k ∈ processArgs := by
  have : ∀ k ∈ procKeys, k = "ellipse_rev" ∨ k ∈ processArgs := by decide
  exact this k hk

theorem known_of_bounds {k : String} (hk : k ∈ ["x_bnd", "y_bnd", "lon_bnd", "lat_bnd"]) :
    k ∈ processArgs := by
  have : ∀ k ∈ ["x_bnd", "y_bnd", "lon_bnd", "lat_bnd"], k ∈ processArgs := by decide
  exact this k hk

/-- C110: the options of a call are always understood: no option of `grid_GLM_flashes` reaches
`process_flashes` that it does not know, and the selection is refused only if a threshold is not a
number or, for a grid in longitude and latitude, a bound is not a range. -/
theorem C110_understood {kw : Dict} {gs : List Subgrid} (h : subgridsFor (splitKwargs kw) = .ok gs)
    {g : Subgrid} (hg : g ∈ gs)
    (he : ∃ m, LeastIs (kw.get "min_points_per_flash") m)
    (hgr : ∃ m, LeastIs (kw.get "min_groups_per_flash") m)
    (hll : kw.get "proj_name" = .ok (.str "latlong") →
      (∃ r, RangeIs (kw.get "x_bnd") r) ∧ ∃ r, RangeIs (kw.get "y_bnd") r) :
    ∃ c, processCriteria (tileProc g) = .ok c ∧ CallAsks kw g.ij c := by
  obtain ⟨me, he⟩ := he
  obtain ⟨mg, hgr⟩ := hgr
  -- the options of the tile
  have key : (∀ k, k ∉ procKeys → k ∉ ["x_bnd", "y_bnd", "lon_bnd", "lat_bnd"] →
        g.proc.get k = .error .keyError) ∧
      (∀ k, k ∈ procKeys → g.proc.get k = kw.get k) ∧
      ∃ x y lon lat, (argOf g.proc "x_bnd").asRange = .ok x ∧ (argOf g.proc "y_bnd").asRange = .ok y ∧
        (argOf g.proc "lon_bnd").asRange = .ok lon ∧ (argOf g.proc "lat_bnd").asRange = .ok lat := by
    have hnx := split_proc_other kw "x_bnd" (by decide)
    have hny := split_proc_other kw "y_bnd" (by decide)
    have hxb := split_kwargs kw "x_bnd" (by decide) (by decide) (by decide) (by decide) (by decide)
    have hyb := split_kwargs kw "y_bnd" (by decide) (by decide) (by decide) (by decide) (by decide)
    have put2 : ∀ (k : String) (v w : Val), k ≠ "lon_bnd" → k ≠ "lat_bnd" →
        (((splitKwargs kw).proc.put "lon_bnd" v).put "lat_bnd" w).get k =
          (splitKwargs kw).proc.get k := by
      intro k v w h1 h2
      rw [Dict.get_put_ne _ _ h2, Dict.get_put_ne _ _ h1]
    have lon2 : ∀ v w : Val,
        (((splitKwargs kw).proc.put "lon_bnd" v).put "lat_bnd" w).get "lon_bnd" = .ok v := by
      intro v w
      rw [Dict.get_put_ne _ _ (by decide), Dict.get_put_same]
    have lat2 : ∀ v w : Val,
        (((splitKwargs kw).proc.put "lon_bnd" v).put "lat_bnd" w).get "lat_bnd" = .ok w := by
      intro v w
      rw [Dict.get_put_same]
    have two : ∀ v w : Val, g.proc = ((splitKwargs kw).proc.put "lon_bnd" v).put "lat_bnd" w →
        (∃ r, v.asRange = .ok r) → (∃ r, w.asRange = .ok r) →
        (∀ k, k ∉ procKeys → k ∉ ["x_bnd", "y_bnd", "lon_bnd", "lat_bnd"] →
          g.proc.get k = .error .keyError) ∧
        (∀ k, k ∈ procKeys → g.proc.get k = kw.get k) ∧
        ∃ x y lon lat, (argOf g.proc "x_bnd").asRange = .ok x ∧
          (argOf g.proc "y_bnd").asRange = .ok y ∧
          (argOf g.proc "lon_bnd").asRange = .ok lon ∧ (argOf g.proc "lat_bnd").asRange = .ok lat := by
      rintro v w hgp ⟨rv, hv⟩ ⟨rw', hw⟩
      rw [hgp]
      refine ⟨?_, ?_, none, none, rv, rw', ?_, ?_, ?_, ?_⟩
      · intro k hk hk'
        simp only [List.mem_cons, List.not_mem_nil, or_false, not_or] at hk'
        rw [put2 k v w hk'.2.2.1 hk'.2.2.2, split_proc_other kw k hk]
      · intro k hk
        rw [put2 k v w (by rintro rfl; revert hk; decide) (by rintro rfl; revert hk; decide),
          split_proc kw k hk]
      · rw [argOf_error ((put2 _ v w (by decide) (by decide)).trans hnx)]; rfl
      · rw [argOf_error ((put2 _ v w (by decide) (by decide)).trans hny)]; rfl
      · rw [argOf_ok (lon2 v w)]; exact hv
      · rw [argOf_ok (lat2 v w)]; exact hw
    have hpn := split_kwargs kw "proj_name" (by decide) (by decide) (by decide) (by decide) (by decide)
    have h := h
    unfold subgridsFor at h
    rw [hpn] at h
    cases hp : kw.get "proj_name" with
    | error e => rw [hp] at h; cases h
    | ok pn =>
      rw [hp] at h
      simp only [bind, Except.bind] at h
      by_cases hl : pn = .str "latlong"
      · subst hl
        obtain ⟨⟨rx, hrx⟩, ry, hry⟩ := hll hp
        rw [if_pos rfl, hxb, hyb] at h
        cases hx : kw.get "x_bnd" with
        | error e => rw [hx] at h; cases h
        | ok x =>
          cases hy : kw.get "y_bnd" with
          | error e => rw [hx, hy] at h; cases h
          | ok y =>
            rw [hx, hy] at h
            simp only [pure, Except.pure, Except.ok.injEq] at h
            subst h
            rw [List.mem_singleton] at hg
            exact two x y (by rw [hg]) ⟨rx, asRange_total hrx hx⟩ ⟨ry, asRange_total hry hy⟩
      · rw [if_neg hl] at h
        split at h
        · cases hs : (splitKwargs kw).subdivide.asNat with
          | error e => rw [hs] at h; cases h
          | ok s =>
            rw [hs] at h
            obtain ⟨tiles, ht⟩ := subdividedOptions_mapM h
            obtain ⟨t, -, hgt⟩ := mapM_ok_mem ht hg
            obtain ⟨-, h2, -, -⟩ := tileOptions_ok hgt
            obtain ⟨b1, b2, b3, b4, -⟩ := tileOptions_bounds hgt
            refine ⟨?_, ?_, some t.xBnd, some t.yBnd, none, none, ?_, ?_, ?_, ?_⟩
            · intro k hk hk'
              rw [h2 k hk', split_proc_other kw k hk]
            · intro k hk
              rw [h2 k (by
                intro hk'
                simp only [List.mem_cons, List.not_mem_nil, or_false] at hk'
                rcases hk' with rfl | rfl | rfl | rfl <;> revert hk <;> decide), split_proc kw k hk]
            · rw [argOf_ok b1]; rfl
            · rw [argOf_ok b2]; rfl
            · rw [argOf_ok b3]; rfl
            · rw [argOf_ok b4]; rfl
        · simp only [pure, Except.pure, Except.ok.injEq] at h
          subst h
          rw [List.mem_singleton] at hg
          exact two .none .none (by rw [hg]) ⟨none, rfl⟩ ⟨none, rfl⟩
  obtain ⟨k1, k2, x, y, lon, lat, a1, a2, a3, a4⟩ := key
  have hknown : (tileProc g).any (fun e => !processArgs.contains e.1) = false := by
    rw [List.any_eq_false]
    intro e hmem
    obtain ⟨v, hv⟩ := get_of_mem hmem
    simp only [Bool.not_eq_true', Bool.not_eq_false]
    by_contra hn
    rw [List.contains_iff_mem] at hn
    have hc : e.1 ≠ "clip_events" := by intro hh; rw [hh] at hn; exact hn (by decide)
    by_cases hr : e.1 = "ellipse_rev"
    · unfold tileProc at hv
      rw [Dict.get_put_ne _ _ hc, hr, Dict.get_del_same] at hv
      cases hv
    · rw [tileProc_get g hr hc, k1 e.1 ?_ ?_] at hv
      · cases hv
      · intro hk
        rcases known_of_procKeys hk with h' | h'
        · exact hr h'
        · exact hn h'
      · intro hk
        exact hn (known_of_bounds hk)
  have hcr : ∃ c, processCriteria (tileProc g) = .ok c := by
    unfold processCriteria
    rw [hknown]
    rw [argOf_congr (tileProc_get g (k := "x_bnd") (by decide) (by decide)),
      argOf_congr (tileProc_get g (k := "y_bnd") (by decide) (by decide)),
      argOf_congr (tileProc_get g (k := "lon_bnd") (by decide) (by decide)),
      argOf_congr (tileProc_get g (k := "lat_bnd") (by decide) (by decide)),
      argOf_congr (tileProc_get g (k := "min_points_per_flash") (by decide) (by decide)),
      argOf_congr (tileProc_get g (k := "min_groups_per_flash") (by decide) (by decide)),
      a1, a2, a3, a4, asLeast_total (by rw [k2 _ (by decide)]; exact he),
      asLeast_total (by rw [k2 _ (by decide)]; exact hgr)]
    exact ⟨_, rfl⟩
  obtain ⟨c, hc⟩ := hcr
  exact ⟨c, hc, callAsks h hg hc⟩

/-- A call for a fixed grid of eight by four boxes of 0.0005 radians in two by two tiles. -/
def fixedCall : Dict :=
  [("proj_name", .str "geos"), ("x_bnd", .bnd 0 (4/1000)), ("y_bnd", .bnd (-1/1000) (1/1000)),
   ("dx", .num (1/2000)), ("dy", .num (1/2000)), ("subdivide", .nat 2), ("clip_events", .bool true),
   ("fixed_grid", .bool true), ("nadir_lon", .num (-75)), ("ellipse_rev", .nat 1),
   ("min_points_per_flash", .nat 2), ("output_writer", .function "write"),
   ("output_filename_prefix", .str "GLM")]

/-- A call for a grid in longitude and latitude, one degree by one degree. -/
def lonLatCall : Dict :=
  [("proj_name", .str "latlong"), ("x_bnd", .bnd 0 1), ("y_bnd", .bnd 0 1),
   ("dx", .num (1/4)), ("dy", .num (1/4)), ("clip_events", .bool true), ("ellipse_rev", .nat 1)]

/-- Two flashes.  The first has two events, the second one; both lie on both sides of the edge of
the grids above. -/
def edgeFile : GFile where
  flashes := [⟨5, 0, { x := -1/1000, lon := -1/10, lat := 1/2, nGroups := 1, nEvents := 2 }⟩,
    ⟨6, 0, { x := 1/1000, lon := 1/10, lat := 1/2, nGroups := 1, nEvents := 1 }⟩]
  groups := [⟨11, 5, { nEvents := 2 }⟩, ⟨12, 6, { nEvents := 1 }⟩]
  events := [⟨100, 11, { x := 1/1000, lon := 1/10, lat := 1/2, flashOf := 5 }⟩,
    ⟨101, 11, { x := -3/1000, lon := -3/10, lat := 1/2, flashOf := 5 }⟩,
    ⟨102, 12, { x := 1/1000, lon := 1/10, lat := 1/2, flashOf := 6 }⟩]

theorem edgeFile_opened : Opened edgeFile :=
  ⟨by decide, ⟨by decide, by decide, by decide, by decide⟩, by unfold UniqueIds; decide,
    by unfold UniqueIds; decide⟩

/-- What the tiles get, by number of the event. -/
def eventsByTile (r : Except Err (List (TileRun (List GFile) Unit) × Dict)) :
    Option (List ((Nat × Nat) × List Int)) :=
  r.toOption.map fun p => p.1.map fun t => (t.ij, t.state.flatMap fun ch => ch.events.map Row.id)

-- the first flash reaches the two tiles on the left, it is too far from the others; the second has
-- too few events
example : eventsByTile (gridGlmFlashes (recorder id) [edgeFile] fixedCall []) =
    some [((0, 0), [100, 101]), ((0, 1), [100, 101]), ((1, 0), []), ((1, 1), [])] := by
  decide +kernel

/-- C110, for a grid in longitude and latitude: there is no margin, so that an event in the middle of
a pixel of the grid does not count when the position of its flash is just outside. -/
theorem C110_lonlat_no_margin :
    eventsByTile (gridGlmFlashes (recorder id) [edgeFile] lonLatCall []) =
      some [((0, 0), [102])] := by
  decide +kernel

end Verif.Props
