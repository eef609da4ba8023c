import Verif.Props.Session
import Verif.Props.SearchFl
import Verif.Props.Call

/-!
# Tiles hold what the whole grid holds: C129

The grids of a tile are compared with those of a call for the whole domain, for every way of cutting the domain into
tiles.
-/

namespace Verif.Props

open Verif.Py Verif.Model Verif.Spec Verif.Proofs

/-! ## The cells at which the search looks -/

open scoped Classical in
/-- The clipper, restricted to the cells at which the search for the footprint looks. -/
noncomputable def foundClip (clip : Poly → Poly → List Poly) (query : List Pt → Pt → Nat → List Nat) (x y : List Rat)
    (p q : Poly) : List Poly :=
  if ∃ c, candidatesFor query (gridMesh x y) .none p = .ok c ∧ q ∈ c.quads then clip p q else []

theorem foundClip_same {clip : Poly → Poly → List Poly} {query : List Pt → Pt → Nat → List Nat} {x y : List Rat}
    {p q : Poly} {c : Candidates} (hc : candidatesFor query (gridMesh x y) .none p = .ok c) (hq : q ∈ c.quads) :
    foundClip clip query x y p q = clip p q := if_pos ⟨c, hc, hq⟩

theorem mapM_same {α β : Type} {l : List α} {f g : α → Except Err β} (h : ∀ a ∈ l, f a = g a) :
    l.mapM f = l.mapM g := by
  induction l with
  | nil => rfl
  | cons a l ih =>
    rw [List.mapM_cons, List.mapM_cons, h a List.mem_cons_self, ih fun a ha => h a (List.mem_cons_of_mem _ ha)]

theorem zip_middle {α β γ : Type} {R : α → γ → Prop} {l : List α} {m : List β} {n : List γ}
    (h : List.Forall₂ R l n) (hm : m.length = l.length) {a : α × β × γ} (ha : a ∈ l.zip (m.zip n)) : R a.1 a.2.2 := by
  induction h generalizing m with
  | nil => simp at ha
  | @cons p c ps cs hp _ ih =>
    cases m with
    | nil => simp at hm
    | cons b m =>
      rw [List.zip_cons_cons, List.zip_cons_cons] at ha
      rcases List.mem_cons.mp ha with rfl | ha
      · exact hp
      · exact ih (by simpa using hm) ha

theorem slice_found (clip : Poly → Poly → List Poly) (query : List Pt → Pt → Nat → List Nat) (x y : List Rat)
    (polys : List Poly) : slicePolys (foundClip clip query x y) query (gridMesh x y) polys .none =
      slicePolys clip query (gridMesh x y) polys .none := by
  unfold slicePolys
  cases ha : (polys.mapM fun p => do pure |← areaOf p|) with
  | error e => rfl
  | ok areas =>
    simp only [bind, Except.bind]
    cases hc : polys.mapM (candidatesFor query (gridMesh x y) .none) with
    | error e => rfl
    | ok cands =>
      simp only
      have h1 := mapM_ok_forall₂ hc
      have h2 := (mapM_ok_forall₂ ha).length_eq
      rw [mapM_same (f := fun a : Poly × Rat × Candidates => makeSubPolys (foundClip clip query x y) a.1 a.2.1 a.2.2)
        (g := fun a => makeSubPolys clip a.1 a.2.1 a.2.2)]
      intro a ham
      have h3 := zip_middle h1 h2.symm ham
      unfold makeSubPolys clipPolysByOnePoly
      rw [List.map_congr_left fun q hq => foundClip_same h3 hq]

theorem readFiles_found (clip : Poly → Poly → List Poly) (query : List Pt → Pt → Nat → List Nat)
    (quads : List Pt → List Poly) (x y : List Rat) (basedate : Int) (loc : Rat → Rat → Int)
    (order : List Int → List Int) (c : Criteria) (n : Nat) (files : List (Int × GFile)) :
    readFiles (foundClip clip query x y) query quads (gridMesh x y) basedate loc order c n files =
      readFiles clip query quads (gridMesh x y) basedate loc order c n files := by
  have h : ∀ t d, fastFixedGridReadChunk (foundClip clip query x y) query quads (gridMesh x y) t basedate loc d =
      fastFixedGridReadChunk clip query quads (gridMesh x y) t basedate loc d := by
    intro t d
    unfold fastFixedGridReadChunk
    simp only [slice_found]
  have h' : ∀ t d, readFlashesLut (foundClip clip query x y) query quads (gridMesh x y) basedate loc order c n t d =
      readFlashesLut clip query quads (gridMesh x y) basedate loc order c n t d := by
    intro t d
    unfold readFlashesLut
    rw [show fastFixedGridReadChunk (foundClip clip query x y) query quads (gridMesh x y) t basedate loc =
      fastFixedGridReadChunk clip query quads (gridMesh x y) t basedate loc from funext (h t)]
  unfold readFiles
  simp only [h']

theorem covered_found (clip : Poly → Poly → List Poly) (query : List Pt → Pt → Nat → List Nat) (x y : List Rat)
    (p : Poly) : coveredArea (foundClip clip query x y) query (gridMesh x y) p =
      coveredArea clip query (gridMesh x y) p := by
  unfold coveredArea
  cases hc : candidatesFor query (gridMesh x y) .none p with
  | error e => rfl
  | ok c =>
    simp only
    congr 2
    exact List.flatMap_congr fun q hq => foundClip_same hc hq

theorem cellRect_inj {x y : List Rat} (hx : AxisOk x) (hy : AxisOk y) {r k r' k' : Nat} (hr : r < y.length)
    (hk : k < x.length) (hr' : r' < y.length) (hk' : k' < x.length) (h : cellRect x y r k = cellRect x y r' k') :
    r = r' ∧ k = k' := by
  have key : ∀ {l : List Rat}, AxisOk l → ∀ {a b : Nat}, a < l.length → b < l.length → l.getD a 0 = l.getD b 0 → a = b := by
    intro l hl a b ha hb he
    rcases Nat.lt_trichotomy a b with h | h | h
    · exact absurd he (ne_of_lt (getD_lt_of_lt hl.1 h hb))
    · exact h
    · exact absurd he.symm (ne_of_lt (getD_lt_of_lt hl.1 h ha))
  unfold cellRect at h
  simp only [List.cons.injEq, Prod.mk.injEq] at h
  exact ⟨key hy hr hr' h.1.2, key hx hk hk' h.1.1⟩

theorem search_found (clip : Poly → Poly → List Poly) (query : List Pt → Pt → Nat → List Nat) {x y : List Rat}
    (hx : AxisOk x) (hy : AxisOk y) (hsz : 2 < x.length ∨ 2 < y.length) {p : Poly} (hp : p ≠ []) :
    SearchComplete (foundClip clip query x y) query x y p := by
  intro i j hi hj hne
  have h : ∃ c, candidatesFor query (gridMesh x y) .none p = .ok c ∧ cellRect x y j i ∈ c.quads := by
    by_contra hn
    exact hne (if_neg hn)
  obtain ⟨c, hc, hq⟩ := h
  refine ⟨c, hc, ?_⟩
  obtain ⟨c', hc', ⟨hw, -⟩, -⟩ := grid_candidates query hx hy (bbox := .none) (Or.inl ⟨rfl, hsz⟩) p hp
  rw [hc] at hc'
  cases hc'
  rw [hw.2.2.2] at hq
  obtain ⟨⟨r, k⟩, hrk, he⟩ := List.mem_map.mp hq
  have := hw.2.2.1 r k hrk
  obtain ⟨rfl, rfl⟩ := cellRect_inj hx hy (by omega) (by omega) (by omega) (by omega) he
  exact hrk

/-- Nothing is missed in a cell with two cells around it on each side. -/
theorem found_inside {clip : Poly → Poly → List Poly} (query : List Pt → Pt → Nat → List Nat) {x y : List Rat}
    {dx dy : Rat} (hx : AxisOk x) (hy : AxisOk y) (hsz : 2 < x.length ∨ 2 < y.length) (ux : Spaced x dx)
    (uy : Spaced y dy) (hb : ∀ x y p i j, Beside x y p i j → clip p (cellRect x y j i) = []) {p : Poly}
    (hn : ∀ v ∈ p, |v.1 - (meanPoint p).1| ≤ 2 * dx ∧ |v.2 - (meanPoint p).2| ≤ 2 * dy) {i j : Nat} (hi : 2 ≤ i)
    (hi' : i + 3 < x.length) (hj : 2 ≤ j) (hj' : j + 3 < y.length) :
    foundClip clip query x y p (cellRect x y j i) = clip p (cellRect x y j i) := by
  by_cases hne : clip p (cellRect x y j i) = []
  · unfold foundClip
    split
    · rfl
    · exact hne.symm
  have hnb : ¬ Beside x y p i j := fun h => hne (hb x y p i j h)
  unfold Beside at hnb
  push Not at hnb
  obtain ⟨⟨v1, k1, b1⟩, ⟨v2, k2, b2⟩, ⟨v3, k3, b3⟩, ⟨v4, k4, b4⟩⟩ := hnb
  have axis : ∀ {e : List Rat} {s M v w : Rat} {k : Nat}, AxisOk e → Spaced e s → 2 ≤ k → k + 3 < e.length →
      e.getD k 0 < v → w < e.getD (k + 1) 0 → |v - M| ≤ 2 * s → |w - M| ≤ 2 * s →
      ∃ col, inCell e col M ∧ k ≤ col + 2 ∧ col ≤ k + 2 := by
    intro e s M v w k he us h1 h2 hv hw hvM hwM
    have a1 := us.two he (i := 0) (j := k) (by omega) (by omega)
    have a2 := us.two he (i := k + 1) (j := e.length - 1) (by omega) (by omega)
    exact near_cell he us (δ := 0) (m := M) (M := M) (by simp) (by linarith [(abs_le.mp hvM).2])
      (by linarith [(abs_le.mp hwM).1]) (by linarith) (by linarith) (by omega) hv hw
  obtain ⟨col, c1, c2, c3⟩ := axis hx ux hi hi' b1 b2 (hn v1 k1).1 (hn v2 k2).1
  obtain ⟨row, r1, r2, r3⟩ := axis hy uy hj hj' b3 b4 (hn v3 k3).2 (hn v4 k4).2
  obtain ⟨c, g1, g2, g3, g4⟩ := grid_nearest query hx hy hsz (meanPoint p)
  have hmem := (g4 j i).mpr ⟨by omega, by omega, col, row, c1, r1, c2, c3, r2, r3⟩
  refine foundClip_same (c := c) ?_ ?_
  · unfold candidatesFor
    simp only [g1, bind, Except.bind, pure, Except.pure]
    rw [if_neg g3]
  · rw [g2.2.2.2]
    exact List.mem_map.mpr ⟨(j, i), hmem, rfl⟩

/-! ## Two grids with a cell in common -/

theorem sum_filter_agree {α : Type} (l : List α) (P Q : α → Prop) [DecidablePred P] [DecidablePred Q] (F G : α → Rat)
    (hFG : ∀ a ∈ l, P a → F a = G a) (h1 : ∀ a ∈ l, P a → Q a) (h2 : ∀ a ∈ l, Q a → ¬ P a → G a = 0) :
    ((l.filter fun a => P a).map F).sum = ((l.filter fun a => Q a).map G).sum := by
  induction l with
  | nil => rfl
  | cons a l ih =>
    have ih := ih (fun a ha => hFG a (List.mem_cons_of_mem _ ha)) (fun a ha => h1 a (List.mem_cons_of_mem _ ha))
      fun a ha => h2 a (List.mem_cons_of_mem _ ha)
    by_cases hP : P a
    · rw [List.filter_cons_of_pos (by simpa using hP), List.filter_cons_of_pos (by simpa using h1 a List.mem_cons_self hP),
        List.map_cons, List.map_cons, List.sum_cons, List.sum_cons, ih, hFG a List.mem_cons_self hP]
    · rw [List.filter_cons_of_neg (by simpa using hP)]
      by_cases hQ : Q a
      · rw [List.filter_cons_of_pos (by simpa using hQ), List.map_cons, List.sum_cons, h2 a List.mem_cons_self hQ hP, ih,
          zero_add]
      · rw [List.filter_cons_of_neg (by simpa using hQ), ih]

theorem mem_flashPlaces {d : GFile} {f : Row GVal} {p : Pt} :
    p ∈ flashPlaces d f ↔ ∃ e ∈ d.events, EventOfFlash d f.id e ∧ placeOf e = p := by
  unfold flashPlaces
  rw [List.mem_dedup, List.mem_map]
  constructor
  · rintro ⟨e, he, rfl⟩
    obtain ⟨h1, h2⟩ := List.mem_filter.mp he
    exact ⟨e, h1, of_decide_eq_true h2, rfl⟩
  · rintro ⟨e, h1, h2, rfl⟩
    exact ⟨e, List.mem_filter.mpr ⟨h1, by simpa using h2⟩, rfl⟩

theorem mem_groupPlaces {d : GFile} {g : Row GVal} {p : Pt} :
    p ∈ groupPlaces d g ↔ ∃ e ∈ d.events, e.pid = g.id ∧ placeOf e = p := by
  unfold groupPlaces
  rw [List.mem_dedup, List.mem_map]
  constructor
  · rintro ⟨e, he, rfl⟩
    obtain ⟨h1, h2⟩ := List.mem_filter.mp he
    exact ⟨e, h1, of_decide_eq_true h2, rfl⟩
  · rintro ⟨e, h1, h2, rfl⟩
    exact ⟨e, List.mem_filter.mpr ⟨h1, by simpa using h2⟩, rfl⟩

/-- Two grids have the same values in a cell that they have in common, if the flashes that one of them leaves out do not
reach the cell. -/
theorem cells_agree {clip clip' : Poly → Poly → List Poly} {foot : Pt → Poly} {x y x' y' : List Rat} {c c' : Criteria}
    {files : List (Int × GFile)} {i j i' j' : Nat} {fed fa te ged ga mfa fed' fa' te' ged' ga' mfa' : Rat}
    (h : CellsOfFiles clip foot x y c files i j fed fa te ged ga mfa)
    (h' : CellsOfFiles clip' foot x' y' c' files i' j' fed' fa' te' ged' ga' mfa')
    (hr : cellRect x y j i = cellRect x' y' j' i')
    (hcl : ∀ d ∈ files, ∀ e ∈ d.2.events,
      clip (foot (placeOf e)) (cellRect x' y' j' i') = clip' (foot (placeOf e)) (cellRect x' y' j' i'))
    (hask : ∀ d ∈ files, ∀ f ∈ askedFor d.2 c, f ∈ askedFor d.2 c')
    (hleft : ∀ d ∈ files, ∀ f ∈ askedFor d.2 c', f ∉ askedFor d.2 c →
      ∀ e ∈ d.2.events, EventOfFlash d.2 f.id e → clip' (foot (placeOf e)) (cellRect x' y' j' i') = [])
    (hc : ¬ NoCriteria c) (hc' : ¬ NoCriteria c') :
    fed = fed' ∧ fa = fa' ∧ te = te' ∧ ged = ged' ∧ ga = ga' ∧ mfa = mfa' := by
  classical
  have area : ∀ d ∈ files, ∀ e ∈ d.2.events,
      areaInCell clip x y (foot (placeOf e)) i j = areaInCell clip' x' y' (foot (placeOf e)) i' j' := by
    intro d hd e he
    unfold areaInCell
    rw [hr, hcl d hd e he]
  have cell : gridCellArea x y i j = gridCellArea x' y' i' j' := by
    unfold cellRect at hr
    simp only [List.cons.injEq, Prod.mk.injEq, and_true] at hr
    unfold gridCellArea
    rw [hr.1.1, hr.1.2, hr.2.1.1, hr.2.2.1.2]
  have zero : ∀ d ∈ files, ∀ f ∈ askedFor d.2 c', f ∉ askedFor d.2 c → ∀ e ∈ d.2.events, EventOfFlash d.2 f.id e →
      areaInCell clip' x' y' (foot (placeOf e)) i' j' = 0 := by
    intro d hd f hf hf' e he hfe
    unfold areaInCell
    rw [hleft d hd f hf hf' e he hfe]
    rfl
  have flashSum : ∀ d ∈ files, ∀ u : Row GVal → Rat,
      ((askedFor d.2 c).map fun f => u f * ((flashPlaces d.2 f).map fun p =>
        areaInCell clip x y (foot p) i j / gridCellArea x y i j).sum).sum =
      ((askedFor d.2 c').map fun f => u f * ((flashPlaces d.2 f).map fun p =>
        areaInCell clip' x' y' (foot p) i' j' / gridCellArea x' y' i' j').sum).sum := by
    intro d hd u
    have m1 : ∀ f, f ∈ askedFor d.2 c → f ∈ askedFor d.2 c' := hask d hd
    have m2 : ∀ f ∈ askedFor d.2 c', f ∉ askedFor d.2 c → ((flashPlaces d.2 f).map fun p =>
        areaInCell clip' x' y' (foot p) i' j' / gridCellArea x' y' i' j').sum = 0 := by
      intro f hf hf'
      refine List.sum_eq_zero ?_
      intro v hv
      obtain ⟨p, hp, rfl⟩ := List.mem_map.mp hv
      obtain ⟨e, he, hfe, rfl⟩ := mem_flashPlaces.mp hp
      rw [zero d hd f hf hf' e he hfe, zero_div]
    have m3 : ∀ f, ((flashPlaces d.2 f).map fun p => areaInCell clip x y (foot p) i j / gridCellArea x y i j).sum =
        ((flashPlaces d.2 f).map fun p => areaInCell clip' x' y' (foot p) i' j' / gridCellArea x' y' i' j').sum := by
      intro f
      congr 1
      apply List.map_congr_left
      intro p hp
      obtain ⟨e, he, -, rfl⟩ := mem_flashPlaces.mp hp
      rw [area d hd e he, cell]
    unfold askedFor at m1 m2 ⊢
    rw [if_neg hc, if_neg hc'] at *
    simp only [List.mem_filter, decide_eq_true_eq] at m1 m2
    refine sum_filter_agree _ _ _ _ _ (fun f _ _ => by rw [m3]) (fun f hf hP => (m1 f ⟨hf, hP⟩).2) ?_
    intro f hf hQ hP
    rw [m2 f ⟨hf, hQ⟩ fun h => hP h.2, mul_zero]
  have groupSum : ∀ d ∈ files, ∀ u : Row GVal → Rat,
      ((askedGroups d.2 c).map fun g => u g * ((groupPlaces d.2 g).map fun p =>
        areaInCell clip x y (foot p) i j / gridCellArea x y i j).sum).sum =
      ((askedGroups d.2 c').map fun g => u g * ((groupPlaces d.2 g).map fun p =>
        areaInCell clip' x' y' (foot p) i' j' / gridCellArea x' y' i' j').sum).sum := by
    intro d hd u
    refine sum_filter_agree _ _ _ _ _ ?_ ?_ ?_
    · intro g _ _
      congr 2
      apply List.map_congr_left
      intro p hp
      obtain ⟨e, he, -, rfl⟩ := mem_groupPlaces.mp hp
      rw [area d hd e he, cell]
    · rintro g _ ⟨f, hf, hfg⟩
      exact ⟨f, hask d hd f hf, hfg⟩
    · rintro g hg ⟨f, hf, hfg⟩ hn
      rw [List.sum_eq_zero, mul_zero]
      intro v hv
      obtain ⟨p, hp, rfl⟩ := List.mem_map.mp hv
      obtain ⟨e, he, heg, rfl⟩ := mem_groupPlaces.mp hp
      rw [zero d hd f hf (fun h => hn ⟨f, h, hfg⟩) e he ⟨g, hg, heg.symm, hfg.symm⟩, zero_div]
  have energySum : ∀ d ∈ files,
      ((askedEvents d.2 c).map fun e => e.val.energy * (areaInCell clip x y (foot (placeOf e)) i j /
        |signedArea (foot (placeOf e))|)).sum =
      ((askedEvents d.2 c').map fun e => e.val.energy * (areaInCell clip' x' y' (foot (placeOf e)) i' j' /
        |signedArea (foot (placeOf e))|)).sum := by
    intro d hd
    refine sum_filter_agree _ _ _ _ _ ?_ ?_ ?_
    · intro e he _
      rw [area d hd e he]
    · rintro e _ ⟨f, hf, hfe⟩
      exact ⟨f, hask d hd f hf, hfe⟩
    · rintro e he ⟨f, hf, hfe⟩ hn
      rw [zero d hd f hf (fun h => hn ⟨f, h, hfe⟩) e he hfe, zero_div, mul_zero]
  have over : ∀ F G : Int × GFile → Rat, (∀ d ∈ files, F d = G d) → (files.map F).sum = (files.map G).sum :=
    fun F G hFG => by rw [List.map_congr_left hFG]
  refine ⟨?_, ?_, ?_, ?_, ?_, ?_⟩
  · rw [h.flashes, h'.flashes]
    exact over _ _ fun d hd => by simpa using flashSum d hd fun _ => 1
  · rw [h.flashArea, h'.flashArea]
    exact over _ _ fun d hd => flashSum d hd fun f => f.val.area
  · rw [h.energy, h'.energy]
    exact over _ _ fun d hd => energySum d hd
  · rw [h.groups, h'.groups]
    exact over _ _ fun d hd => by simpa using groupSum d hd fun _ => 1
  · rw [h.groupArea, h'.groupArea]
    exact over _ _ fun d hd => groupSum d hd fun f => f.val.area
  · refine leastOrZero_unique (List.Perm.refl _) (leastOrZero_trans ?_ ?_ h.least) h'.least
    · intro a ha
      obtain ⟨d, hd, ha⟩ := List.mem_flatMap.mp ha
      obtain ⟨f, hf, rfl⟩ := List.mem_map.mp ha
      obtain ⟨hf1, hf2⟩ := List.mem_filter.mp hf
      obtain ⟨p, hp, hne⟩ := of_decide_eq_true hf2
      refine List.mem_flatMap.mpr ⟨d, hd, List.mem_map.mpr ⟨f, List.mem_filter.mpr ⟨hask d hd f hf1, ?_⟩, rfl⟩⟩
      simp only [decide_eq_true_eq]
      refine ⟨p, hp, ?_⟩
      obtain ⟨e, he, -, rfl⟩ := mem_flashPlaces.mp hp
      rwa [hr, hcl d hd e he] at hne
    · intro b hb
      obtain ⟨d, hd, hb⟩ := List.mem_flatMap.mp hb
      obtain ⟨f, hf, rfl⟩ := List.mem_map.mp hb
      obtain ⟨hf1, hf2⟩ := List.mem_filter.mp hf
      obtain ⟨p, hp, hne⟩ := of_decide_eq_true hf2
      obtain ⟨e, he, hfe, rfl⟩ := mem_flashPlaces.mp hp
      have hin : f ∈ askedFor d.2 c := by
        by_contra hn
        exact hne (hleft d hd f hf1 hn e he hfe)
      refine ⟨_, List.mem_flatMap.mpr ⟨d, hd, List.mem_map.mpr ⟨f, List.mem_filter.mpr ⟨hin, ?_⟩, rfl⟩⟩, le_refl _⟩
      simp only [decide_eq_true_eq]
      exact ⟨_, hp, by rwa [hr, hcl d hd e he]⟩

/-! ## Tiles -/

theorem boxEdges_getD (lo d : Rat) {m k : Nat} (h : k ≤ m) : (boxEdges lo d m).getD k 0 = lo + k * d := by
  rw [List.getD_eq_getElem?_getD, boxEdges_getElem?, if_pos h]
  rfl

theorem boxEdges_axis {lo d : Rat} (hd : 0 < d) {m : Nat} (hm : 0 < m) : AxisOk (boxEdges lo d m) := by
  refine ⟨?_, by rw [boxEdges_length]; omega⟩
  unfold Increasing boxEdges
  rw [List.pairwise_map]
  refine (List.pairwise_lt_range).imp ?_
  intro a b hab
  have : (a : Rat) < b := by exact_mod_cast hab
  nlinarith

theorem boxEdges_spaced {lo d : Rat} (hd : 0 < d) {m : Nat} : Spaced (boxEdges lo d m) d := by
  refine ⟨hd, fun k hk => ?_⟩
  rw [boxEdges_length] at hk
  rw [boxEdges_getD lo d (by omega), boxEdges_getD lo d (by omega)]
  push_cast
  linarith

/-- The number of boxes of padding. -/
def padBoxes (pad d : Rat) : Nat := ⌊pad / d⌋.toNat

/-- The bounds of a tile. -/
theorem tile_shape {xlo ylo dx dy xPad yPad : Rat} {M N s : Nat} (hs : 0 < s) (hdx : 0 < dx) (hdy : 0 < dy)
    (hxp : 0 ≤ xPad) (hyp : 0 ≤ yPad) {tiles : List Tile}
    (h : subdividedFixedGrid (xlo, xlo + M * dx) (ylo, ylo + N * dy) dx dy s xPad yPad = .ok tiles) {t : Tile}
    (ht : t ∈ tiles) : t.ij.1 < s ∧ t.ij.2 < s ∧
      t.xBnd = (xlo + tileStart M s t.ij.1 * dx - padBoxes xPad dx * dx,
        xlo + tileStart M s (t.ij.1 + 1) * dx + padBoxes xPad dx * dx) ∧
      t.yBnd = (ylo + tileStart N s t.ij.2 * dy - padBoxes yPad dy * dy,
        ylo + tileStart N s (t.ij.2 + 1) * dy + padBoxes yPad dy * dy) ∧
      t.pads = ⟨padBoxes xPad dx, padBoxes yPad dy, padBoxes xPad dx * dx, padBoxes yPad dy * dy⟩ := by
  have hp : ⌊xPad / dx⌋ = (padBoxes xPad dx : Int) :=
    (Int.toNat_of_nonneg (Int.floor_nonneg.mpr (div_nonneg hxp hdx.le))).symm
  have hq : ⌊yPad / dy⌋ = (padBoxes yPad dy : Int) :=
    (Int.toNat_of_nonneg (Int.floor_nonneg.mpr (div_nonneg hyp hdy.le))).symm
  have hpads : padsFor xPad yPad dx dy =
      .ok ⟨padBoxes xPad dx, padBoxes yPad dy, padBoxes xPad dx * dx, padBoxes yPad dy * dy⟩ := by
    unfold padsFor
    rw [if_neg (by rintro (h | h); exacts [hdx.ne' h, hdy.ne' h])]
    simp only [pyInt_of_nonneg (div_nonneg hxp hdx.le), pyInt_of_nonneg (div_nonneg hyp hdy.le), hp,
      hq, Int.cast_natCast]
  unfold subdividedFixedGrid at h
  simp only [hpads, subdivideBnd_boxes _ _ _ _ hs hdx, subdivideBnd_boxes _ _ _ _ hs hdy, bind,
    Except.bind, pure, Except.pure, Except.ok.injEq] at h
  rw [← h] at ht
  obtain ⟨i, hi, ht⟩ := List.mem_flatMap.mp ht
  obtain ⟨j, hj, rfl⟩ := List.mem_map.mp ht
  rw [List.mem_range] at hi hj
  refine ⟨hi, hj, ?_, ?_, rfl⟩
  · simp only
    rw [edges_boxes _ _ _ _ _ (by omega), edges_boxes _ _ _ _ _ (by omega)]
  · simp only
    rw [edges_boxes _ _ _ _ _ (by omega), edges_boxes _ _ _ _ _ (by omega)]

theorem padded_edges {edges : Rat × Rat → Rat → List Rat} (he : MakesEdges edges) {lo d : Rat} (hd : 0 < d) {a b p : Nat}
    (hab : a ≤ b) : edges (lo + a * d - p * d, lo + b * d + p * d) d = boxEdges (lo + a * d - p * d) d (b - a + 2 * p) := by
  rw [← he _ _ _ hd]
  congr 2
  push_cast [Nat.cast_sub hab]
  ring

/-- What a call for one tile puts into its grids: the files are read with the bounds of the tile among the criteria. -/
def Gridded (clip : Poly → Poly → List Poly) (query : List Pt → Pt → Nat → List Nat) (foot : Pt → Poly)
    (edges : Rat × Rat → Rat → List Rat) (dx dy : Rat) (basedate : Int) (loc : Rat → Rat → Int)
    (order : List Int → List Int) (rest : Criteria) (n : Nat) (files : List (Int × GFile))
    (points : Grid → List LmaParent → Grid) (label : String) (par : String → FakeLma → List LmaParent) (t : Tile)
    (grid : String → Grid) : Prop :=
  ∃ fakes outgrids grids,
    readFiles clip query (fun pts => pts.map foot) (gridMesh (edges t.xBnd dx) (edges t.yBnd dy)) basedate loc order
      { rest with x := some t.xBnd, y := some t.yBnd } n files = .ok fakes ∧
    lutPipelineSetup = .ok outgrids ∧
    gridFrame points ((edges t.xBnd dx).length - 1) ((edges t.yBnd dy).length - 1) outgrids
      (fun k => fakes.map fun f => (f.children, par k f)) = .ok grids ∧
    ∀ name ∈ ["flash_extent_density", "average_flash_area", "total_energy", "group_extent_density",
      "average_group_area", "minimum_flash_area"], gridNamed label grids name = some (grid name)

/-- What is written of a grid of a tile. -/
def tileWritten (edges : Rat × Rat → Rat → List Rat) (dx dy : Rat) (t : Tile) (g : Grid) : WriteCall :=
  captureWriteCall t.pads ⟨cellCentres (edges t.xBnd dx), cellCentres (edges t.yBnd dy), g⟩

/-- What is assumed of a file: it has been opened without defects, flashes have an area, the table puts only events at one
place together, footprints are polygons with an area that reach at most two cells from their mean, events are in the field
of view, and no footprint reaches further from its event, or from the position of its flash, than the padding. -/
structure CompactFile (foot : Pt → Poly) (loc : Rat → Rat → Int) (dx dy px py : Rat) (d : GFile) : Prop where
  hasData : HasData d
  consistent : Consistent d
  derived : Derived d
  flashes : UniqueIds d.flashes
  groups : UniqueIds d.groups
  areas : ∀ f ∈ d.flashes, 0 < f.val.area
  pixels : PixelExact loc d
  polygons : ∀ e ∈ d.events, foot (placeOf e) ≠ [] ∧ signedArea (foot (placeOf e)) ≠ 0
  narrow : ∀ e ∈ d.events, ∀ v ∈ foot (placeOf e),
    |v.1 - (meanPoint (foot (placeOf e))).1| ≤ 2 * dx ∧ |v.2 - (meanPoint (foot (placeOf e))).2| ≤ 2 * dy
  view : ∀ e ∈ d.events, |e.val.x| < 1349 / 10000 ∧ |e.val.y| < 1349 / 10000
  event : ∀ e ∈ d.events, ∀ v ∈ foot (placeOf e), |v.1 - e.val.x| ≤ px ∧ |v.2 - e.val.y| ≤ py
  flash : ∀ f ∈ d.flashes, ∀ e ∈ d.events, EventOfFlash d f.id e → ∀ v ∈ foot (placeOf e),
    |v.1 - f.val.x| ≤ px ∧ |v.2 - f.val.y| ≤ py

/-- Every chunk has a footprint with a part on the grid (otherwise the call ends with ValueError, C68). -/
def ChunksOnGrid (clip : Poly → Poly → List Poly) (query : List Pt → Pt → Nat → List Nat) (foot : Pt → Poly)
    (edges : Rat × Rat → Rat → List Rat) (dx dy : Rat) (order : List Int → List Int) (rest : Criteria) (n : Nat)
    (t : Tile) (d : GFile) : Prop :=
  ∀ chunks, readFlashesChunks order d { rest with x := some t.xBnd, y := some t.yBnd } n = .ok chunks →
    ∀ ch ∈ chunks, ∃ e ∈ ch.events,
      coveredArea clip query (gridMesh (edges t.xBnd dx) (edges t.yBnd dy)) (foot (placeOf e)) ≠ 0

/-- The grids of a tile hold what the files put into the cells at which the search looks. -/
theorem tile_gridded {clip : Poly → Poly → List Poly} {query : List Pt → Pt → Nat → List Nat} {foot : Pt → Poly}
    {edges : Rat × Rat → Rat → List Rat} {dx dy px py : Rat} (basedate : Int) {loc : Rat → Rat → Int}
    {order : List Int → List Int} {rest : Criteria} {n : Nat} {files : List (Int × GFile)}
    (points : Grid → List LmaParent → Grid) (label : String) (par : String → FakeLma → List LmaParent) {t : Tile}
    (hclip : ∀ p q s, s ∈ clip p q → s ≠ []) (ho : ∀ l, (order l).Perm l) (hn : 0 < n)
    (hx : AxisOk (edges t.xBnd dx)) (hy : AxisOk (edges t.yBnd dy)) (hsz : 2 < (edges t.xBnd dx).length)
    (hf : ∀ d ∈ files, d.2.events ≠ [] → CompactFile foot loc dx dy px py d.2)
    (hg : ∀ d ∈ files, d.2.events ≠ [] → ChunksOnGrid clip query foot edges dx dy order rest n t d.2) :
    ∃ grid : String → Grid,
      Gridded clip query foot edges dx dy basedate loc order rest n files points label par t grid ∧
      (∀ name ∈ ["flash_extent_density", "average_flash_area", "total_energy", "group_extent_density",
        "average_group_area", "minimum_flash_area"], (grid name).n0 = (edges t.xBnd dx).length - 1 ∧
          (grid name).n1 = (edges t.yBnd dy).length - 1) ∧
      ∀ i j, i + 1 < (edges t.xBnd dx).length → j + 1 < (edges t.yBnd dy).length →
        CellsOfFiles (foundClip clip query (edges t.xBnd dx) (edges t.yBnd dy)) foot (edges t.xBnd dx) (edges t.yBnd dy)
          { rest with x := some t.xBnd, y := some t.yBnd } files i j
          ((grid "flash_extent_density").val i j) ((grid "average_flash_area").val i j)
          ((grid "total_energy").val i j) ((grid "group_extent_density").val i j)
          ((grid "average_group_area").val i j) ((grid "minimum_flash_area").val i j) := by
  obtain ⟨fakes, outgrids, grids, fed, fa, te, ged, ga, mfa, a1, a2, a3, n1, n2, n3, n4, n5, n6, hd, hv⟩ :=
    C93_partial (foundClip clip query (edges t.xBnd dx) (edges t.yBnd dy)) query foot (edges t.xBnd dx) (edges t.yBnd dy)
      basedate loc order { rest with x := some t.xBnd, y := some t.yBnd } n files points label par hx hy (Or.inl hsz)
      (by
        intro p q s hs
        unfold foundClip at hs
        split at hs
        · exact hclip p q s hs
        · exact absurd hs (List.not_mem_nil)) ho hn (by
        intro d hd hne
        have h := hf d hd hne
        exact
          { hasData := h.hasData
            consistent := h.consistent
            derived := h.derived
            flashes := h.flashes
            groups := h.groups
            areas := h.areas
            pixels := h.pixels
            polygons := fun e he => ⟨(h.polygons e he).1, (h.polygons e he).2,
              search_found clip query hx hy (Or.inl hsz) (h.polygons e he).1⟩
            onGrid := fun chunks hc ch hch => by
              obtain ⟨e, he, hcov⟩ := hg d hd hne chunks hc ch hch
              exact ⟨e, he, by rwa [covered_found]⟩ })
  rw [readFiles_found] at a1
  refine ⟨fun name => if name = "flash_extent_density" then fed else if name = "average_flash_area" then fa else
    if name = "total_energy" then te else if name = "group_extent_density" then ged else
    if name = "average_group_area" then ga else mfa, ⟨fakes, outgrids, grids, a1, a2, a3, ?_⟩, ?_, ?_⟩
  · intro name hname
    simp only [List.mem_cons, List.not_mem_nil, or_false] at hname
    rcases hname with rfl | rfl | rfl | rfl | rfl | rfl
    · exact n1
    · exact n2
    · exact n3
    · exact n4
    · exact n5
    · exact n6
  · intro name hname
    simp only [List.mem_cons, List.not_mem_nil, or_false] at hname
    rcases hname with rfl | rfl | rfl | rfl | rfl | rfl
    · exact hd fed (by simp)
    · exact hd fa (by simp)
    · exact hd te (by simp)
    · exact hd ged (by simp)
    · exact hd ga (by simp)
    · exact hd mfa (by simp)
  · exact hv

theorem tileStart_le (N s i : Nat) (hi : i ≤ s) : tileStart N s i ≤ N := by
  unfold tileStart
  split
  · exact le_trans (Nat.mul_le_mul_right _ hi) (Nat.mul_div_le N s)
  · exact le_refl _

/-- What is written of a tile, in terms of the boxes of the domain. -/
theorem tile_written {edges : Rat × Rat → Rat → List Rat} (he : MakesEdges edges) {xlo ylo dx dy : Rat} (hdx : 0 < dx)
    (hdy : 0 < dy) {a b c d p q : Nat} (hab : a ≤ b) (hcd : c ≤ d) {t : Tile}
    (hx : t.xBnd = (xlo + a * dx - p * dx, xlo + b * dx + p * dx))
    (hy : t.yBnd = (ylo + c * dy - q * dy, ylo + d * dy + q * dy)) (hp : t.pads = ⟨p, q, p * dx, q * dy⟩) {g : Grid}
    (h0 : g.n0 = (edges t.xBnd dx).length - 1) (h1 : g.n1 = (edges t.yBnd dy).length - 1) :
    (tileWritten edges dx dy t g).xCoord = ((List.range (b - a)).map fun (k : Nat) => xlo + ((a + k : Nat) + 1/2) * dx) ∧
    (tileWritten edges dx dy t g).yCoord = ((List.range (d - c)).map fun (k : Nat) => ylo + ((c + k : Nat) + 1/2) * dy) ∧
    (tileWritten edges dx dy t g).grid.n0 = b - a ∧ (tileWritten edges dx dy t g).grid.n1 = d - c ∧
    ∀ m n, (tileWritten edges dx dy t g).grid.val m n = g.val (p + m) (q + n) := by
  have ex : (edges t.xBnd dx).length - 1 = b - a + 2 * p := by
    rw [hx, padded_edges he hdx hab, boxEdges_length]
    rfl
  have ey : (edges t.yBnd dy).length - 1 = d - c + 2 * q := by
    rw [hy, padded_edges he hdy hcd, boxEdges_length]
    rfl
  rw [ex] at h0
  rw [ey] at h1
  refine ⟨?_, ?_, ?_, ?_, ?_⟩
  · show PySlice.apply (getPadSlices _).1 _ = _
    rw [hp, hx]
    exact trim_axis edges he xlo dx a b p hab hdx
  · show PySlice.apply (getPadSlices _).2 _ = _
    rw [hp, hy]
    exact trim_axis edges he ylo dy c d q hcd hdy
  · show ((getPadSlices _).1.bounds g.n0).2 - ((getPadSlices _).1.bounds g.n0).1 = _
    rw [hp]
    unfold getPadSlices
    simp only [h0, padSlice_bounds]
    omega
  · show ((getPadSlices _).2.bounds g.n1).2 - ((getPadSlices _).2.bounds g.n1).1 = _
    rw [hp]
    unfold getPadSlices
    simp only [h1, padSlice_bounds]
    omega
  · intro m n
    show g.val (((getPadSlices _).1.bounds g.n0).1 + m) (((getPadSlices _).2.bounds g.n1).1 + n) = _
    rw [hp]
    unfold getPadSlices
    simp only [h0, h1, padSlice_bounds]

/-- **C129**.  The clipper returns nothing for a cell that the footprint lies beside (as `rectClip_beside` and
`convexClip_beside` show for two clippers).  The domain is cut into tiles, and as a whole, with the same padding of two boxes or more.  Wherever what is
written of a tile has the coordinates of what is written of the whole domain, all six grids hold the same value. -/
theorem C129_tiles (clip : Poly → Poly → List Poly) (query : List Pt → Pt → Nat → List Nat) (foot : Pt → Poly)
    (edges : Rat × Rat → Rat → List Rat) (xlo ylo dx dy xPad yPad : Rat) (M N s : Nat) (basedate : Int)
    (loc : Rat → Rat → Int) (order : List Int → List Int) (rest : Criteria) (n : Nat) (files : List (Int × GFile))
    (points : Grid → List LmaParent → Grid) (label : String) (par : String → FakeLma → List LmaParent)
    (tiles : List Tile) (t whole : Tile) (hedges : MakesEdges edges)
    (hclip : ∀ p q s, s ∈ clip p q → s ≠ [])
    (hbeside : ∀ x y p i j, Beside x y p i j → clip p (cellRect x y j i) = [])
    (ho : ∀ l, (order l).Perm l) (hn : 0 < n) (hs : 0 < s) (hdx : 0 < dx) (hdy : 0 < dy) (hxp : 2 * dx ≤ xPad)
    (hyp : 2 * dy ≤ yPad)
    (htiles : subdividedFixedGrid (xlo, xlo + M * dx) (ylo, ylo + N * dy) dx dy s xPad yPad = .ok tiles) (ht : t ∈ tiles)
    (hwhole : subdividedFixedGrid (xlo, xlo + M * dx) (ylo, ylo + N * dy) dx dy 1 xPad yPad = .ok [whole])
    (hf : ∀ d ∈ files, d.2.events ≠ [] → CompactFile foot loc dx dy t.pads.x t.pads.y d.2)
    (hgt : ∀ d ∈ files, d.2.events ≠ [] → ChunksOnGrid clip query foot edges dx dy order rest n t d.2)
    (hgw : ∀ d ∈ files, d.2.events ≠ [] → ChunksOnGrid clip query foot edges dx dy order rest n whole d.2) :
    ∃ T W : String → Grid,
      Gridded clip query foot edges dx dy basedate loc order rest n files points label par t T ∧
      Gridded clip query foot edges dx dy basedate loc order rest n files points label par whole W ∧
      ∀ name ∈ ["flash_extent_density", "average_flash_area", "total_energy", "group_extent_density",
        "average_group_area", "minimum_flash_area"],
        let written := tileWritten edges dx dy t (T name)
        let written' := tileWritten edges dx dy whole (W name)
        written.grid.n0 = written.xCoord.length ∧ written.grid.n1 = written.yCoord.length ∧
        written'.grid.n0 = written'.xCoord.length ∧ written'.grid.n1 = written'.yCoord.length ∧
        written'.xCoord = cellCentres (edges (xlo, xlo + M * dx) dx) ∧
        written'.yCoord = cellCentres (edges (ylo, ylo + N * dy) dy) ∧
        ∀ m k m' k' X Y, written.xCoord[m]? = some X → written'.xCoord[m']? = some X → written.yCoord[k]? = some Y →
          written'.yCoord[k']? = some Y → written.grid.val m k = written'.grid.val m' k' := by
  classical
  have hxp0 : 0 ≤ xPad := by linarith
  have hyp0 : 0 ≤ yPad := by linarith
  obtain ⟨i1, i2, tx, ty, tp⟩ := tile_shape hs hdx hdy hxp0 hyp0 htiles ht
  obtain ⟨w1, w2, wx, wy, wp⟩ := tile_shape one_pos hdx hdy hxp0 hyp0 hwhole (List.mem_singleton_self _)
  have two : ∀ {pad d : Rat}, 0 < d → 2 * d ≤ pad → 2 ≤ padBoxes pad d := by
    intro pad d hd hpd
    have : (2 : Int) ≤ ⌊pad / d⌋ := Int.le_floor.mpr (by rw [le_div_iff₀ hd]; exact_mod_cast hpd)
    unfold padBoxes
    omega
  have hp2 := two hdx hxp
  have hq2 := two hdy hyp
  have ab := tileStart_mono M s _ i1
  have cd := tileStart_mono N s _ i2
  have bM := tileStart_le M s _ (Nat.succ_le_of_lt i1)
  have dN := tileStart_le N s _ (Nat.succ_le_of_lt i2)
  have z1 : whole.ij.1 = 0 := by omega
  have z2 : whole.ij.2 = 0 := by omega
  have one0 : ∀ K, tileStart K 1 0 = 0 := by
    intro K
    unfold tileStart
    rw [if_pos one_pos, Nat.zero_mul]
  have one1 : ∀ K, tileStart K 1 (0 + 1) = K := by
    intro K
    unfold tileStart
    rw [if_neg (by omega)]
  rw [z1, one0, one1] at wx
  rw [z2, one0, one1] at wy
  generalize padBoxes xPad dx = p at *
  generalize padBoxes yPad dy = q at *
  generalize tileStart M s t.ij.1 = a at *
  generalize tileStart M s (t.ij.1 + 1) = b at *
  generalize tileStart N s t.ij.2 = c at *
  generalize tileStart N s (t.ij.2 + 1) = d at *
  have ext : edges t.xBnd dx = boxEdges (xlo + a * dx - p * dx) dx (b - a + 2 * p) := by
    rw [tx, padded_edges hedges hdx ab]
  have eyt : edges t.yBnd dy = boxEdges (ylo + c * dy - q * dy) dy (d - c + 2 * q) := by
    rw [ty, padded_edges hedges hdy cd]
  have exw : edges whole.xBnd dx = boxEdges (xlo + (0 : Nat) * dx - p * dx) dx (M - 0 + 2 * p) := by
    rw [wx, padded_edges hedges hdx (Nat.zero_le _)]
  have eyw : edges whole.yBnd dy = boxEdges (ylo + (0 : Nat) * dy - q * dy) dy (N - 0 + 2 * q) := by
    rw [wy, padded_edges hedges hdy (Nat.zero_le _)]
  obtain ⟨T, hT, dT, vT⟩ := tile_gridded (t := t) basedate points label par hclip ho hn
    (by rw [ext]; exact boxEdges_axis hdx (by omega)) (by rw [eyt]; exact boxEdges_axis hdy (by omega))
    (by rw [ext, boxEdges_length]; omega) hf hgt
  obtain ⟨W, hW, dW, vW⟩ := tile_gridded (t := whole) basedate points label par hclip ho hn
    (by rw [exw]; exact boxEdges_axis hdx (by omega)) (by rw [eyw]; exact boxEdges_axis hdy (by omega))
    (by rw [exw, boxEdges_length]; omega) hf hgw
  refine ⟨T, W, hT, hW, ?_⟩
  have key : ∀ m k, a + m < b → c + k < d →
      (T "flash_extent_density").val (p + m) (q + k) = (W "flash_extent_density").val (p + (a + m)) (q + (c + k)) ∧
      (T "average_flash_area").val (p + m) (q + k) = (W "average_flash_area").val (p + (a + m)) (q + (c + k)) ∧
      (T "total_energy").val (p + m) (q + k) = (W "total_energy").val (p + (a + m)) (q + (c + k)) ∧
      (T "group_extent_density").val (p + m) (q + k) = (W "group_extent_density").val (p + (a + m)) (q + (c + k)) ∧
      (T "average_group_area").val (p + m) (q + k) = (W "average_group_area").val (p + (a + m)) (q + (c + k)) ∧
      (T "minimum_flash_area").val (p + m) (q + k) = (W "minimum_flash_area").val (p + (a + m)) (q + (c + k)) := by
    intro m k hm hk
    have hv := vT (p + m) (q + k) (by rw [ext, boxEdges_length]; omega) (by rw [eyt, boxEdges_length]; omega)
    have hv' := vW (p + (a + m)) (q + (c + k)) (by rw [exw, boxEdges_length]; omega)
      (by rw [eyw, boxEdges_length]; omega)
    have gx : ∀ r, r ≤ 1 → (edges whole.xBnd dx).getD (p + (a + m) + r) 0 = xlo + (a + m + r : Nat) * dx := by
      intro r hr
      rw [exw, boxEdges_getD _ _ (by omega)]
      push_cast
      ring
    have gy : ∀ r, r ≤ 1 → (edges whole.yBnd dy).getD (q + (c + k) + r) 0 = ylo + (c + k + r : Nat) * dy := by
      intro r hr
      rw [eyw, boxEdges_getD _ _ (by omega)]
      push_cast
      ring
    have gx' : ∀ r, r ≤ 1 → (edges t.xBnd dx).getD (p + m + r) 0 = xlo + (a + m + r : Nat) * dx := by
      intro r hr
      rw [ext, boxEdges_getD _ _ (by omega)]
      push_cast
      ring
    have gy' : ∀ r, r ≤ 1 → (edges t.yBnd dy).getD (q + k + r) 0 = ylo + (c + k + r : Nat) * dy := by
      intro r hr
      rw [eyt, boxEdges_getD _ _ (by omega)]
      push_cast
      ring
    have hrect : cellRect (edges t.xBnd dx) (edges t.yBnd dy) (q + k) (p + m) =
        cellRect (edges whole.xBnd dx) (edges whole.yBnd dy) (q + (c + k)) (p + (a + m)) := by
      have x0 := (gx' 0 (by omega)).trans (gx 0 (by omega)).symm
      have x1 := (gx' 1 (by omega)).trans (gx 1 (by omega)).symm
      have y0 := (gy' 0 (by omega)).trans (gy 0 (by omega)).symm
      have y1 := (gy' 1 (by omega)).trans (gy 1 (by omega)).symm
      simp only [Nat.add_zero] at x0 y0
      unfold cellRect
      rw [x0, x1, y0, y1]
    have tile_in : ∀ dd ∈ files, ∀ e ∈ dd.2.events,
        foundClip clip query (edges t.xBnd dx) (edges t.yBnd dy) (foot (placeOf e))
          (cellRect (edges whole.xBnd dx) (edges whole.yBnd dy) (q + (c + k)) (p + (a + m))) =
        clip (foot (placeOf e)) (cellRect (edges whole.xBnd dx) (edges whole.yBnd dy) (q + (c + k)) (p + (a + m))) := by
      intro dd hdd e hee
      have hc := hf dd hdd (List.ne_nil_of_mem hee)
      rw [← hrect]
      refine found_inside query (by rw [ext]; exact boxEdges_axis hdx (by omega))
        (by rw [eyt]; exact boxEdges_axis hdy (by omega)) (Or.inl (by rw [ext, boxEdges_length]; omega))
        (by rw [ext]; exact boxEdges_spaced hdx) (by rw [eyt]; exact boxEdges_spaced hdy) hbeside (hc.narrow e hee)
        (by omega) (by rw [ext, boxEdges_length]; omega) (by omega) (by rw [eyt, boxEdges_length]; omega)
    have whole_in : ∀ dd ∈ files, ∀ e ∈ dd.2.events,
        foundClip clip query (edges whole.xBnd dx) (edges whole.yBnd dy) (foot (placeOf e))
          (cellRect (edges whole.xBnd dx) (edges whole.yBnd dy) (q + (c + k)) (p + (a + m))) =
        clip (foot (placeOf e)) (cellRect (edges whole.xBnd dx) (edges whole.yBnd dy) (q + (c + k)) (p + (a + m))) := by
      intro dd hdd e hee
      have hc := hf dd hdd (List.ne_nil_of_mem hee)
      refine found_inside query (by rw [exw]; exact boxEdges_axis hdx (by omega))
        (by rw [eyw]; exact boxEdges_axis hdy (by omega)) (Or.inl (by rw [exw, boxEdges_length]; omega))
        (by rw [exw]; exact boxEdges_spaced hdx) (by rw [eyw]; exact boxEdges_spaced hdy) hbeside (hc.narrow e hee)
        (by omega) (by rw [exw, boxEdges_length]; omega) (by omega) (by rw [eyw, boxEdges_length]; omega)
    have hnc : ¬ NoCriteria { rest with x := some t.xBnd, y := some t.yBnd } := by
      intro h
      exact absurd h.2.2.1 (by simp)
    have hnc' : ¬ NoCriteria { rest with x := some whole.xBnd, y := some whole.yBnd } := by
      intro h
      exact absurd h.2.2.1 (by simp)
    have bnd : ∀ {lo dl : Rat} {a b P : Nat} {K : Nat} {v : Rat}, 0 < dl → b ≤ K →
        (lo + a * dl - P * dl < v ∧ v < lo + b * dl + P * dl) →
        (lo + (0 : Nat) * dl - P * dl < v ∧ v < lo + K * dl + P * dl) := by
      intro lo dl a b P K v hd hbK h
      have h1 : (b : Rat) ≤ K := by exact_mod_cast hbK
      have h2 : (0 : Rat) ≤ a := by positivity
      constructor
      · push_cast
        nlinarith [h.1]
      · nlinarith [h.2]
    have widen : ∀ v, Inside (some t.xBnd) v → Inside (some whole.xBnd) v := by
      intro v h r hr
      cases hr
      have := h _ rfl
      rw [tx] at this
      rw [wx]
      exact bnd hdx bM this
    have widen' : ∀ v, Inside (some t.yBnd) v → Inside (some whole.yBnd) v := by
      intro v h r hr
      cases hr
      have := h _ rfl
      rw [ty] at this
      rw [wy]
      exact bnd hdy dN this
    refine cells_agree hv hv' hrect ?_ ?_ ?_ hnc hnc'
    · intro dd hdd e hee
      rw [tile_in dd hdd e hee, whole_in dd hdd e hee]
    · intro dd hdd f hfa
      unfold askedFor at hfa ⊢
      rw [if_neg hnc] at hfa
      rw [if_neg hnc']
      obtain ⟨hf1, hf2⟩ := List.mem_filter.mp hfa
      obtain ⟨hm, e, hee, hfe, hiv⟩ := of_decide_eq_true hf2
      refine List.mem_filter.mpr ⟨hf1, decide_eq_true ⟨⟨hm.lon, hm.lat, widen _ hm.x, widen' _ hm.y, hm.minEvents,
        hm.minGroups⟩, e, hee, hfe, ⟨hiv.x, hiv.y, widen _ hiv.xr, widen' _ hiv.yr⟩⟩⟩
    · intro dd hdd f hfa hfn e hee hfe
      rw [whole_in dd hdd e hee]
      by_contra hne
      apply hfn
      have hnb : ¬ Beside (edges whole.xBnd dx) (edges whole.yBnd dy) (foot (placeOf e)) (p + (a + m)) (q + (c + k)) :=
        fun h => hne (hbeside _ _ _ _ _ h)
      unfold Beside at hnb
      push Not at hnb
      obtain ⟨⟨v1, k1, b1⟩, ⟨v2, k2, b2⟩, ⟨v3, k3, b3⟩, ⟨v4, k4, b4⟩⟩ := hnb
      have hc := hf dd hdd (List.ne_nil_of_mem hee)
      unfold askedFor at hfa ⊢
      rw [if_neg hnc'] at hfa
      rw [if_neg hnc]
      obtain ⟨hf1, hf2⟩ := List.mem_filter.mp hfa
      obtain ⟨hm', -⟩ := of_decide_eq_true hf2
      have x0 := gx 0 (by omega)
      have x1 := gx 1 (by omega)
      have y0 := gy 0 (by omega)
      have y1 := gy 1 (by omega)
      simp only [Nat.add_zero] at x0 y0
      rw [x0] at b1
      rw [x1] at b2
      rw [y0] at b3
      rw [y1] at b4
      have hpx : t.pads.x = p * dx := by rw [tp]
      have hpy : t.pads.y = q * dy := by rw [tp]
      have near : ∀ {lo dl v w z : Rat} {a b P r : Nat}, 0 < dl → r + 1 ≤ b → a ≤ r → lo + (r : Nat) * dl < v →
          w < lo + (r + 1 : Nat) * dl → |v - z| ≤ P * dl → |w - z| ≤ P * dl →
          lo + a * dl - P * dl < z ∧ z < lo + b * dl + P * dl := by
        intro lo dl v w z a b P r hd hrb har hv hw hvz hwz
        have h1 : ((r + 1 : Nat) : Rat) ≤ b := by exact_mod_cast hrb
        have h2 : (a : Rat) ≤ r := by exact_mod_cast har
        have h3 := mul_le_mul_of_nonneg_right h1 hd.le
        have h4 := mul_le_mul_of_nonneg_right h2 hd.le
        constructor
        · linarith [(abs_le.mp hvz).2]
        · linarith [(abs_le.mp hwz).1]
      have E := hc.event e hee
      have F := hc.flash f hf1 e hee hfe
      rw [hpx, hpy] at E F
      have V := hc.view e hee
      refine List.mem_filter.mpr ⟨hf1, decide_eq_true ⟨⟨hm'.lon, hm'.lat, ?_, ?_, hm'.minEvents, hm'.minGroups⟩, e, hee,
        hfe, ⟨abs_lt.mp V.1, abs_lt.mp V.2, ?_, ?_⟩⟩⟩
      · rintro r hr
        cases hr
        rw [tx]
        exact near hdx hm (by omega) b1 b2 (F v1 k1).1 (F v2 k2).1
      · rintro r hr
        cases hr
        rw [ty]
        exact near hdy hk (by omega) b3 b4 (F v3 k3).2 (F v4 k4).2
      · rintro r hr
        cases hr
        rw [tx]
        exact near hdx hm (by omega) b1 b2 (E v1 k1).1 (E v2 k2).1
      · rintro r hr
        cases hr
        rw [ty]
        exact near hdy hk (by omega) b3 b4 (E v3 k3).2 (E v4 k4).2
  intro name hname written written'
  obtain ⟨a1, a2, a3, a4, a5⟩ := tile_written hedges hdx hdy ab cd tx ty tp (dT name hname).1 (dT name hname).2
  obtain ⟨c1, c2, c3, c4, c5⟩ := tile_written hedges hdx hdy (Nat.zero_le M) (Nat.zero_le N) wx wy wp (dW name hname).1
    (dW name hname).2
  have centre : ∀ {lo dl : Rat} {K : Nat}, 0 < dl → ((List.range (K - 0)).map fun (k : Nat) =>
      lo + ((0 + k : Nat) + 1/2) * dl) = cellCentres (edges (lo, lo + K * dl) dl) := by
    intro lo dl K hd
    rw [hedges _ _ _ hd, centres_boxEdges]
    simp
  refine ⟨by rw [a3, a1]; simp, by rw [a4, a2]; simp, by rw [c3, c1]; simp, by rw [c4, c2]; simp,
    c1.trans (centre hdx), c2.trans (centre hdy), ?_⟩
  intro m k m' k' X Y h1 h2 h3 h4
  have idx : ∀ {lo dl X : Rat} {a b K m m' : Nat}, 0 < dl →
      ((List.range (b - a)).map fun (k : Nat) => lo + ((a + k : Nat) + 1/2) * dl)[m]? = some X →
      ((List.range (K - 0)).map fun (k : Nat) => lo + ((0 + k : Nat) + 1/2) * dl)[m']? = some X →
      a + m < b ∧ m' = a + m := by
    intro lo dl X a b K m m' hd h h'
    rw [List.getElem?_map] at h h'
    obtain ⟨u, hu, rfl⟩ := Option.map_eq_some_iff.mp h
    obtain ⟨u', hu', he⟩ := Option.map_eq_some_iff.mp h'
    obtain ⟨l1, rfl⟩ := List.getElem?_eq_some_iff.mp hu
    obtain ⟨l2, rfl⟩ := List.getElem?_eq_some_iff.mp hu'
    rw [List.length_range] at l1
    rw [List.getElem_range, List.getElem_range] at he
    refine ⟨by omega, ?_⟩
    have : (((0 + m' : Nat) : Rat) + 1/2) * dl = ((a + m : Nat) + 1/2) * dl := by linarith
    have := mul_right_cancel₀ hd.ne' this
    have : ((0 + m' : Nat) : Rat) = (a + m : Nat) := by linarith
    have : 0 + m' = a + m := by exact_mod_cast this
    omega
  obtain ⟨k1, rfl⟩ := idx hdx (a1 ▸ h1) (c1 ▸ h2)
  obtain ⟨k2, rfl⟩ := idx hdy (a2 ▸ h3) (c2 ▸ h4)
  show (tileWritten edges dx dy t (T name)).grid.val m k = (tileWritten edges dx dy whole (W name)).grid.val (a + m) (c + k)
  rw [a5, c5]
  obtain ⟨e1, e2, e3, e4, e5, e6⟩ := key m k k1 k2
  simp only [List.mem_cons, List.not_mem_nil, or_false] at hname
  rcases hname with rfl | rfl | rfl | rfl | rfl | rfl
  · exact e1
  · exact e2
  · exact e3
  · exact e4
  · exact e5
  · exact e6

theorem convexClip_beside (x y : List Rat) (p : Poly) (i j : Nat) (h : Beside x y p i j) :
    convexClip p (cellRect x y j i) = [] := by
  rw [convexClip_cell, if_pos]
  apply cutRect_beside
  simp only [mem_counterclockwise]
  exact h

theorem rectClip_beside (x y : List Rat) (p : Poly) (i j : Nat) (h : Beside x y p i j) :
    rectClip p (cellRect x y j i) = [] := by
  unfold rectClip cellRect
  split
  · rename_i px py _ pX pY _ qx qy _ qX qY _ heq
    simp only [List.cons.injEq, Prod.mk.injEq, and_true] at heq
    obtain ⟨⟨rfl, rfl⟩, -, ⟨rfl, rfl⟩, -⟩ := heq
    refine if_neg ?_
    rintro ⟨h1, h2⟩
    rw [max_lt_iff, lt_min_iff, lt_min_iff] at h1 h2
    rcases h with h | h | h | h
    · linarith [h (pX, pY) (by simp), h1.2.1]
    · linarith [h (px, py) (by simp), h1.1.2]
    · linarith [h (pX, pY) (by simp), h2.2.1]
    · linarith [h (px, py) (by simp), h2.1.2]
  · rfl

/-- A file with a flash in the middle of a domain of four by four boxes, and one outside of the domain that reaches it. -/
def tileSample : GFile where
  flashes := [⟨5, 0, { x := 2/100, y := 2/100, area := 100, nGroups := 2, nEvents := 2 }⟩,
    ⟨3, 0, { x := 9/200, y := 7/200, area := 60, nGroups := 1, nEvents := 2 }⟩]
  groups := [⟨11, 5, { nEvents := 1, area := 40 }⟩, ⟨12, 3, { nEvents := 2, area := 50 }⟩,
    ⟨13, 5, { nEvents := 1, area := 30 }⟩]
  events := [⟨100, 13, { x := 2/100, y := 2/100, energy := 2, flashOf := 5 }⟩,
    ⟨101, 11, { x := 3/200, y := 2/100, energy := 3, flashOf := 5 }⟩,
    ⟨102, 12, { x := 9/200, y := 7/200, energy := 4, flashOf := 3 }⟩,
    ⟨103, 12, { x := 5/100, y := 7/200, energy := 5, flashOf := 3 }⟩]

/-- The footprints of the sample. -/
def tileFoot (p : Pt) : Poly := rect (p.1 - 3/400) (p.1 + 3/400) (p.2 - 3/400) (p.2 + 3/400)

instance (order : List Int → List Int) (rest : Criteria) (n : Nat) (t : Tile) (d : GFile) :
    Decidable (ChunksOnGrid rectClip (fun _ _ _ => []) tileFoot arangeEdges (1/100) (1/100) order rest n t d) :=
  match h : readFlashesChunks order d { rest with x := some t.xBnd, y := some t.yBnd } n with
  | .error _ => isTrue (fun chunks hc => absurd (h.symm.trans hc) (by simp))
  | .ok parts =>
    if hp : ∀ ch ∈ parts, ∃ e ∈ ch.events,
      coveredArea rectClip (fun _ _ _ => []) (gridMesh (arangeEdges t.xBnd (1/100)) (arangeEdges t.yBnd (1/100)))
        (tileFoot (placeOf e)) ≠ 0 then
      isTrue (fun chunks hc => by
        obtain rfl : parts = chunks := Except.ok.inj (h.symm.trans hc)
        exact hp)
    else isFalse (fun hall => hp (hall parts h))

/-- The domain of the sample in `s` by `s` tiles, padded by two boxes. -/
def sampleTiles (s : Nat) : List Tile :=
  match subdividedFixedGrid (0, 0 + (4 : Nat) * (1/100)) (0, 0 + (4 : Nat) * (1/100)) (1/100) (1/100) s (5/200) (5/200) with
  | .ok tiles => tiles
  | .error _ => []

/-- The sample meets the hypotheses of `C129_tiles` for each of two by two tiles, with chunks of one flash; the bounds of
two of the tiles leave out one of the flashes, those of the whole domain none. -/
example : ∃ tiles whole,
    subdividedFixedGrid (0, 0 + (4 : Nat) * (1/100)) (0, 0 + (4 : Nat) * (1/100)) (1/100) (1/100) 2 (5/200) (5/200) =
      .ok tiles ∧
    subdividedFixedGrid (0, 0 + (4 : Nat) * (1/100)) (0, 0 + (4 : Nat) * (1/100)) (1/100) (1/100) 1 (5/200) (5/200) =
      .ok [whole] ∧
    (tiles.map fun t => (readFlashesChunks id tileSample { x := some t.xBnd, y := some t.yBnd } 1).toOption.map
      fun chunks => chunks.map fun c => c.flashes.map Row.id) = [some [[5]], some [[5]], some [[3], [5]], some [[3], [5]]] ∧
    ((readFlashesChunks id tileSample { x := some whole.xBnd, y := some whole.yBnd } 1).toOption.map
      fun chunks => chunks.map fun c => c.flashes.map Row.id) = some [[3], [5]] ∧
    ∀ t ∈ tiles,
      CompactFile tileFoot (fun x y => sampleLoc (400 * x) (400 * y)) (1/100) (1/100) t.pads.x t.pads.y tileSample ∧
      ChunksOnGrid rectClip (fun _ _ _ => []) tileFoot arangeEdges (1/100) (1/100) id {} 1 t tileSample ∧
      ChunksOnGrid rectClip (fun _ _ _ => []) tileFoot arangeEdges (1/100) (1/100) id {} 1 whole tileSample := by
  have hpads : ∀ t ∈ sampleTiles 2, t.pads.x = 1/50 ∧ t.pads.y = 1/50 := by decide +kernel
  refine ⟨sampleTiles 2, (sampleTiles 1).getD 0 ⟨(0, 0), (0, 0), (0, 0), ⟨0, 0, 0, 0⟩⟩, by decide +kernel, by decide +kernel,
    by decide +kernel, by decide +kernel, ?_⟩
  intro t ht
  refine ⟨?_, ?_, by decide +kernel⟩
  · rw [(hpads t ht).1, (hpads t ht).2]
    exact
      { hasData := by unfold HasData; decide +kernel
        consistent := by decide +kernel
        derived := ⟨by decide +kernel, by decide +kernel, by decide +kernel, by decide +kernel⟩
        flashes := by unfold UniqueIds; decide +kernel
        groups := by unfold UniqueIds; decide +kernel
        areas := by decide +kernel
        pixels := by unfold PixelExact placeOf; decide +kernel
        polygons := by decide +kernel
        narrow := by decide +kernel
        view := by decide +kernel
        event := by decide +kernel
        flash := by decide +kernel }
  · revert t
    decide +kernel

end Verif.Props
