import Verif.Model.PixelFile
import Verif.Props.Ccd
import Mathlib.Data.List.GetD

/-!
# C126: the tables of pixels in use
-/

namespace Verif.Props

open Verif.Py Verif.Model Verif.Spec Verif.Proofs

/-! ### What is wanted -/

/-- Square of the distance of two places in degrees. -/
def degrees2 (p q : Rat × Rat) : Rat := (p.1 - q.1) ^ 2 + (p.2 - q.2) ^ 2

/-- What is assumed of the tree: the number of a point that is nearest. -/
def FindsNearest (query : List Pt → Pt → Nat) : Prop :=
  ∀ pts p, pts ≠ [] → query pts p < pts.length ∧
    ∀ k, k < pts.length → degrees2 (pts.getD (query pts p) (0, 0)) p ≤ degrees2 (pts.getD k (0, 0)) p

/-- Pixel `ij` is the nearest one to a place, of all the pixels that have a position. -/
def NearestPixel (lons lats : MaskedArr) (m n : Nat) (ij : Nat × Nat) (place : Rat × Rat) : Prop :=
  (ij.1 < m ∧ ij.2 < n ∧ present lons ij.1 ij.2 ∧ present lats ij.1 ij.2) ∧
  ∀ i j, i < m → j < n → present lons i j → present lats i j →
    degrees2 (get2 lons.data ij.1 ij.2, get2 lats.data ij.1 ij.2) place ≤
      degrees2 (get2 lons.data i j, get2 lats.data i j) place

/-- The documented query, for pairs of latitude and longitude, finds the nearest pixels. -/
def QueryWorks : Prop := ∀ query, FindsNearest query → ∀ lons lats m n, MaskedShape lons m n → MaskedShape lats m n →
  lons.mask.isSome = lats.mask.isSome → (∃ i j, i < m ∧ j < n ∧ present lons i j ∧ present lats i j) →
  ∃ l, createPixelLookup lons lats = .ok l ∧ ∀ testEvents : List (Rat × Rat),
    List.Forall₂ (fun ij e => NearestPixel lons lats m n ij (e.2, e.1)) (documentedQuery query l testEvents) testEvents

/-- What was saved by `save_pixel_lookup` is loaded as the result of `create_pixel_lookup`. -/
def LoadWorks : Prop := ∀ (β : Type) (dumps : List Saved → β) (loads : β → List Saved),
  (∀ o, loads (dumps o) = o) → ∀ lons lats l, createPixelLookup lons lats = .ok l →
  ∀ (files : String → Option β) (f : String), f ≠ "" →
    (loadPixelLookup loads (savePixelLookup dumps l lons lats (some f) files).1 f).bind unpack3 =
      .ok (.tree l.points, .index l.xIdx, .index l.yIdx)

/-- The property as the documentation has it. -/
def C126_full : Prop := QueryWorks ∧ LoadWorks

/-! ### Queries -/

theorem getD_map_of_lt {α β : Type} (f : α → β) (l : List α) {k : Nat} (h : k < l.length) (d : β) (e : α) :
    (l.map f).getD k d = f (l.getD k e) := by
  rw [List.getD_eq_getElem _ _ (by simpa using h), List.getD_eq_getElem _ _ h, List.getElem_map]

/-- Queries with pairs of longitude and latitude find the nearest pixels. -/
theorem C126_query_partial (query : List Pt → Pt → Nat) (hq : FindsNearest query) (lons lats : MaskedArr) (m n : Nat)
    (hlon : MaskedShape lons m n) (hlat : MaskedShape lats m n) (hkind : lons.mask.isSome = lats.mask.isSome)
    (hsome : ∃ i j, i < m ∧ j < n ∧ present lons i j ∧ present lats i j) :
    ∃ l, createPixelLookup lons lats = .ok l ∧ ∀ places : List (Rat × Rat),
      List.Forall₂ (NearestPixel lons lats m n) (documentedQuery query l places) places := by
  obtain ⟨l, hl, pixels, -, hmem, hx, hy, hp⟩ := C58_lookup lons lats m n hlon hlat hkind
  refine ⟨l, hl, fun places => ?_⟩
  unfold documentedQuery
  rw [List.forall₂_map_left_iff, List.forall₂_same]
  intro place _
  obtain ⟨i, j, hij⟩ := hsome
  have hne : l.points ≠ [] := by
    rw [hp]
    intro h
    have := List.map_eq_nil_iff.mp h
    have h2 := (hmem i j).mpr hij
    rw [this] at h2
    simp at h2
  obtain ⟨h1, h2⟩ := hq l.points place hne
  generalize hk : query l.points place = k at h1 h2
  have hlen : l.points.length = pixels.length := by rw [hp, List.length_map]
  have hkp : k < pixels.length := by omega
  have ex : l.xIdx.getD k 0 = (pixels.getD k (0, 0)).1 := by rw [hx, getD_map_of_lt _ _ hkp _ (0, 0)]
  have ey : l.yIdx.getD k 0 = (pixels.getD k (0, 0)).2 := by rw [hy, getD_map_of_lt _ _ hkp _ (0, 0)]
  have ep : ∀ k', k' < pixels.length → l.points.getD k' (0, 0) =
      (get2 lons.data (pixels.getD k' (0, 0)).1 (pixels.getD k' (0, 0)).2,
        get2 lats.data (pixels.getD k' (0, 0)).1 (pixels.getD k' (0, 0)).2) := by
    intro k' hk'
    rw [hp, getD_map_of_lt _ _ hk' _ (0, 0)]
  have hin : pixels.getD k (0, 0) ∈ pixels := by
    rw [List.getD_eq_getElem _ _ hkp]; exact List.getElem_mem _
  refine ⟨?_, ?_⟩
  · simp only [ex, ey]
    exact (hmem _ _).mp hin
  · intro i' j' hi hj hp1 hp2
    obtain ⟨k', hk', he⟩ := List.getElem_of_mem ((hmem i' j').mpr ⟨hi, hj, hp1, hp2⟩)
    have := h2 k' (by omega)
    rw [ep k hkp, ep k' hk', List.getD_eq_getElem _ _ hk', he] at this
    simp only [ex, ey]
    exact this

/-- Two pixels, one at 100 degrees west and 30 degrees north, the other one on the other side of the globe. -/
def twoPixels : MaskedArr × MaskedArr := (⟨[[-100], [30]], none⟩, ⟨[[30], [-100]], none⟩)

/-- The first of the points that are nearest. -/
def firstNearest (pts : List Pt) (p : Pt) : Nat :=
  pts.findIdx fun q => pts.all fun r => degrees2 q p ≤ degrees2 r p

theorem exists_nearest (pts : List Pt) (p : Pt) (h : pts ≠ []) :
    ∃ q ∈ pts, ∀ r ∈ pts, degrees2 q p ≤ degrees2 r p := by
  induction pts with
  | nil => exact absurd rfl h
  | cons a l ih =>
    cases hl : l with
    | nil =>
      refine ⟨a, List.mem_cons_self, ?_⟩
      intro r hr
      rw [List.mem_singleton.mp hr]
    | cons b l' =>
      rw [← hl]
      obtain ⟨q, hq, hmin⟩ := ih (by rw [hl]; simp)
      by_cases hc : degrees2 a p ≤ degrees2 q p
      · refine ⟨a, List.mem_cons_self, ?_⟩
        intro r hr
        rcases List.mem_cons.mp hr with rfl | hr
        · exact le_refl _
        · exact le_trans hc (hmin r hr)
      · refine ⟨q, List.mem_cons_of_mem _ hq, ?_⟩
        intro r hr
        rcases List.mem_cons.mp hr with rfl | hr
        · exact le_of_not_ge hc
        · exact hmin r hr

/-- Such a search exists. -/
theorem firstNearest_nearest : FindsNearest firstNearest := by
  intro pts p hne
  obtain ⟨q, hq, hmin⟩ := exists_nearest pts p hne
  have hlt : firstNearest pts p < pts.length := by
    unfold firstNearest
    rw [List.findIdx_lt_length]
    exact ⟨q, hq, by simpa [List.all_eq_true] using hmin⟩
  refine ⟨hlt, ?_⟩
  intro k hk
  have h := List.findIdx_getElem (w := hlt)
  rw [List.all_eq_true] at h
  have := h _ (List.getElem_mem hk)
  rw [List.getD_eq_getElem _ _ hlt, List.getD_eq_getElem _ _ hk]
  exact of_decide_eq_true this

theorem twoPixels_shape : MaskedShape twoPixels.1 2 1 ∧ MaskedShape twoPixels.2 2 1 := by
  refine ⟨⟨⟨rfl, by simp [twoPixels]⟩, ?_⟩, ⟨⟨rfl, by simp [twoPixels]⟩, ?_⟩⟩ <;> · intro k h; cases h

/-- In the documented order a place exactly at a pixel gives another pixel. -/
theorem query_order_matters : ¬ QueryWorks := by
  intro h
  obtain ⟨l, hl, hall⟩ := h firstNearest firstNearest_nearest twoPixels.1 twoPixels.2 2 1 twoPixels_shape.1
    twoPixels_shape.2 rfl ⟨0, 0, by omega, by omega, trivial, trivial⟩
  have e : createPixelLookup twoPixels.1 twoPixels.2 = .ok ⟨[(-100, 30), (30, -100)], [0, 1], [0, 0]⟩ := rfl
  rw [e] at hl
  have hl := (Except.ok.inj hl).symm
  have h1 := hall [(30, -100)]
  rw [hl] at h1
  have e2 : documentedQuery firstNearest ⟨[(-100, 30), (30, -100)], [0, 1], [0, 0]⟩ [(30, -100)] = [(1, 0)] := by
    decide +kernel
  rw [e2] at h1
  cases h1 with
  | cons h2 _ =>
    have := h2.2 0 0 (by omega) (by omega) trivial trivial
    revert this
    decide +kernel

/-! ### Files of positions -/

/-- C126: the lookup made from a file of positions has exactly the pixels for which the file has both a latitude and a
longitude, each once, and places each at its latitude and its longitude less 360 degrees. -/
theorem C126_positions (nav : String → Option (List (List (Option Rat)))) (latVar lonVar : String)
    (lats lons : List (List (Option Rat))) (m n : Nat) (hlat : nav latVar = some lats) (hlon : nav lonVar = some lons)
    (hs : HasShape lats m n) (hs' : HasShape lons m n) :
    ∃ a b l, readPixelLocationMatFile nav latVar lonVar = .ok (a, b) ∧ createPixelLookup a b = .ok l ∧
      ∃ pixels : List (Nat × Nat), pixels.Nodup ∧
        (∀ i j, (i, j) ∈ pixels ↔ i < m ∧ j < n ∧ (get2 lons i j).isSome ∧ (get2 lats i j).isSome) ∧
        l.xIdx = pixels.map Prod.fst ∧ l.yIdx = pixels.map Prod.snd ∧
        List.Forall₂ (fun (ij : Nat × Nat) (p : Rat × Rat) =>
          get2 lons ij.1 ij.2 = some (p.1 + 360) ∧ get2 lats ij.1 ij.2 = some p.2) pixels l.points := by
  refine ⟨⟨lons.map (List.map fun v => v.getD 0 - 360), some (lons.map (List.map Option.isNone))⟩,
    ⟨lats.map (List.map fun v => v.getD 0), some (lats.map (List.map Option.isNone))⟩, ?_⟩
  have sa : MaskedShape ⟨lons.map (List.map fun v => v.getD 0 - 360), some (lons.map (List.map Option.isNone))⟩ m n :=
    ⟨shape_map _ hs', fun k hk => by cases hk; exact shape_map _ hs'⟩
  have sb : MaskedShape ⟨lats.map (List.map fun v => v.getD 0), some (lats.map (List.map Option.isNone))⟩ m n :=
    ⟨shape_map _ hs, fun k hk => by cases hk; exact shape_map _ hs⟩
  obtain ⟨l, hl, pixels, hnd, hmem, hx, hy, hp⟩ := C58_lookup _ _ m n sa sb rfl
  have pa : ∀ i j, i < m → j < n → (present ⟨lons.map (List.map fun v => v.getD 0 - 360),
      some (lons.map (List.map Option.isNone))⟩ i j ↔ (get2 lons i j).isSome) := by
    intro i j hi hj
    unfold present
    simp only
    rw [get2_map _ hs' hi hj]
    cases get2 lons i j <;> simp
  have pb : ∀ i j, i < m → j < n → (present ⟨lats.map (List.map fun v => v.getD 0),
      some (lats.map (List.map Option.isNone))⟩ i j ↔ (get2 lats i j).isSome) := by
    intro i j hi hj
    unfold present
    simp only
    rw [get2_map _ hs hi hj]
    cases get2 lats i j <;> simp
  have hmem' : ∀ i j, (i, j) ∈ pixels ↔ i < m ∧ j < n ∧ (get2 lons i j).isSome ∧ (get2 lats i j).isSome := by
    intro i j
    rw [hmem]
    constructor
    · rintro ⟨hi, hj, h1, h2⟩; exact ⟨hi, hj, (pa i j hi hj).mp h1, (pb i j hi hj).mp h2⟩
    · rintro ⟨hi, hj, h1, h2⟩; exact ⟨hi, hj, (pa i j hi hj).mpr h1, (pb i j hi hj).mpr h2⟩
  refine ⟨l, ?_, hl, pixels, hnd, hmem', hx, hy, ?_⟩
  · unfold readPixelLocationMatFile
    simp only [hlat, hlon]
    rfl
  · rw [hp, List.forall₂_map_right_iff, List.forall₂_same]
    rintro ⟨i, j⟩ hij
    obtain ⟨hi, hj, h1, h2⟩ := (hmem' i j).mp hij
    simp only
    rw [get2_map _ hs' hi hj, get2_map _ hs hi hj]
    obtain ⟨x, hx⟩ := Option.isSome_iff_exists.mp h1
    obtain ⟨y, hy⟩ := Option.isSome_iff_exists.mp h2
    rw [hx, hy]
    simp

example : ((readPixelLocationMatFile (fun s => if s = "mean_lat" then some [[some 33, none], [some 34, some 35]] else
    if s = "mean_lon" then some [[some 258, some 259], [none, some 260]] else none) "mean_lat" "mean_lon").bind
      fun ab => createPixelLookup ab.1 ab.2) =
    .ok ⟨[(-102, 33), (-100, 35)], [0, 1], [0, 1]⟩ := by decide +kernel

/-! ### Saving and loading -/

theorem load_save {β : Type} (dumps : List Saved → β) (loads : β → List Saved) (h : ∀ o, loads (dumps o) = o)
    (obj : List Saved) (files : String → Option β) {f : String} (hf : f ≠ "") :
    loadPickle loads (savePickle dumps obj (some f) files).1 f = .ok obj := by
  unfold loadPickle savePickle
  simp [hf, h]

/-- C126: a table of corners is loaded as the three arrays that were saved, whatever else is saved afterwards under
other names; other files are not touched; without a name, the pickle is returned and no file is touched. -/
theorem C126_corners {β : Type} (dumps : List Saved → β) (loads : β → List Saved) (h : ∀ o, loads (dumps o) = o)
    (lons lats : List (List Rat)) (corners : List (List (List Pt))) (files : String → Option β) (f : String)
    (hf : f ≠ "") :
    (loadPixelCornerLookup loads (savePixelCornerLookup dumps lons lats corners (some f) files).1 f).bind unpack3 =
      .ok (.array lons, .array lats, .corners corners) ∧
    (∀ obj g, g ≠ f → loadPixelCornerLookup loads
      (savePickle dumps obj (some g) (savePixelCornerLookup dumps lons lats corners (some f) files).1).1 f =
      .ok [.array lons, .array lats, .corners corners]) ∧
    (∀ g, g ≠ f → (savePixelCornerLookup dumps lons lats corners (some f) files).1 g = files g) ∧
    (savePixelCornerLookup dumps lons lats corners none files).1 = files ∧
    ((savePixelCornerLookup dumps lons lats corners none files).2.map loads) =
      some [.array lons, .array lats, .corners corners] := by
  have h1 := load_save dumps loads h [.array lons, .array lats, .corners corners] files hf
  refine ⟨?_, ?_, ?_, rfl, ?_⟩
  · unfold loadPixelCornerLookup savePixelCornerLookup
    rw [h1]
    rfl
  · intro obj g hg
    unfold loadPixelCornerLookup
    rw [← h1]
    unfold loadPickle savePixelCornerLookup
    congr 1
    generalize (savePickle dumps [.array lons, .array lats, .corners corners] (some f) files).1 = fs
    unfold savePickle
    simp only
    split
    · rfl
    · simp [Ne.symm hg]
  · intro g hg
    unfold savePixelCornerLookup savePickle
    simp [hf, hg]
  · unfold savePixelCornerLookup savePickle
    simp [h]

/-- A pixel lookup is loaded as the five things that were saved, in the order of saving. -/
theorem C126_lookup_partial {β : Type} (dumps : List Saved → β) (loads : β → List Saved) (h : ∀ o, loads (dumps o) = o)
    (l : PixelLookup) (lons lats : MaskedArr) (files : String → Option β) (f : String) (hf : f ≠ "") :
    loadPixelLookup loads (savePixelLookup dumps l lons lats (some f) files).1 f =
      .ok [.tree l.points, .index l.xIdx, .index l.yIdx, .masked lons, .masked lats] :=
  load_save dumps loads h _ files hf

/-- So that it can never be assigned to three names like the result of `create_pixel_lookup`. -/
theorem C126_lookup_exact {β : Type} (dumps : List Saved → β) (loads : β → List Saved) (h : ∀ o, loads (dumps o) = o)
    (l : PixelLookup) (lons lats : MaskedArr) (files : String → Option β) (f : String) (hf : f ≠ "") :
    (loadPixelLookup loads (savePixelLookup dumps l lons lats (some f) files).1 f).bind unpack3 =
      .error .valueError := by
  rw [C126_lookup_partial dumps loads h l lons lats files f hf]
  rfl

/-- What was never saved cannot be loaded. -/
theorem C126_missing {β : Type} (loads : β → List Saved) (files : String → Option β) (f : String) (h : files f = none) :
    loadPixelCornerLookup loads files f = .error .fileNotFoundError ∧
    loadPixelLookup loads files f = .error .fileNotFoundError := by
  unfold loadPixelCornerLookup loadPixelLookup loadPickle
  rw [h]
  exact ⟨rfl, rfl⟩

example : (fun g : String => if g = "lookup.pickle" then some (0 : Nat) else none) "corners.pickle" = none := by decide

/-- C126 does not hold: both parts fail. -/
theorem C126_full_false : ¬ QueryWorks ∧ ¬ LoadWorks ∧ ¬ C126_full := by
  refine ⟨query_order_matters, ?_, fun h => query_order_matters h.1⟩
  intro h
  have h1 := h (List Saved) id id (fun _ => rfl) twoPixels.1 twoPixels.2 ⟨[(-100, 30), (30, -100)], [0, 1], [0, 0]⟩ rfl
    (fun _ => none) "lookup.pickle" (by decide)
  rw [C126_lookup_exact id id (fun _ => rfl) _ _ _ _ _ (by decide)] at h1
  cases h1

/-- The hypotheses of `C126_query_partial` hold for the two pixels. -/
example : FindsNearest firstNearest ∧ MaskedShape twoPixels.1 2 1 ∧ MaskedShape twoPixels.2 2 1 ∧
    ∃ i j, i < 2 ∧ j < 1 ∧ present twoPixels.1 i j ∧ present twoPixels.2 i j :=
  ⟨firstNearest_nearest, twoPixels_shape.1, twoPixels_shape.2, 0, 0, by omega, by omega, trivial, trivial⟩

end Verif.Props
