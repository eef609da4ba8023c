import Verif.Proofs.Pixel
import Mathlib.Tactic.Ring

/-!
# C58, C59: pixel lookup and event footprints
-/

namespace Verif.Props

open Verif.Py Verif.Model Verif.Spec Verif.Proofs

/-! ## C58 -/

/-- Pixel (i, j) has a position in the array. -/
def present (a : MaskedArr) (i j : Nat) : Prop :=
  match a.mask with
  | none => True
  | some m => get2 m i j = false

/-- Array and mask have the given shape. -/
def MaskedShape (a : MaskedArr) (m n : Nat) : Prop :=
  HasShape a.data m n ∧ ∀ k, a.mask = some k → HasShape k m n

/-- C58: point number `k` of the tree is the position of the pixel with the `k`-th index pair; the
index pairs are exactly the pixels that have a position, each once. -/
theorem C58_lookup (lons lats : MaskedArr) (m n : Nat) (hlon : MaskedShape lons m n)
    (hlat : MaskedShape lats m n) (hkind : lons.mask.isSome = lats.mask.isSome) :
    ∃ l, createPixelLookup lons lats = .ok l ∧ ∃ pixels : List (Nat × Nat), pixels.Nodup ∧
      (∀ i j, (i, j) ∈ pixels ↔ i < m ∧ j < n ∧ present lons i j ∧ present lats i j) ∧
      l.xIdx = pixels.map Prod.fst ∧ l.yIdx = pixels.map Prod.snd ∧
      l.points = pixels.map fun ij => (get2 lons.data ij.1 ij.2, get2 lats.data ij.1 ij.2) := by
  have hgood : ∃ good, goodMask lons lats = .ok good ∧ HasShape good m n ∧
      ∀ i j, i < m → j < n → (get2 good i j = true ↔ present lons i j ∧ present lats i j) := by
    unfold goodMask present
    cases h1 : lons.mask with
    | none =>
      cases h2 : lats.mask with
      | none =>
        refine ⟨_, rfl, shape_map (fun _ => true) hlat.1, ?_⟩
        intro i j hi hj
        exact iff_of_true (get2_map (fun _ => true) hlat.1 hi hj) ⟨trivial, trivial⟩
      | some k => rw [h1, h2] at hkind; cases hkind
    | some k =>
      cases h2 : lats.mask with
      | none => rw [h1, h2] at hkind; cases hkind
      | some k' =>
        refine ⟨_, rfl, shape_zipWith _ (hlon.2 k h1) (hlat.2 k' h2), ?_⟩
        intro i j hi hj
        rw [get2_zipWith _ (hlon.2 k h1) (hlat.2 k' h2) hi hj]
        simp only
        cases get2 k i j <;> cases get2 k' i j <;> decide
  obtain ⟨good, h1, h2, h3⟩ := hgood
  refine ⟨_, lookup_eq hlon.1 hlat.1 h2 h1, _, ?_, ?_, rfl, rfl, rfl⟩
  · exact (List.Nodup.product List.nodup_range List.nodup_range).filter _
  · intro i j
    rw [List.mem_filter, List.mem_product, List.mem_range, List.mem_range]
    constructor
    · rintro ⟨⟨hi, hj⟩, hg⟩
      exact ⟨hi, hj, (h3 i j hi hj).mp hg⟩
    · rintro ⟨hi, hj, hp⟩
      exact ⟨⟨hi, hj⟩, (h3 i j hi hj).mpr hp⟩

/-- C58: one masked and one plain array are refused. -/
theorem C58_mixed (lons lats : MaskedArr) (h : lons.mask.isSome ≠ lats.mask.isSome) :
    createPixelLookup lons lats = .error .attributeError := by
  unfold createPixelLookup goodMask
  cases h1 : lons.mask <;> cases h2 : lats.mask <;> simp_all [bind, Except.bind]

example : (createPixelLookup ⟨[[10, 11, 12], [13, 14, 15]], some [[true, false, false],
    [false, false, true]]⟩ ⟨[[1, 2, 3], [4, 5, 6]], some [[true, false, false],
    [false, true, false]]⟩).toOption =
    some ⟨[(11, 2), (12, 3), (13, 4)], [0, 0, 1], [1, 2, 0]⟩ := by decide +kernel

/-! ## C59 -/

/-- The offset of one corner coordinate at a pixel: interpolated from the table; outside of the
table the nearest entry if extrapolation is on, else missing. -/
def offsetAt (linear : Interp) (nearest : List Pt → List Rat → Pt → Rat) (extrapolate : Bool)
    (grid : List Pt) (table : List Rat) (p : Pt) : Option Rat :=
  match linear grid table p, extrapolate with
  | some v, _ => some v
  | none, true => some (nearest grid table p)
  | none, false => none

theorem cornerColumn_eq (linear : Interp) (nearest : List Pt → List Rat → Pt → Rat)
    (grid : List Pt) (offsets : List Rat) (inflate : Rat) (extrapolate : Bool) (pixels : List Pt)
    (coord : Pt → Rat) :
    cornerColumn linear nearest grid offsets inflate extrapolate pixels coord =
      pixels.map fun p => (offsetAt linear nearest extrapolate grid offsets p).map
        fun v => coord p + v * inflate := by
  unfold cornerColumn offsetAt
  cases extrapolate
  · simp only [Bool.false_eq_true, if_false, List.zipWith_map_right, List.zipWith_self]
    apply List.map_congr_left
    intro p _
    cases linear grid offsets p <;> rfl
  · simp only [if_true, List.zipWith_map_right, List.zipWith_self]
    apply List.map_congr_left
    intro p _
    cases linear grid offsets p <;> rfl

/-- C59: for every event one quad, in order, with one corner for every corner of the table, in order;
each coordinate of a corner is the coordinate of the event plus the inflation times the offset that
the table has for that coordinate of that corner, in the table moved to the satellite's longitude. -/
theorem C59_corners (linear : Interp) (nearest : List Pt → List Rat → Pt → Rat) (nCorners : Nat)
    (lon lat : List (List Rat)) (corners : List (List (List Pt))) (pixels : List Pt)
    (nadirLon inflate : Rat) (extrapolate : Bool) :
    quadsFromCornerLookup linear nearest nCorners lon lat corners pixels nadirLon inflate
      extrapolate =
    pixels.map fun p => (List.range nCorners).map fun ci =>
      ((offsetAt linear nearest extrapolate ((lon.flatten.map (· + nadirLon)).zip lat.flatten)
          (corners.flatten.map fun c => (c.getD ci (0, 0)).1) p).map fun d => p.1 + d * inflate,
       (offsetAt linear nearest extrapolate ((lon.flatten.map (· + nadirLon)).zip lat.flatten)
          (corners.flatten.map fun c => (c.getD ci (0, 0)).2) p).map fun d => p.2 + d * inflate) := by
  unfold quadsFromCornerLookup cornerOffsets
  simp only [cornerColumn_eq, List.zip_map']
  apply List.ext_getElem (by simp)
  intro k h1 h2
  simp only [List.length_map, List.length_range] at h1 h2
  simp only [List.getElem_map, List.getElem_range, List.map_map]
  apply List.map_congr_left
  intro ci _
  simp only [Function.comp, List.getD_eq_getElem?_getD, List.getElem?_map,
    List.getElem?_eq_getElem h2, Option.map_some, Option.getD_some]

/-- C59: with extrapolation no corner is missing. -/
theorem C59_no_missing (linear : Interp) (nearest : List Pt → List Rat → Pt → Rat) (nCorners : Nat)
    (lon lat : List (List Rat)) (corners : List (List (List Pt))) (pixels : List Pt)
    (nadirLon inflate : Rat) :
    ∀ q ∈ quadsFromCornerLookup linear nearest nCorners lon lat corners pixels nadirLon inflate true,
      q.length = nCorners ∧ ∀ c ∈ q, c.1.isSome ∧ c.2.isSome := by
  intro q hq
  rw [C59_corners] at hq
  obtain ⟨p, -, rfl⟩ := List.mem_map.mp hq
  refine ⟨by simp, ?_⟩
  intro c hc
  obtain ⟨ci, -, rfl⟩ := List.mem_map.mp hc
  have : ∀ g t, (offsetAt linear nearest true g t p).isSome := by
    intro g t
    unfold offsetAt
    cases linear g t p <;> rfl
  simp [this]

/-- A quad all of whose coordinates are there. -/
def known (q : List (Option Rat × Option Rat)) : Poly := q.map fun c => (c.1.getD 0, c.2.getD 0)

/-- C59: the inflation stretches every quad about its event, so the area grows with the square. -/
theorem C59_inflate (linear : Interp) (nearest : List Pt → List Rat → Pt → Rat) (nCorners : Nat)
    (lon lat : List (List Rat)) (corners : List (List (List Pt))) (pixels : List Pt)
    (nadirLon f : Rat) :
    let quads := fun f => (quadsFromCornerLookup linear nearest nCorners lon lat corners pixels
      nadirLon f true).map known
    quads f = List.zipWith (fun p q => q.map fun c => (p.1 + f * (c.1 - p.1), p.2 + f * (c.2 - p.2)))
        pixels (quads 1) ∧
    (quads f).map signedArea = (quads 1).map fun q => f ^ 2 * signedArea q := by
  intro quads
  have h : quads f = List.zipWith
      (fun p q => q.map fun c => (p.1 + f * (c.1 - p.1), p.2 + f * (c.2 - p.2)))
      pixels (quads 1) := by
    simp only [quads, C59_corners, List.map_map, List.zipWith_map_right, List.zipWith_self]
    apply List.map_congr_left
    intro p _
    simp only [known, Function.comp, List.map_map]
    apply List.map_congr_left
    intro ci _
    have : ∀ g t (x : Rat), ((offsetAt linear nearest true g t p).map fun d => x + d * f).getD 0 =
        x + f * (((offsetAt linear nearest true g t p).map fun d => x + d * 1).getD 0 - x) := by
      intro g t x
      unfold offsetAt
      cases linear g t p <;> simp <;> ring
    simp only [Function.comp, this]
  refine ⟨h, ?_⟩
  rw [h, List.map_zipWith]
  have hl : (quads 1).length = pixels.length := by simp [quads, C59_corners]
  clear h
  generalize quads 1 = Q at hl
  apply List.ext_getElem (by simp [hl])
  intro k h1 h2
  have hkq : k < Q.length := by simpa using h2
  have hkp : k < pixels.length := by omega
  rw [List.getElem_zipWith, List.getElem_map]
  have := signedArea_affine Q[k] f 0 0 f (pixels[k].1 - f * pixels[k].1)
    (pixels[k].2 - f * pixels[k].2)
  rw [show f * f - 0 * 0 = f ^ 2 by ring] at this
  rw [← this]
  congr 1
  apply List.map_congr_left
  intro c _
  ext <;> simp <;> ring

/-- C59: without extrapolation a corner coordinate is missing exactly where the interpolation has
no value. -/
theorem C59_missing_iff (linear : Interp) (nearest : List Pt → List Rat → Pt → Rat)
    (grid : List Pt) (table : List Rat) (p : Pt) :
    offsetAt linear nearest false grid table p = none ↔ linear grid table p = none := by
  unfold offsetAt
  cases linear grid table p <;> simp

/-- C59: moving the table to the satellite is the same as moving the events to the table, for
interpolations that do not depend on the origin of longitude. -/
theorem C59_nadir (linear : Interp) (nearest : List Pt → List Rat → Pt → Rat) (nCorners : Nat)
    (hlin : ∀ g t p s, linear (g.map fun q => (q.1 + s, q.2)) t (p.1 + s, p.2) = linear g t p)
    (hnear : ∀ g t p s, nearest (g.map fun q => (q.1 + s, q.2)) t (p.1 + s, p.2) = nearest g t p)
    (lon lat : List (List Rat)) (corners : List (List (List Pt))) (pixels : List Pt)
    (nadirLon inflate : Rat) (extrapolate : Bool) :
    quadsFromCornerLookup linear nearest nCorners lon lat corners pixels nadirLon inflate extrapolate =
      (quadsFromCornerLookup linear nearest nCorners lon lat corners
        (pixels.map fun p => (p.1 - nadirLon, p.2)) 0 inflate extrapolate).map
        (List.map fun c => (c.1.map (· + nadirLon), c.2)) := by
  simp only [C59_corners, List.map_map]
  apply List.map_congr_left
  intro p _
  simp only [Function.comp, List.map_map]
  apply List.map_congr_left
  intro ci _
  have hg : (lon.flatten.map (· + nadirLon)).zip lat.flatten =
      ((lon.flatten.map (· + 0)).zip lat.flatten).map fun q => (q.1 + nadirLon, q.2) := by
    simp only [add_zero, List.map_id']
    rw [List.zip_map_left]
    rfl
  have ho : ∀ t, offsetAt linear nearest extrapolate
      ((lon.flatten.map (· + nadirLon)).zip lat.flatten) t p =
      offsetAt linear nearest extrapolate ((lon.flatten.map (· + 0)).zip lat.flatten) t
        (p.1 - nadirLon, p.2) := by
    intro t
    unfold offsetAt
    have h1 := hlin ((lon.flatten.map (· + 0)).zip lat.flatten) t (p.1 - nadirLon, p.2) nadirLon
    have h2 := hnear ((lon.flatten.map (· + 0)).zip lat.flatten) t (p.1 - nadirLon, p.2) nadirLon
    simp only [sub_add_cancel] at h1 h2
    rw [hg, h1, h2]
  simp only [Function.comp, ho, Option.map_map]
  congr 2
  funext d
  simp only [Function.comp]
  ring

/-- Nearest entry of a table of two points, and an interpolation that knows nothing. -/
example : (quadsFromCornerLookup (fun _ _ _ => none) (fun _ t _ => t.getD 1 0) 4 [[0, 1]] [[0, 0]]
    [[[(0, 0), (0, 0), (0, 0), (0, 0)], [(-1, 1), (-1, -1), (1, -1), (1, 1)]]] [(-75, 3)] (-75) 2
    true).map known = [[(-77, 5), (-77, 1), (-73, 1), (-73, 5)]] := by decide +kernel

/-- C59: the table read from the official file lists the corners of every entry in the order
north-west, south-west, south-east, north-east, each as (longitude, latitude) offset. -/
theorem C59_official_table (nav : String → Option (List (List Rat)))
    (lat lon nwlon swlon selon nelon nwlat swlat selat nelat : List (List Rat)) (m n : Nat)
    (hs : HasShape lat m n)
    (h : nav "lat_grid" = some lat ∧ nav "lon_grid" = some lon ∧ nav "nwlon" = some nwlon ∧
      nav "swlon" = some swlon ∧ nav "selon" = some selon ∧ nav "nelon" = some nelon ∧
      nav "nwlat" = some nwlat ∧ nav "swlat" = some swlat ∧ nav "selat" = some selat ∧
      nav "nelat" = some nelat) :
    ∃ corners, readOfficialCornerLut nav = .ok (lon, lat, corners) ∧ HasShape corners m n ∧
      ∀ i j, i < m → j < n → get2 corners i j =
        [(get2 nwlon i j, get2 nwlat i j), (get2 swlon i j, get2 swlat i j),
         (get2 selon i j, get2 selat i j), (get2 nelon i j, get2 nelat i j)] := by
  obtain ⟨h1, h2, h3, h4, h5, h6, h7, h8, h9, h10⟩ := h
  have hn : m = 0 ∨ (lat.headD []).length = n := by
    cases hd : lat with
    | nil => left; rw [← hs.1, hd]; rfl
    | cons r l => right; exact hs.2 r (by rw [hd]; exact List.mem_cons_self)
  unfold readOfficialCornerLut
  simp only [h1, h2, h3, h4, h5, h6, h7, h8, h9, h10, List.mapM_cons, List.mapM_nil, bind,
    Except.bind, pure, Except.pure]
  refine ⟨_, rfl, ⟨by simp [hs.1], ?_⟩, ?_⟩
  · intro r hr
    obtain ⟨i, hi, rfl⟩ := List.mem_map.mp hr
    rw [hs.1, List.mem_range] at hi
    rcases hn with rfl | hn
    · omega
    · rw [List.length_map, List.length_range, hn]
  · intro i j hi hj
    rcases hn with rfl | hn
    · omega
    · rw [hs.1, hn]
      unfold get2
      simp [hi, hj]
      exact ⟨⟨rfl, rfl⟩, ⟨rfl, rfl⟩, ⟨rfl, rfl⟩, rfl, rfl⟩

example : (readOfficialCornerLut fun s => if s = "nwlon" then some [[-1]] else
    if s = "nwlat" then some [[2]] else some [[7]]) =
    .ok ([[7]], [[7]], [[[(-1, 2), (7, 7), (7, 7), (7, 7)]]]) := rfl

end Verif.Props
