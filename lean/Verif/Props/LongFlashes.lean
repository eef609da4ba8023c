import Verif.Props.Pixels

/-!
# Long flashes: C166

Flashes are selected for a tile by their positions.  A flash that reaches further from its position than the padding of the
tiles is missing from the tiles that it reaches but whose padding its position is not in.
-/

namespace Verif.Props

open Verif.Py Verif.Model Verif.Spec Verif.Proofs

/-- The position of a flash is closer than the padding to one of the pixels of an image. -/
def WithinReach (dx dy px py : Rat) (xs ys : List Rat) (f : Row GVal) : Prop :=
  (∃ X ∈ xs, |f.val.x - X| < px + dx / 2) ∧ ∃ Y ∈ ys, |f.val.y - Y| < py + dy / 2

instance (dx dy px py : Rat) (xs ys : List Rat) (f : Row GVal) : Decidable (WithinReach dx dy px py xs ys f) := by
  unfold WithinReach
  infer_instance

/-- A file without the flashes that are not within reach of an image. -/
def reachable (dx dy px py : Rat) (xs ys : List Rat) (d : GFile) : GFile :=
  { d with flashes := d.flashes.filter fun f => WithinReach dx dy px py xs ys f }

/-- What is assumed of a file: as `CompactFile`, but flashes may be of any size. -/
structure LooseFile (foot : Pt → Poly) (loc : Rat → Rat → Int) (dx dy px py : Rat) (d : GFile) : Prop where
  hasData : HasData d
  consistent : Consistent d
  derived : Derived d
  flashes : UniqueIds d.flashes
  groups : UniqueIds d.groups
  areas : ∀ f ∈ d.flashes, 0 < f.val.area
  pixels : PixelExact loc d
  polygons : ∀ e ∈ d.events, foot (placeOf e) ≠ [] ∧ signedArea (foot (placeOf e)) ≠ 0
  narrow : ∀ e ∈ d.events, ∀ v ∈ foot (placeOf e),
    |v.1 - (meanPoint (foot (placeOf e))).1| ≤ 2 * dx ∧ |v.2 - (meanPoint (foot (placeOf e))).2| ≤ 2 * dy
  view : ∀ e ∈ d.events, |e.val.x| < 1349 / 10000 ∧ |e.val.y| < 1349 / 10000
  event : ∀ e ∈ d.events, ∀ v ∈ foot (placeOf e), |v.1 - e.val.x| ≤ px ∧ |v.2 - e.val.y| ≤ py

/-- A call as C139 assumes it, for files with flashes of any size. -/
structure LooseCall (env : Surroundings) (kw : Dict) (xlo ylo dx dy : Rat) (M N s : Nat) (me mg : Option Int)
    (files opened : List GFile) : Prop where
  asked : FixedGridAsked kw xlo ylo dx dy M N s me mg
  xPos : 0 < dx
  yPos : 0 < dy
  tiles : 0 < s
  xTiles : 2 * s ≤ M
  yTiles : s ≤ N
  xPad : 2 * dx ≤ 28 / 10000
  yPad : 2 * dy ≤ 28 / 10000
  edges : MakesEdges env.edges
  parts : ∀ p q s, s ∈ env.clip p q → s ≠ []
  beside : ∀ x y p i j, Beside x y p i j → env.clip p (cellRect x y j i) = []
  order : ∀ l, (env.order l).Perm l
  opens : ∀ rev, kw.get "ellipse_rev" = .ok rev → List.Forall₂ (fun f d => env.openFile rev f = .ok d) files opened
  some : ∃ d ∈ opened, d.events ≠ []
  loose : ∀ d ∈ opened, d.events ≠ [] →
    LooseFile env.foot env.loc dx dy (padBoxes (28 / 10000) dx * dx) (padBoxes (28 / 10000) dy * dy) d
  centred : ∀ d ∈ opened, ∀ e ∈ d.events, CentredAt env.clip env.foot dx dy (placeOf e)

/-! ## Every file is compact, for a padding that is large enough -/

theorem list_bound (l : List Rat) : ∃ B : Rat, ∀ v ∈ l, |v| ≤ B := by
  induction l with
  | nil => exact ⟨0, fun _ h => absurd h List.not_mem_nil⟩
  | cons a l ih =>
    obtain ⟨B, hB⟩ := ih
    refine ⟨max |a| B, ?_⟩
    intro v hv
    rcases List.mem_cons.mp hv with rfl | hv
    · exact le_max_left _ _
    · exact le_trans (hB v hv) (le_max_right _ _)

theorem loose_compact {foot : Pt → Poly} {loc : Rat → Rat → Int} {dx dy px py : Rat} {files : List GFile}
    (h : ∀ d ∈ files, d.events ≠ [] → LooseFile foot loc dx dy px py d) :
    ∃ px' py', ∀ d ∈ files, d.events ≠ [] → CompactFile foot loc dx dy px' py' d := by
  obtain ⟨Bx, hx⟩ := list_bound (files.flatMap fun d => d.events.flatMap fun e => (foot (placeOf e)).flatMap fun v =>
    d.flashes.map fun f => v.1 - f.val.x)
  obtain ⟨By, hy⟩ := list_bound (files.flatMap fun d => d.events.flatMap fun e => (foot (placeOf e)).flatMap fun v =>
    d.flashes.map fun f => v.2 - f.val.y)
  refine ⟨max px Bx, max py By, fun d hd hne => ?_⟩
  have k := h d hd hne
  exact
    { hasData := k.hasData
      consistent := k.consistent
      derived := k.derived
      flashes := k.flashes
      groups := k.groups
      areas := k.areas
      pixels := k.pixels
      polygons := k.polygons
      narrow := k.narrow
      view := k.view
      event := fun e he v hv => ⟨le_trans (k.event e he v hv).1 (le_max_left _ _),
        le_trans (k.event e he v hv).2 (le_max_left _ _)⟩
      flash := fun f hf e he _ v hv =>
        ⟨le_trans (hx _ (List.mem_flatMap.mpr ⟨d, hd, List.mem_flatMap.mpr ⟨e, he, List.mem_flatMap.mpr ⟨v, hv,
          List.mem_map.mpr ⟨f, hf, rfl⟩⟩⟩⟩)) (le_max_right _ _),
        le_trans (hy _ (List.mem_flatMap.mpr ⟨d, hd, List.mem_flatMap.mpr ⟨e, he, List.mem_flatMap.mpr ⟨v, hv,
          List.mem_map.mpr ⟨f, hf, rfl⟩⟩⟩⟩)) (le_max_right _ _)⟩ }

/-! ## Reach -/

/-- Less than the padding from one of the boxes is inside the padded range. -/
theorem reach_iff {lo d z : Rat} {a b p : Nat} (hd : 0 < d) (hab : a < b) (hp : 0 < p) :
    (∃ X ∈ boxCentres lo d a b, |z - X| < p * d + d / 2) ↔ lo + a * d - p * d < z ∧ z < lo + b * d + p * d := by
  have hpd : 0 < (p : Rat) * d := mul_pos (by exact_mod_cast hp) hd
  constructor
  · rintro ⟨X, hX, hz⟩
    obtain ⟨k, hk, rfl⟩ := List.mem_map.mp hX
    rw [List.mem_range] at hk
    obtain ⟨h1, h2⟩ := abs_lt.mp hz
    have k1 : (a : Rat) ≤ (a + k : Nat) := by exact_mod_cast Nat.le_add_right a k
    have k2 : ((a + k : Nat) : Rat) + 1 ≤ b := by exact_mod_cast (by omega : a + k + 1 ≤ b)
    have m1 := mul_le_mul_of_nonneg_right k1 hd.le
    have m2 := mul_le_mul_of_nonneg_right k2 hd.le
    constructor <;> nlinarith
  · rintro ⟨h1, h2⟩
    have pick : ∀ m : Nat, a ≤ m → m < b → |z - (lo + ((m : Rat) + 1/2) * d)| < p * d + d / 2 →
        ∃ X ∈ boxCentres lo d a b, |z - X| < p * d + d / 2 := by
      intro m hm1 hm2 hm
      refine ⟨_, List.mem_map.mpr ⟨m - a, List.mem_range.mpr (by omega), rfl⟩, ?_⟩
      rw [Nat.add_sub_cancel' hm1]
      exact hm
    by_cases c1 : z < lo + a * d
    · refine pick a (le_refl a) hab (abs_lt.mpr ⟨?_, ?_⟩) <;> nlinarith
    · by_cases c2 : lo + b * d ≤ z
      · refine pick (b - 1) (by omega) (by omega) (abs_lt.mpr ⟨?_, ?_⟩) <;>
          · push_cast [Nat.cast_sub (show 1 ≤ b by omega)]
            nlinarith
      · have hq : (a : Rat) ≤ (z - lo) / d := by rw [le_div_iff₀ hd]; linarith
        have hq2 : (z - lo) / d < b := by rw [div_lt_iff₀ hd]; linarith
        have f1 : (a : Int) ≤ ⌊(z - lo) / d⌋ := Int.le_floor.mpr (by exact_mod_cast hq)
        have f2 : ⌊(z - lo) / d⌋ < (b : Int) := Int.floor_lt.mpr (by exact_mod_cast hq2)
        obtain ⟨m, hm⟩ := Int.eq_ofNat_of_zero_le (by omega : 0 ≤ ⌊(z - lo) / d⌋)
        have g1 : (m : Rat) ≤ (z - lo) / d := by have := Int.floor_le ((z - lo) / d); rw [hm] at this; exact_mod_cast this
        have g2 : (z - lo) / d < m + 1 := by
          have := Int.lt_floor_add_one ((z - lo) / d); rw [hm] at this; exact_mod_cast this
        rw [le_div_iff₀ hd] at g1
        rw [div_lt_iff₀ hd] at g2
        refine pick m (by omega) (by omega) (abs_lt.mpr ⟨?_, ?_⟩) <;> nlinarith

/-- What is asked for does not change if flashes are left out that do not meet the criteria. -/
theorem askedFor_reachable {dx dy px py : Rat} {xs ys : List Rat} {c : Criteria} (hc : ¬ NoCriteria c)
    (h : ∀ f : Row GVal, Meets c f → WithinReach dx dy px py xs ys f) (d : GFile) :
    askedFor (reachable dx dy px py xs ys d) c = askedFor d c := by
  classical
  unfold askedFor
  rw [if_neg hc, if_neg hc]
  show ((d.flashes.filter _).filter _) = _
  rw [List.filter_filter]
  apply List.filter_congr
  intro f _
  have hev : ∀ e, EventOfFlash (reachable dx dy px py xs ys d) f.id e ↔ EventOfFlash d f.id e := fun e => Iff.rfl
  rw [← Bool.decide_and, decide_eq_decide]
  constructor
  · rintro ⟨h1, -⟩
    exact h1
  · intro h1
    exact ⟨h1, h f h1.1⟩

theorem cells_reachable {clip : Poly → Poly → List Poly} {foot : Pt → Poly} {x y : List Rat} {dx dy px py : Rat}
    {xs ys : List Rat} {c : Criteria} {files : List (Int × GFile)} {i j : Nat} {fed fa te ged ga mfa : Rat}
    (hc : ¬ NoCriteria c) (h : ∀ f : Row GVal, Meets c f → WithinReach dx dy px py xs ys f)
    (hcell : CellsOfFiles clip foot x y c files i j fed fa te ged ga mfa) :
    CellsOfFiles clip foot x y c (files.map fun d => (d.1, reachable dx dy px py xs ys d.2)) i j fed fa te ged ga mfa := by
  classical
  have ask := askedFor_reachable (dx := dx) (dy := dy) (px := px) (py := py) (xs := xs) (ys := ys) hc h
  have askG : ∀ d, askedGroups (reachable dx dy px py xs ys d) c = askedGroups d c := by
    intro d
    unfold askedGroups
    rw [ask]
    rfl
  have askE : ∀ d, askedEvents (reachable dx dy px py xs ys d) c = askedEvents d c := by
    intro d
    unfold askedEvents
    rw [ask]
    rfl
  have fp : ∀ d f, flashPlaces (reachable dx dy px py xs ys d) f = flashPlaces d f := fun d f => rfl
  have gp : ∀ d f, groupPlaces (reachable dx dy px py xs ys d) f = groupPlaces d f := fun d f => rfl
  refine ⟨?_, ?_, ?_, ?_, ?_, ?_⟩
  · rw [hcell.energy, List.map_map]
    simp only [Function.comp_def, askE]
  · rw [hcell.flashes, List.map_map]
    simp only [Function.comp_def, ask, fp]
  · rw [hcell.groups, List.map_map]
    simp only [Function.comp_def, askG, gp]
  · rw [hcell.flashArea, List.map_map]
    simp only [Function.comp_def, ask, fp]
  · rw [hcell.groupArea, List.map_map]
    simp only [Function.comp_def, askG, gp]
  · rw [List.flatMap_map]
    simp only [ask, fp]
    exact hcell.least

/-! ## Tiles -/

/-- What is in a cell of the grids of a tile, if the flashes that reach it are within reach of the tile. -/
theorem tile_cell_near {env : Surroundings} {xlo ylo dx dy : Rat} (hdx : 0 < dx) (hdy : 0 < dy) (he : MakesEdges env.edges)
    {a b c d p q : Nat} (hab : a + 2 ≤ b) (hcd : c + 1 ≤ d) (hp2 : 2 ≤ p) (hq2 : 2 ≤ q) {t : Tile}
    (tx : t.xBnd = (xlo + a * dx - p * dx, xlo + b * dx + p * dx))
    (ty : t.yBnd = (ylo + c * dy - q * dy, ylo + d * dy + q * dy))
    (me mg : Option Int) {files : List (Int × GFile)}
    (hbeside : ∀ x y p i j, Beside x y p i j → env.clip p (cellRect x y j i) = [])
    (hnarrow : ∀ g ∈ files, ∀ e ∈ g.2.events, ∀ v ∈ env.foot (placeOf e),
      |v.1 - (meanPoint (env.foot (placeOf e))).1| ≤ 2 * dx ∧ |v.2 - (meanPoint (env.foot (placeOf e))).2| ≤ 2 * dy)
    (hview : ∀ g ∈ files, ∀ e ∈ g.2.events, |e.val.x| < 1349 / 10000 ∧ |e.val.y| < 1349 / 10000)
    (hevent : ∀ g ∈ files, ∀ e ∈ g.2.events, ∀ v ∈ env.foot (placeOf e),
      |v.1 - e.val.x| ≤ p * dx ∧ |v.2 - e.val.y| ≤ q * dy)
    {col k : Nat} (hcol : col < b - a) (hkd : c + k < d) {fed fa te ged ga mfa : Rat}
    (hnear : ∀ g ∈ files, ∀ f ∈ countedFlashes me mg g.2, ∀ e ∈ g.2.events, EventOfFlash g.2 f.id e →
      env.clip (env.foot (placeOf e)) (pixelAt dx dy (xlo + ((a + col : Nat) + 1/2) * dx)
        (ylo + ((c + k : Nat) + 1/2) * dy)) ≠ [] →
      WithinReach dx dy (p * dx) (q * dy) (boxCentres xlo dx a b) (boxCentres ylo dy c d) f)
    (hcell : CellsOfFiles (foundClip env.clip env.query (env.edges t.xBnd dx) (env.edges t.yBnd dy)) env.foot
      (env.edges t.xBnd dx) (env.edges t.yBnd dy) { x := some t.xBnd, y := some t.yBnd, minEvents := me, minGroups := mg }
      files (p + col) (q + k) fed fa te ged ga mfa) :
    PixelHolds env.clip env.foot me mg (files.map Prod.snd) dx dy (xlo + ((a + col : Nat) + 1/2) * dx)
      (ylo + ((c + k : Nat) + 1/2) * dy) fed fa te ged ga mfa := by
  classical
  have ext : env.edges t.xBnd dx = boxEdges (xlo + a * dx - p * dx) dx (b - a + 2 * p) := by
    rw [tx, padded_edges he hdx (by omega)]
  have eyt : env.edges t.yBnd dy = boxEdges (ylo + c * dy - q * dy) dy (d - c + 2 * q) := by
    rw [ty, padded_edges he hdy (by omega)]
  have hax : AxisOk (env.edges t.xBnd dx) := by rw [ext]; exact boxEdges_axis hdx (by omega)
  have hay : AxisOk (env.edges t.yBnd dy) := by rw [eyt]; exact boxEdges_axis hdy (by omega)
  have hsz : 2 < (env.edges t.xBnd dx).length := by rw [ext, boxEdges_length]; omega
  have ux : Spaced (env.edges t.xBnd dx) dx := by rw [ext]; exact boxEdges_spaced hdx
  have uy : Spaced (env.edges t.yBnd dy) dy := by rw [eyt]; exact boxEdges_spaced hdy
  obtain ⟨X, hX⟩ : ∃ X, X = xlo + ((a + col : Nat) + 1/2) * dx := ⟨_, rfl⟩
  obtain ⟨Y, hY⟩ : ∃ Y, Y = ylo + ((c + k : Nat) + 1/2) * dy := ⟨_, rfl⟩
  rw [← hX, ← hY] at hnear ⊢
  have gx : ∀ r, r ≤ 1 → (env.edges t.xBnd dx).getD (p + col + r) 0 = xlo + (a + col + r : Nat) * dx := by
    intro r hr
    rw [ext, boxEdges_getD _ _ (by omega)]
    push_cast
    ring
  have gy : ∀ r, r ≤ 1 → (env.edges t.yBnd dy).getD (q + k + r) 0 = ylo + (c + k + r : Nat) * dy := by
    intro r hr
    rw [eyt, boxEdges_getD _ _ (by omega)]
    push_cast
    ring
  have hrect : cellRect (env.edges t.xBnd dx) (env.edges t.yBnd dy) (q + k) (p + col) = pixelAt dx dy X Y := by
    have e0 := gx 0 (by omega)
    have e1 := gx 1 (by omega)
    have e2 := gy 0 (by omega)
    have e3 := gy 1 (by omega)
    simp only [Nat.add_zero] at e0 e2
    rw [cellRect_rect, e0, e1, e2, e3, hX, hY]
    unfold pixelAt
    congr 1 <;> push_cast <;> ring
  have hnc : ¬ NoCriteria { x := some t.xBnd, y := some t.yBnd, minEvents := me, minGroups := mg } := by
    intro h
    exact absurd h.2.2.1 (by simp)
  refine cells_direct (clip := env.clip) hcell hrect ?_ ?_ hnc
  · intro g hg e hee
    rw [← hrect]
    exact found_inside env.query hax hay (Or.inl hsz) ux uy hbeside (hnarrow g hg e hee)
      (by omega) (by rw [ext, boxEdges_length]; omega) (by omega) (by rw [eyt, boxEdges_length]; omega)
  · intro g hg f hff hfn e hee hfe
    by_contra hne
    apply hfn
    obtain ⟨nx, ny⟩ := hnear g hg f hff e hee hfe hne
    rw [reach_iff hdx (by omega) (by omega)] at nx
    rw [reach_iff hdy (by omega) (by omega)] at ny
    have hnb : ¬ Beside (env.edges t.xBnd dx) (env.edges t.yBnd dy) (env.foot (placeOf e)) (p + col) (q + k) :=
      fun h => hne (by rw [← hrect]; exact hbeside _ _ _ _ _ h)
    unfold Beside at hnb
    push Not at hnb
    obtain ⟨⟨v1, k1, b1⟩, ⟨v2, k2, b2⟩, ⟨v3, k3, b3⟩, ⟨v4, k4, b4⟩⟩ := hnb
    unfold askedFor
    rw [if_neg hnc]
    obtain ⟨hf1, hf2⟩ := List.mem_filter.mp hff
    obtain ⟨hm1, hm2⟩ := of_decide_eq_true hf2
    have e0 := gx 0 (by omega)
    have e1 := gx 1 (by omega)
    have e2 := gy 0 (by omega)
    have e3 := gy 1 (by omega)
    simp only [Nat.add_zero] at e0 e2
    rw [e0] at b1
    rw [e1] at b2
    rw [e2] at b3
    rw [e3] at b4
    have near : ∀ {lo dl v w z : Rat} {a b P r : Nat}, 0 < dl → r + 1 ≤ b → a ≤ r → lo + (r : Nat) * dl < v →
        w < lo + (r + 1 : Nat) * dl → |v - z| ≤ P * dl → |w - z| ≤ P * dl →
        lo + a * dl - P * dl < z ∧ z < lo + b * dl + P * dl := by
      intro lo dl v w z a b P r hd hrb har hv hw hvz hwz
      have h1 : ((r + 1 : Nat) : Rat) ≤ b := by exact_mod_cast hrb
      have h2 : (a : Rat) ≤ r := by exact_mod_cast har
      have h3 := mul_le_mul_of_nonneg_right h1 hd.le
      have h4 := mul_le_mul_of_nonneg_right h2 hd.le
      constructor
      · linarith [(abs_le.mp hvz).2]
      · linarith [(abs_le.mp hwz).1]
    have E := hevent g hg e hee
    have V := hview g hg e hee
    refine List.mem_filter.mpr ⟨hf1, decide_eq_true ⟨⟨?_, ?_, ?_, ?_, hm1, hm2⟩, e, hee, hfe,
      ⟨abs_lt.mp V.1, abs_lt.mp V.2, ?_, ?_⟩⟩⟩
    · rintro r hr
      cases hr
    · rintro r hr
      cases hr
    · rintro r hr
      cases hr
      rw [tx]
      exact nx
    · rintro r hr
      cases hr
      rw [ty]
      exact ny
    · rintro r hr
      cases hr
      rw [tx]
      exact near hdx (by omega) (by omega) b1 b2 (E v1 k1).1 (E v2 k2).1
    · rintro r hr
      cases hr
      rw [ty]
      exact near hdy hkd (by omega) b3 b4 (E v3 k3).2 (E v4 k4).2

/-- All flashes with a part in a pixel are within reach of the image with the given pixels. -/
def AllWithinReach (clip : Poly → Poly → List Poly) (foot : Pt → Poly) (me mg : Option Int) (files : List GFile)
    (dx dy px py : Rat) (xs ys : List Rat) (X Y : Rat) : Prop :=
  ∀ d ∈ files, ∀ f ∈ countedFlashes me mg d, ∀ e ∈ d.events, EventOfFlash d f.id e →
    clip (foot (placeOf e)) (pixelAt dx dy X Y) ≠ [] → WithinReach dx dy px py xs ys f

/-- What an image shows of files with flashes of any size. -/
structure LooseImage (clip : Poly → Poly → List Poly) (foot : Pt → Poly) (me mg : Option Int) (files : List GFile)
    (dx dy px py : Rat) (sc : Bool) (frame : Rat × Rat) (xs ys : List Rat) (f : ImageFile) : Prop where
  reached : ImageShows clip foot me mg (files.map (reachable dx dy px py xs ys)) dx dy sc frame xs ys f
  whole : ∀ row col X Y, f.x[col]? = some X → f.y[row]? = some Y →
    AllWithinReach clip foot me mg files dx dy px py xs ys X Y → ∃ fed fa te ged ga mfa,
      PixelHolds clip foot me mg files dx dy X Y fed fa te ged ga mfa ∧
      ∀ name img v, (name, img) ∈ f.fields → (name, v) ∈ shown sc fed fa te ged ga mfa → img.val row col = v

theorem loose_tile_image {env : Surroundings} {xlo ylo dx dy : Rat} (hdx : 0 < dx) (hdy : 0 < dy) (he : MakesEdges env.edges)
    {a b c d p q : Nat} (hab : a + 2 ≤ b) (hcd : c + 1 ≤ d) (hp2 : 2 ≤ p) (hq2 : 2 ≤ q) {t : Tile}
    (tx : t.xBnd = (xlo + a * dx - p * dx, xlo + b * dx + p * dx))
    (ty : t.yBnd = (ylo + c * dy - q * dy, ylo + d * dy + q * dy)) (tp : t.pads = ⟨p, q, p * dx, q * dy⟩)
    (me mg : Option Int) {files : List GFile} (hclip : ∀ p q s, s ∈ env.clip p q → s ≠ [])
    (hbeside : ∀ x y p i j, Beside x y p i j → env.clip p (cellRect x y j i) = []) (ho : ∀ l, (env.order l).Perm l)
    (hf : ∀ g ∈ files, g.events ≠ [] → LooseFile env.foot env.loc dx dy (p * dx) (q * dy) g)
    (hcen : ∀ g ∈ files, ∀ e ∈ g.events, CentredAt env.clip env.foot dx dy (placeOf e)) :
    ∃ fakes,
      readFiles env.clip env.query (fun pts => pts.map env.foot) (gridMesh (env.edges t.xBnd dx) (env.edges t.yBnd dy))
        env.basedate env.loc env.order { x := some t.xBnd, y := some t.yBnd, minEvents := me, minGroups := mg } 20000
        (files.map fun g => (env.productTime g, g)) = .ok fakes ∧
      ∀ out scale, ∃ f, lutImages env ⟨env.edges t.xBnd dx, env.edges t.yBnd dy, fakes⟩ out
          (.slices (getPadSlices t.pads).1 (getPadSlices t.pads).2) scale = .ok [f] ∧
        LooseImage env.clip env.foot me mg files dx dy (p * dx) (q * dy) (scale != .bool false) env.frame
          (boxCentres xlo dx a b) (boxCentres ylo dy c d) f := by
  classical
  have ext : env.edges t.xBnd dx = boxEdges (xlo + a * dx - p * dx) dx (b - a + 2 * p) := by
    rw [tx, padded_edges he hdx (by omega)]
  have eyt : env.edges t.yBnd dy = boxEdges (ylo + c * dy - q * dy) dy (d - c + 2 * q) := by
    rw [ty, padded_edges he hdy (by omega)]
  have hax : AxisOk (env.edges t.xBnd dx) := by rw [ext]; exact boxEdges_axis hdx (by omega)
  have hay : AxisOk (env.edges t.yBnd dy) := by rw [eyt]; exact boxEdges_axis hdy (by omega)
  have hsz : 2 < (env.edges t.xBnd dx).length := by rw [ext, boxEdges_length]; omega
  have ux : Spaced (env.edges t.xBnd dx) dx := by rw [ext]; exact boxEdges_spaced hdx
  have uy : Spaced (env.edges t.yBnd dy) dy := by rw [eyt]; exact boxEdges_spaced hdy
  have x0 : (env.edges t.xBnd dx).getD 0 0 = t.xBnd.1 := by
    rw [ext, boxEdges_getD _ _ (by omega), tx]
    push_cast
    ring
  have y0 : (env.edges t.yBnd dy).getD 0 0 = t.yBnd.1 := by
    rw [eyt, boxEdges_getD _ _ (by omega), ty]
    push_cast
    ring
  have x1 : (env.edges t.xBnd dx).getD ((env.edges t.xBnd dx).length - 1) 0 = t.xBnd.2 := by
    rw [ext, boxEdges_length, boxEdges_getD _ _ (by omega), tx]
    rw [show b - a + 2 * p + 1 - 1 = b - a + 2 * p by omega]
    push_cast [Nat.cast_sub (show a ≤ b by omega)]
    ring
  have y1 : (env.edges t.yBnd dy).getD ((env.edges t.yBnd dy).length - 1) 0 = t.yBnd.2 := by
    rw [eyt, boxEdges_length, boxEdges_getD _ _ (by omega), ty]
    rw [show d - c + 2 * q + 1 - 1 = d - c + 2 * q by omega]
    push_cast [Nat.cast_sub (show c ≤ d by omega)]
    ring
  obtain ⟨px', py', hcomp⟩ := loose_compact hf
  have hf' : ∀ g ∈ files.map fun g => (env.productTime g, g), g.2.events ≠ [] →
      CompactFile env.foot env.loc dx dy px' py' g.2 := by
    intro g hg
    obtain ⟨g, hg', rfl⟩ := List.mem_map.mp hg
    exact hcomp g hg'
  obtain ⟨grid, ⟨fakes, outgrids, grids, h1, h2, h3, h4⟩, -, hv⟩ := tile_gridded (t := t)
    (rest := { minEvents := me, minGroups := mg }) (query := env.query) env.basedate
    (env.points (env.edges t.xBnd dx) (env.edges t.yBnd dy)) env.label (fun k f => env.keep (f.parentsFor k)) hclip ho
    (n := 20000) (by omega) hax hay hsz hf' (by
      intro g hg hne
      have hc := hf' g hg hne
      obtain ⟨g, hg', rfl⟩ := List.mem_map.mp hg
      exact chunks_on_grid ho (by omega) hax hay hsz ux uy x0 x1 y0 y1 hc fun e hee => hcen g hg' e hee)
  refine ⟨fakes, h1, ?_⟩
  intro out scale
  obtain ⟨f, f1, f2, f3, f4, f5, f6, f7, f8⟩ := lut_image hdx hdy he hab hcd tx ty tp h2 h3 h4 out scale
  have hnc : ¬ NoCriteria { x := some t.xBnd, y := some t.yBnd, minEvents := me, minGroups := mg } := by
    intro h
    exact absurd h.2.2.1 (by simp)
  have meets : ∀ f : Row GVal, Meets { x := some t.xBnd, y := some t.yBnd, minEvents := me, minGroups := mg } f →
      WithinReach dx dy (p * dx) (q * dy) (boxCentres xlo dx a b) (boxCentres ylo dy c d) f := by
    intro f hm
    refine ⟨(reach_iff hdx (by omega) (by omega)).mpr ?_, (reach_iff hdy (by omega) (by omega)).mpr ?_⟩
    · have := hm.x _ rfl
      rwa [tx] at this
    · have := hm.y _ rfl
      rwa [ty] at this
  -- the cell of a pixel
  have pixel : ∀ row col X Y, f.x[col]? = some X → f.y[row]? = some Y → ∃ k, col < b - a ∧ c + k < d ∧
      X = xlo + ((a + col : Nat) + 1/2) * dx ∧ Y = ylo + ((c + k : Nat) + 1/2) * dy ∧
      CellsOfFiles (foundClip env.clip env.query (env.edges t.xBnd dx) (env.edges t.yBnd dy)) env.foot
        (env.edges t.xBnd dx) (env.edges t.yBnd dy) { x := some t.xBnd, y := some t.yBnd, minEvents := me, minGroups := mg }
        (files.map fun g => (env.productTime g, g)) (p + col) (q + k)
        ((grid "flash_extent_density").val (p + col) (q + k)) ((grid "average_flash_area").val (p + col) (q + k))
        ((grid "total_energy").val (p + col) (q + k)) ((grid "group_extent_density").val (p + col) (q + k))
        ((grid "average_group_area").val (p + col) (q + k)) ((grid "minimum_flash_area").val (p + col) (q + k)) ∧
      ∀ name img, (name, img) ∈ f.fields → ∀ v, (name, v) ∈ shown (scale != .bool false)
        ((grid "flash_extent_density").val (p + col) (q + k)) ((grid "average_flash_area").val (p + col) (q + k))
        ((grid "total_energy").val (p + col) (q + k)) ((grid "group_extent_density").val (p + col) (q + k))
        ((grid "average_group_area").val (p + col) (q + k)) ((grid "minimum_flash_area").val (p + col) (q + k)) →
        img.val row col = v := by
    intro row col X Y hX hY
    rw [show f.x = boxCentres xlo dx a b from f4] at hX
    rw [show f.y = (boxCentres ylo dy c d).reverse from f5] at hY
    obtain ⟨hcol, hX⟩ := boxCentres_get hX
    have hrow : row < d - c := by
      obtain ⟨hr, -⟩ := List.getElem?_eq_some_iff.mp hY
      rwa [List.length_reverse, boxCentres_length] at hr
    rw [List.getElem?_reverse (by rw [boxCentres_length]; exact hrow), boxCentres_length] at hY
    obtain ⟨-, hY⟩ := boxCentres_get hY
    obtain ⟨k, hk⟩ : ∃ k, k = d - c - 1 - row := ⟨_, rfl⟩
    rw [← hk] at hY
    have f8 := f8 row col hrow hcol
    rw [show q + (d - c) - 1 - row = q + k by omega] at f8
    exact ⟨k, hcol, by omega, hX, hY, hv (p + col) (q + k) (by rw [ext, boxEdges_length]; omega)
      (by rw [eyt, boxEdges_length]; omega), f8⟩
  refine ⟨f, f1, ⟨f2, f3, f4, f5, f6, ?_, ?_⟩, ?_⟩
  · intro img hi
    rw [boxCentres_length, boxCentres_length]
    exact f7 img hi
  · intro row col X Y hX hY
    obtain ⟨k, hcol, hkd, rfl, rfl, hcell, hall⟩ := pixel row col X Y hX hY
    have hcell := cells_reachable hnc meets hcell
    rw [List.map_map] at hcell
    have := tile_cell_near hdx hdy he hab hcd hp2 hq2 tx ty me mg hbeside (by
        intro g hg e hee
        obtain ⟨g, hg', rfl⟩ := List.mem_map.mp hg
        exact (hf g hg' (List.ne_nil_of_mem (show e ∈ g.events from hee))).narrow e hee) (by
        intro g hg e hee
        obtain ⟨g, hg', rfl⟩ := List.mem_map.mp hg
        exact (hf g hg' (List.ne_nil_of_mem (show e ∈ g.events from hee))).view e hee) (by
        intro g hg e hee
        obtain ⟨g, hg', rfl⟩ := List.mem_map.mp hg
        exact (hf g hg' (List.ne_nil_of_mem (show e ∈ g.events from hee))).event e hee) hcol hkd (by
        intro g hg f hff e hee hfe _
        obtain ⟨g, hg', rfl⟩ := List.mem_map.mp hg
        exact of_decide_eq_true (List.mem_filter.mp (List.mem_filter.mp hff).1).2) hcell
    rw [List.map_map] at this
    exact ⟨_, _, _, _, _, _, this, fun name img v him hv => hall name img him v hv⟩
  · intro row col X Y hX hY hreach
    obtain ⟨k, hcol, hkd, rfl, rfl, hcell, hall⟩ := pixel row col X Y hX hY
    have := tile_cell_near hdx hdy he hab hcd hp2 hq2 tx ty me mg hbeside (by
        intro g hg e hee
        obtain ⟨g, hg', rfl⟩ := List.mem_map.mp hg
        exact (hf g hg' (List.ne_nil_of_mem (show e ∈ g.events from hee))).narrow e hee) (by
        intro g hg e hee
        obtain ⟨g, hg', rfl⟩ := List.mem_map.mp hg
        exact (hf g hg' (List.ne_nil_of_mem (show e ∈ g.events from hee))).view e hee) (by
        intro g hg e hee
        obtain ⟨g, hg', rfl⟩ := List.mem_map.mp hg
        exact (hf g hg' (List.ne_nil_of_mem (show e ∈ g.events from hee))).event e hee) hcol hkd (by
        intro g hg f hff e hee hfe hne
        obtain ⟨g, hg', rfl⟩ := List.mem_map.mp hg
        exact hreach g hg' f hff e hee hfe hne) hcell
    rw [List.map_map, show (Prod.snd ∘ fun g : GFile => (env.productTime g, g)) = id from rfl, List.map_id] at this
    exact ⟨_, _, _, _, _, _, this, fun name img v him hv => hall name img him v hv⟩

/-! ## C166 -/

/-- The images of a call for files with flashes of any size. -/
theorem loose_images {env : Surroundings} {kw : Dict} (shared : Dict) {xlo ylo dx dy : Rat} {M N s : Nat}
    {me mg : Option Int} {files opened : List GFile} (h : LooseCall env kw xlo ylo dx dy M N s me mg files opened) :
    ∃ runs shared', gridGlmFlashes (lutGridder env) files kw shared = .ok (runs, shared') ∧
      (runs.map fun r => r.ij) = ((List.range s).flatMap fun i => (List.range s).map fun j => (i, j)) ∧
      ∀ r ∈ runs, ∃ f, r.written = [(f.name, f)] ∧
        LooseImage env.clip env.foot me mg opened dx dy (padBoxes (28 / 10000) dx * dx) (padBoxes (28 / 10000) dy * dy)
          (r.scale != .bool false) env.frame
          (boxCentres xlo dx (tileStart M s r.ij.1) (tileStart M s (r.ij.1 + 1)))
          (boxCentres ylo dy (tileStart N s r.ij.2) (tileStart N s (r.ij.2 + 1))) f := by
  obtain ⟨runs, sh, h1, h2, h3, -⟩ := call_runs (env := env) (G := lutGridder env)
    (P := fun sc xs ys (w : List (String × ImageFile)) => ∃ f, w = [(f.name, f)] ∧
      LooseImage env.clip env.foot me mg opened dx dy (padBoxes (28 / 10000) dx * dx) (padBoxes (28 / 10000) dy * dy) sc
        env.frame xs ys f) rfl rfl rfl shared h.asked h.xPos h.yPos h.tiles h.xTiles h.yTiles h.xPad h.yPad
    h.opens h.some (by
      intro t a b c d p q hab hcd hp hq ep eq tx ty tp
      subst ep eq
      obtain ⟨fakes, hread, himg⟩ := loose_tile_image (env := env) h.xPos h.yPos h.edges hab hcd hp hq tx ty tp me mg
        (files := opened) h.parts h.beside h.order h.loose h.centred
      refine ⟨fakes, hread, fun out scale => ?_⟩
      obtain ⟨f, hf, hsh⟩ := himg out scale
      refine ⟨[(f.name, f)], ?_, f, rfl, hsh⟩
      show (do let files ← lutImages env _ out _ scale; pure (files.map fun (f : ImageFile) => (f.name, f))) = _
      rw [hf]
      rfl)
  exact ⟨runs, sh, h1, h2, h3⟩

/-- A file without the flashes that are within reach of an image. -/
def unreachable (dx dy px py : Rat) (xs ys : List Rat) (d : GFile) : GFile :=
  { d with flashes := d.flashes.filter fun f => ¬ WithinReach dx dy px py xs ys f }

theorem uniqueIds_eq {l : List (Row GVal)} (h : UniqueIds l) {a b : Row GVal} (ha : a ∈ l) (hb : b ∈ l)
    (e : a.id = b.id) : a = b := List.inj_on_of_nodup_map h ha hb e

theorem sum_split {α : Type} (l : List α) (P Q R : α → Prop) [DecidablePred P] [DecidablePred Q] [DecidablePred R]
    (F : α → Rat) (h : ∀ a ∈ l, P a ↔ Q a ∨ R a) (hd : ∀ a ∈ l, ¬ (Q a ∧ R a)) :
    ((l.filter fun a => P a).map F).sum = ((l.filter fun a => Q a).map F).sum + ((l.filter fun a => R a).map F).sum := by
  induction l with
  | nil => simp
  | cons a l ih =>
    have ih := ih (fun b hb => h b (List.mem_cons_of_mem _ hb)) fun b hb => hd b (List.mem_cons_of_mem _ hb)
    have ha := h a List.mem_cons_self
    have hda := hd a List.mem_cons_self
    by_cases hQ : Q a
    · have hR : ¬ R a := fun hR => hda ⟨hQ, hR⟩
      rw [List.filter_cons_of_pos (by simpa using ha.mpr (Or.inl hQ)), List.filter_cons_of_pos (by simpa using hQ),
        List.filter_cons_of_neg (by simpa using hR), List.map_cons, List.map_cons, List.sum_cons, List.sum_cons, ih]
      ring
    · by_cases hR : R a
      · rw [List.filter_cons_of_pos (by simpa using ha.mpr (Or.inr hR)), List.filter_cons_of_neg (by simpa using hQ),
          List.filter_cons_of_pos (by simpa using hR), List.map_cons, List.map_cons, List.sum_cons, List.sum_cons, ih]
        ring
      · have hP : ¬ P a := fun hP => (ha.mp hP).elim hQ hR
        rw [List.filter_cons_of_neg (by simpa using hP), List.filter_cons_of_neg (by simpa using hQ),
          List.filter_cons_of_neg (by simpa using hR), ih]

theorem sum_map_add3 {α : Type} (l : List α) (F G H : α → Rat) (h : ∀ a ∈ l, F a = G a + H a) :
    (l.map F).sum = (l.map G).sum + (l.map H).sum := by
  induction l with
  | nil => simp
  | cons a l ih =>
    rw [List.map_cons, List.map_cons, List.map_cons, List.sum_cons, List.sum_cons, List.sum_cons,
      ih fun b hb => h b (List.mem_cons_of_mem _ hb), h a List.mem_cons_self]
    ring

section
variable {clip : Poly → Poly → List Poly} {foot : Pt → Poly} {me mg : Option Int} {files : List GFile}
  {dx dy px py X Y : Rat} {xs ys : List Rat} {fed fa te ged ga mfa fed1 fa1 te1 ged1 ga1 mfa1 fed2 fa2 te2 ged2 ga2 mfa2 : Rat}

/-- What files put into a pixel is what their flashes within reach put there and what the others put there. -/
theorem holds_split (hu : ∀ d ∈ files, UniqueIds d.flashes ∧ UniqueIds d.groups)
    (h : PixelHolds clip foot me mg files dx dy X Y fed fa te ged ga mfa)
    (h1 : PixelHolds clip foot me mg (files.map (reachable dx dy px py xs ys)) dx dy X Y fed1 fa1 te1 ged1 ga1 mfa1)
    (h2 : PixelHolds clip foot me mg (files.map (unreachable dx dy px py xs ys)) dx dy X Y fed2 fa2 te2 ged2 ga2 mfa2) :
    fed = fed1 + fed2 ∧ fa = fa1 + fa2 ∧ te = te1 + te2 ∧ ged = ged1 + ged2 ∧ ga = ga1 + ga2 := by
  classical
  have memR : ∀ d f, f ∈ countedFlashes me mg (reachable dx dy px py xs ys d) ↔
      f ∈ countedFlashes me mg d ∧ WithinReach dx dy px py xs ys f := by
    intro d f
    unfold countedFlashes reachable
    simp only [List.mem_filter, decide_eq_true_eq]
    tauto
  have memU : ∀ d f, f ∈ countedFlashes me mg (unreachable dx dy px py xs ys d) ↔
      f ∈ countedFlashes me mg d ∧ ¬ WithinReach dx dy px py xs ys f := by
    intro d f
    unfold countedFlashes unreachable
    simp only [List.mem_filter, decide_eq_true_eq]
    tauto
  have inD : ∀ {d : GFile} {f}, f ∈ countedFlashes me mg d → f ∈ d.flashes := fun hf => (List.mem_filter.mp hf).1
  have flashSum : ∀ (d : GFile) (F : Row GVal → Rat), ((countedFlashes me mg d).map F).sum =
      ((countedFlashes me mg (reachable dx dy px py xs ys d)).map F).sum +
      ((countedFlashes me mg (unreachable dx dy px py xs ys d)).map F).sum := by
    intro d F
    unfold countedFlashes reachable unreachable
    simp only [List.filter_filter]
    have := sum_split d.flashes (fun f => AtLeast me f.val.nEvents ∧ AtLeast mg f.val.nGroups)
      (fun f => (AtLeast me f.val.nEvents ∧ AtLeast mg f.val.nGroups) ∧ WithinReach dx dy px py xs ys f)
      (fun f => (AtLeast me f.val.nEvents ∧ AtLeast mg f.val.nGroups) ∧ ¬ WithinReach dx dy px py xs ys f) F
      (fun f _ => by tauto) (fun f _ => by tauto)
    simpa only [Bool.decide_and] using this
  have groupSum : ∀ d ∈ files, ∀ F : Row GVal → Rat, ((countedGroups me mg d).map F).sum =
      ((countedGroups me mg (reachable dx dy px py xs ys d)).map F).sum +
      ((countedGroups me mg (unreachable dx dy px py xs ys d)).map F).sum := by
    intro d hd F
    refine sum_split d.groups (fun g => ∃ f ∈ countedFlashes me mg d, f.id = g.pid)
      (fun g => ∃ f ∈ countedFlashes me mg (reachable dx dy px py xs ys d), f.id = g.pid)
      (fun g => ∃ f ∈ countedFlashes me mg (unreachable dx dy px py xs ys d), f.id = g.pid) F ?_ ?_
    · intro g _
      constructor
      · rintro ⟨f, hf, e⟩
        by_cases hw : WithinReach dx dy px py xs ys f
        · exact Or.inl ⟨f, (memR d f).mpr ⟨hf, hw⟩, e⟩
        · exact Or.inr ⟨f, (memU d f).mpr ⟨hf, hw⟩, e⟩
      · rintro (⟨f, hf, e⟩ | ⟨f, hf, e⟩)
        · exact ⟨f, ((memR d f).mp hf).1, e⟩
        · exact ⟨f, ((memU d f).mp hf).1, e⟩
    · rintro g _ ⟨⟨f, hf, e⟩, ⟨f', hf', e'⟩⟩
      obtain ⟨k1, k2⟩ := (memR d f).mp hf
      obtain ⟨k3, k4⟩ := (memU d f').mp hf'
      have := uniqueIds_eq (hu d hd).1 (inD k1) (inD k3) (by rw [e, e'])
      rw [this] at k2
      exact k4 k2
  have eventSum : ∀ d ∈ files, ∀ F : Row GVal → Rat, ((countedEvents me mg d).map F).sum =
      ((countedEvents me mg (reachable dx dy px py xs ys d)).map F).sum +
      ((countedEvents me mg (unreachable dx dy px py xs ys d)).map F).sum := by
    intro d hd F
    refine sum_split d.events (fun g => ∃ f ∈ countedFlashes me mg d, EventOfFlash d f.id g)
      (fun g => ∃ f ∈ countedFlashes me mg (reachable dx dy px py xs ys d), EventOfFlash d f.id g)
      (fun g => ∃ f ∈ countedFlashes me mg (unreachable dx dy px py xs ys d), EventOfFlash d f.id g) F ?_ ?_
    · intro g _
      constructor
      · rintro ⟨f, hf, e⟩
        by_cases hw : WithinReach dx dy px py xs ys f
        · exact Or.inl ⟨f, (memR d f).mpr ⟨hf, hw⟩, e⟩
        · exact Or.inr ⟨f, (memU d f).mpr ⟨hf, hw⟩, e⟩
      · rintro (⟨f, hf, e⟩ | ⟨f, hf, e⟩)
        · exact ⟨f, ((memR d f).mp hf).1, e⟩
        · exact ⟨f, ((memU d f).mp hf).1, e⟩
    · rintro g _ ⟨⟨f, hf, e⟩, ⟨f', hf', e'⟩⟩
      obtain ⟨k1, k2⟩ := (memR d f).mp hf
      obtain ⟨k3, k4⟩ := (memU d f').mp hf'
      have := uniqueIds_eq (hu d hd).1 (inD k1) (inD k3) (eventOfFlash_unique (hu d hd).2 e e')
      rw [this] at k2
      exact k4 k2
  refine ⟨?_, ?_, ?_, ?_, ?_⟩
  · rw [h.flashes, h1.flashes, h2.flashes, List.map_map, List.map_map]
    exact sum_map_add3 _ _ _ _ fun d _ => flashSum d _
  · rw [h.flashArea, h1.flashArea, h2.flashArea, List.map_map, List.map_map]
    exact sum_map_add3 _ _ _ _ fun d _ => flashSum d _
  · rw [h.energy, h1.energy, h2.energy, List.map_map, List.map_map]
    exact sum_map_add3 _ _ _ _ fun d hd => eventSum d hd _
  · rw [h.groups, h1.groups, h2.groups, List.map_map, List.map_map]
    exact sum_map_add3 _ _ _ _ fun d hd => groupSum d hd _
  · rw [h.groupArea, h1.groupArea, h2.groupArea, List.map_map, List.map_map]
    exact sum_map_add3 _ _ _ _ fun d hd => groupSum d hd _
end

theorem reachable_reverse (dx dy px py : Rat) (xs ys : List Rat) (d : GFile) :
    reachable dx dy px py xs ys.reverse d = reachable dx dy px py xs ys d := by
  unfold reachable WithinReach
  simp only [List.mem_reverse]

/-- The padding of the tiles of a grid with boxes of the given size. -/
def padding (d : Rat) : Rat := padBoxes (28 / 10000) d * d

section
variable {env : Surroundings} {kw shared sh : Dict} {xlo ylo dx dy : Rat} {M N s : Nat} {me mg : Option Int}
  {files opened : List GFile} {runs : List (TileRun TileState ImageFile)}

theorem LooseCall.works (h : LooseCall env kw xlo ylo dx dy M N s me mg files opened)
    (hr : gridGlmFlashes (lutGridder env) files kw shared = .ok (runs, sh)) :
    ∀ r ∈ runs, ∃ f, r.written = [(f.name, f)] ∧
      LooseImage env.clip env.foot me mg opened dx dy (padding dx) (padding dy) (r.scale != .bool false) env.frame
        (boxCentres xlo dx (tileStart M s r.ij.1) (tileStart M s (r.ij.1 + 1)))
        (boxCentres ylo dy (tileStart N s r.ij.2) (tileStart N s (r.ij.2 + 1))) f := by
  obtain ⟨runs', sh', h1, -, h3⟩ := loose_images shared h
  rw [hr] at h1
  simp only [Except.ok.injEq, Prod.mk.injEq] at h1
  obtain ⟨rfl, -⟩ := h1
  exact h3

/-- **C166**: an image shows in each pixel what the flashes put there whose positions are closer than the padding to the
image.  Nothing is assumed about the sizes of flashes. -/
theorem C166_exact (h : LooseCall env kw xlo ylo dx dy M N s me mg files opened)
    (hr : gridGlmFlashes (lutGridder env) files kw shared = .ok (runs, sh))
    {r : TileRun TileState ImageFile} (hrr : r ∈ runs) {nf : String × ImageFile} (hnf : nf ∈ r.written) {row col : Nat}
    {X Y : Rat} (hX : nf.2.x[col]? = some X) (hY : nf.2.y[row]? = some Y) :
    ∃ fed fa te ged ga mfa,
      PixelHolds env.clip env.foot me mg (opened.map (reachable dx dy (padding dx) (padding dy) nf.2.x nf.2.y)) dx dy X Y
        fed fa te ged ga mfa ∧
      ∀ name img v, (name, img) ∈ nf.2.fields → (name, v) ∈ shown (r.scale != .bool false) fed fa te ged ga mfa →
        img.val row col = v := by
  obtain ⟨f, hf, hs⟩ := h.works hr r hrr
  rw [hf, List.mem_singleton] at hnf
  subst hnf
  have hp := hs.reached.pixels row col X Y hX hY
  have e : reachable dx dy (padding dx) (padding dy) f.x f.y = reachable dx dy (padding dx) (padding dy)
      (boxCentres xlo dx (tileStart M s r.ij.1) (tileStart M s (r.ij.1 + 1)))
      (boxCentres ylo dy (tileStart N s r.ij.2) (tileStart N s (r.ij.2 + 1))) := by
    funext d
    rw [hs.reached.x, hs.reached.y, reachable_reverse]
  show ∃ fed fa te ged ga mfa, PixelHolds env.clip env.foot me mg (opened.map
    (reachable dx dy (padding dx) (padding dy) f.x f.y)) dx dy X Y fed fa te ged ga mfa ∧ _
  rw [e]
  exact hp

/-- **C166**, for pixels that only flashes within reach of the image reach: the pixel shows what all flashes put there. -/
theorem C166_partial (h : LooseCall env kw xlo ylo dx dy M N s me mg files opened)
    (hr : gridGlmFlashes (lutGridder env) files kw shared = .ok (runs, sh))
    {r : TileRun TileState ImageFile} (hrr : r ∈ runs) {nf : String × ImageFile} (hnf : nf ∈ r.written) {row col : Nat}
    {X Y : Rat} (hX : nf.2.x[col]? = some X) (hY : nf.2.y[row]? = some Y)
    (hreach : AllWithinReach env.clip env.foot me mg opened dx dy (padding dx) (padding dy) nf.2.x nf.2.y X Y) :
    ∃ fed fa te ged ga mfa,
      PixelHolds env.clip env.foot me mg opened dx dy X Y fed fa te ged ga mfa ∧
      ∀ name img v, (name, img) ∈ nf.2.fields → (name, v) ∈ shown (r.scale != .bool false) fed fa te ged ga mfa →
        img.val row col = v := by
  obtain ⟨f, hf, hs⟩ := h.works hr r hrr
  rw [hf, List.mem_singleton] at hnf
  subst hnf
  refine hs.whole row col X Y hX hY ?_
  intro d hd fl hfl e he hfe hne
  obtain ⟨⟨a, ha, ha'⟩, ⟨b, hb, hb'⟩⟩ := hreach d hd fl hfl e he hfe hne
  rw [hs.reached.x] at ha
  rw [hs.reached.y, List.mem_reverse] at hb
  exact ⟨⟨a, ha, ha'⟩, ⟨b, hb, hb'⟩⟩

/-- **C166**: what is missing from the sums of a pixel is what the flashes put there that are not within reach of its image;
it is never negative, so nothing is counted that is not recorded. -/
theorem C166_missing (h : LooseCall env kw xlo ylo dx dy M N s me mg files opened)
    (hr : gridGlmFlashes (lutGridder env) files kw shared = .ok (runs, sh))
    (hids : ∀ d ∈ opened, UniqueIds d.flashes ∧ UniqueIds d.groups) (hen : ∀ d ∈ opened, ∀ e ∈ d.events, 0 ≤ e.val.energy)
    {r : TileRun TileState ImageFile} (hrr : r ∈ runs) {nf : String × ImageFile} (hnf : nf ∈ r.written) {row col : Nat}
    {X Y : Rat} (hX : nf.2.x[col]? = some X) (hY : nf.2.y[row]? = some Y) {fed fa te ged ga mfa fed' fa' te' ged' ga' mfa' : Rat}
    (hall : PixelHolds env.clip env.foot me mg opened dx dy X Y fed fa te ged ga mfa)
    (hmiss : PixelHolds env.clip env.foot me mg (opened.map (unreachable dx dy (padding dx) (padding dy) nf.2.x nf.2.y)) dx dy
      X Y fed' fa' te' ged' ga' mfa') :
    (0 ≤ fed' ∧ 0 ≤ te' ∧ 0 ≤ ged') ∧ ∀ img,
      (("flash_extent_density", img) ∈ nf.2.fields → img.val row col = atLeastStep (r.scale != .bool false) (1/16) (fed - fed')) ∧
      (("total_energy", img) ∈ nf.2.fields →
        img.val row col = atLeastStep (r.scale != .bool false) (152597 / 100000000000) (te - te')) ∧
      (("group_extent_density", img) ∈ nf.2.fields →
        img.val row col = atLeastStep (r.scale != .bool false) (1/4) (ged - ged')) := by
  classical
  obtain ⟨fed1, fa1, te1, ged1, ga1, mfa1, hp, hs⟩ := C166_exact h hr hrr hnf hX hY
  obtain ⟨s1, -, s3, s4, -⟩ := holds_split hids hall hp hmiss
  have hd : 0 ≤ dx * dy := mul_nonneg h.xPos.le h.yPos.le
  refine ⟨⟨?_, ?_, ?_⟩, ?_⟩
  · rw [hmiss.flashes]
    refine List.sum_nonneg fun v hv => ?_
    obtain ⟨d, -, rfl⟩ := List.mem_map.mp hv
    refine List.sum_nonneg fun v hv => ?_
    obtain ⟨f, -, rfl⟩ := List.mem_map.mp hv
    refine List.sum_nonneg fun v hv => ?_
    obtain ⟨p, -, rfl⟩ := List.mem_map.mp hv
    exact div_nonneg (partArea_nonneg _ _ _) hd
  · rw [hmiss.energy, List.map_map]
    refine List.sum_nonneg fun v hv => ?_
    obtain ⟨d, hdm, rfl⟩ := List.mem_map.mp hv
    refine List.sum_nonneg fun v hv => ?_
    obtain ⟨e, he, rfl⟩ := List.mem_map.mp hv
    exact mul_nonneg (hen d hdm e (List.mem_filter.mp he).1) (div_nonneg (partArea_nonneg _ _ _) (abs_nonneg _))
  · rw [hmiss.groups]
    refine List.sum_nonneg fun v hv => ?_
    obtain ⟨d, -, rfl⟩ := List.mem_map.mp hv
    refine List.sum_nonneg fun v hv => ?_
    obtain ⟨f, -, rfl⟩ := List.mem_map.mp hv
    refine List.sum_nonneg fun v hv => ?_
    obtain ⟨p, -, rfl⟩ := List.mem_map.mp hv
    exact div_nonneg (partArea_nonneg _ _ _) hd
  · intro img
    refine ⟨fun hi => hs _ img _ hi ?_, fun hi => hs _ img _ hi ?_, fun hi => hs _ img _ hi ?_⟩
    · rw [s1, add_sub_cancel_right]
      simp [shown]
    · rw [s3, add_sub_cancel_right]
      simp [shown]
    · rw [s4, add_sub_cancel_right]
      simp [shown]

end

/-- **C166**, in full: every pixel shows what all flashes put there, whatever their sizes. -/
def C166_full : Prop :=
  ∀ (env : Surroundings) (kw shared sh : Dict) (xlo ylo dx dy : Rat) (M N s : Nat) (me mg : Option Int)
    (files opened : List GFile) (runs : List (TileRun TileState ImageFile)),
    LooseCall env kw xlo ylo dx dy M N s me mg files opened →
    gridGlmFlashes (lutGridder env) files kw shared = .ok (runs, sh) →
    ∀ r ∈ runs, ∀ nf ∈ r.written, ∀ row col X Y, nf.2.x[col]? = some X → nf.2.y[row]? = some Y →
      ∃ fed fa te ged ga mfa, PixelHolds env.clip env.foot me mg opened dx dy X Y fed fa te ged ga mfa ∧
        ∀ name img v, (name, img) ∈ nf.2.fields → (name, v) ∈ shown (r.scale != .bool false) fed fa te ged ga mfa →
          img.val row col = v

/-! ### Sample -/

/-- A file with one flash of two events that are six milliradians apart, at the position of the first. -/
def longSample : GFile where
  flashes := [⟨5, 0, { x := 3/2000, y := 3/2000, area := 100, nGroups := 2, nEvents := 2 }⟩]
  groups := [⟨11, 5, { nEvents := 1, area := 40 }⟩, ⟨13, 5, { nEvents := 1, area := 30 }⟩]
  events := [⟨100, 13, { x := 3/2000, y := 3/2000, energy := 2, flashOf := 5 }⟩,
    ⟨101, 11, { x := 15/2000, y := 3/2000, energy := 3, flashOf := 5 }⟩]

/-- A call for twelve by four boxes of a milliradian in two by two tiles. -/
def longCall : Dict :=
  [("proj_name", .str "geos"), ("fixed_grid", .bool true), ("dx", .num (1/1000)), ("dy", .num (1/1000)),
   ("x_bnd", .bnd 0 (12/1000)), ("y_bnd", .bnd 0 (4/1000)), ("subdivide", .nat 2), ("clip_events", .bool true),
   ("ellipse_rev", .nat 1), ("nadir_lon", .num (-75)), ("output_filename_prefix", .str "GLM"),
   ("output_writer", .function "write_cf_netcdf"), ("min_points_per_flash", .nat 2)]

theorem longCall_loose : LooseCall wholeEnv longCall 0 0 (1/1000) (1/1000) 12 4 2 (some 2) none [longSample] [longSample] where
  asked :=
    { proj := ⟨_, rfl⟩
      fixed := ⟨by decide +kernel, by decide +kernel⟩
      xBox := rfl
      yBox := rfl
      x := by decide +kernel
      y := by decide +kernel
      subdivide := Or.inl rfl
      given := by decide +kernel
      minEvents := Or.inl ⟨2, rfl, rfl⟩
      minGroups := Or.inr ⟨Or.inr rfl, rfl⟩ }
  xPos := by norm_num
  yPos := by norm_num
  tiles := by omega
  xTiles := by omega
  yTiles := by omega
  xPad := by norm_num
  yPad := by norm_num
  edges := arange_makesEdges
  parts := fun p q s => rectClip_ne_nil p q s
  beside := fun x y p i j => rectClip_beside x y p i j
  order := fun l => List.Perm.refl l
  opens := fun _ _ => opens_same _
  some := ⟨longSample, by simp, by simp [longSample]⟩
  loose := by
    intro d hd _
    have hpads : padBoxes (28 / 10000) (1 / 1000) = 2 := by decide +kernel
    rw [List.mem_singleton] at hd
    subst hd
    rw [hpads]
    exact
      { hasData := by unfold HasData; decide +kernel
        consistent := by decide +kernel
        derived := ⟨by decide +kernel, by decide +kernel, by decide +kernel, by decide +kernel⟩
        flashes := by unfold UniqueIds; decide +kernel
        groups := by unfold UniqueIds; decide +kernel
        areas := by decide +kernel
        pixels := by unfold PixelExact placeOf; decide +kernel
        polygons := by decide +kernel
        narrow := by decide +kernel
        view := by decide +kernel
        event := by decide +kernel }
  centred := fun _ _ _ _ => square_centred (by norm_num) (by norm_num) (by norm_num) _

theorem longSample_counted : countedEvents (some 2) none longSample = longSample.events := by
  classical
  unfold countedEvents
  rw [List.filter_eq_self]
  intro e he
  apply decide_eq_true
  refine ⟨_, List.mem_filter.mpr ⟨List.mem_singleton.mpr rfl, decide_eq_true ⟨fun m h => by cases h; decide +kernel,
    fun m h => by cases h⟩⟩, ?_⟩
  simp only [longSample, List.mem_cons, List.not_mem_nil, or_false] at he
  rcases he with rfl | rfl
  · exact ⟨⟨13, 5, { nEvents := 1, area := 30 }⟩, by simp [longSample], rfl, rfl⟩
  · exact ⟨⟨11, 5, { nEvents := 1, area := 40 }⟩, by simp [longSample], rfl, rfl⟩

/-- The tile in the east does not show the part of the flash that is in it. -/
theorem C166_full_false : ¬ C166_full := by
  classical
  intro hfull
  obtain ⟨runs, sh, h1, h2, h3⟩ := loose_images [] longCall_loose
  have hij : (1, 0) ∈ runs.map fun r => r.ij := by rw [h2]; decide
  obtain ⟨r, hr, hij⟩ := List.mem_map.mp hij
  obtain ⟨f, hf, hs⟩ := h3 r hr
  rw [hij] at hs
  have hx : f.x[1]? = some (15/2000 : Rat) := by rw [hs.reached.x]; decide +kernel
  have hy : f.y[0]? = some (3/2000 : Rat) := by rw [hs.reached.y]; decide +kernel
  have hnf : (f.name, f) ∈ r.written := by rw [hf]; exact List.mem_singleton.mpr rfl
  obtain ⟨fed, fa, te, ged, ga, mfa, hp, hv⟩ := hfull _ _ _ _ _ _ _ _ _ _ _ _ _ _ _ _ longCall_loose h1 r hr _ hnf 0 1 _ _ hx hy
  obtain ⟨fed', fa', te', ged', ga', mfa', hp', hv'⟩ := C166_exact longCall_loose h1 hr hnf hx hy
  have hte : te = 3 * (partArea rectClip (wholeEnv.foot (15/2000, 3/2000)) (pixelAt (1/1000) (1/1000) (15/2000) (3/2000)) /
      |signedArea (wholeEnv.foot (15/2000, 3/2000))|) + 2 * (partArea rectClip (wholeEnv.foot (3/2000, 3/2000))
        (pixelAt (1/1000) (1/1000) (15/2000) (3/2000)) / |signedArea (wholeEnv.foot (3/2000, 3/2000))|) := by
    rw [hp.energy, List.map_singleton, longSample_counted]
    simp only [longSample, List.map_cons, List.map_nil, List.sum_cons, List.sum_nil, add_zero, placeOf]
    rw [add_comm]
    rfl
  have hte : te = 4/3 := by rw [hte]; decide +kernel
  have hnone : (reachable (1/1000) (1/1000) (padding (1/1000)) (padding (1/1000)) f.x f.y longSample).flashes = [] := by
    rw [hs.reached.x, hs.reached.y]
    decide +kernel
  have hte' : te' = 0 := by
    rw [hp'.energy, List.map_singleton, List.map_singleton]
    have : countedEvents (some 2) none
        (reachable (1/1000) (1/1000) (padding (1/1000)) (padding (1/1000)) f.x f.y longSample) = [] := by
      unfold countedEvents
      rw [List.filter_eq_nil_iff]
      intro e _ hd
      obtain ⟨fl, hfl, -⟩ := of_decide_eq_true hd
      unfold countedFlashes at hfl
      rw [hnone] at hfl
      exact absurd hfl List.not_mem_nil
    rw [this]
    simp
  have hname : "total_energy" ∈ f.fields.map Prod.fst := by rw [hs.reached.names]; decide
  obtain ⟨⟨n, img⟩, hi, hn⟩ := List.mem_map.mp hname
  obtain rfl : n = "total_energy" := hn
  have e1 := hv _ img (atLeastStep (r.scale != .bool false) (152597 / 100000000000) te) hi (by simp [shown])
  have e2 := hv' _ img (atLeastStep (r.scale != .bool false) (152597 / 100000000000) te') hi (by simp [shown])
  rw [e1, hte, hte'] at e2
  revert e2
  cases (r.scale != .bool false) <;> decide +kernel

/-- The tile in the west shows the part of the flash that is in it: `C166_partial` applies to the pixel of its first event. -/
example : AllWithinReach rectClip wholeEnv.foot (some 2) none [longSample] (1/1000) (1/1000) (padding (1/1000))
    (padding (1/1000)) (boxCentres 0 (1/1000) 0 6) (boxCentres 0 (1/1000) 0 2).reverse (3/2000) (3/2000) ∧
    rectClip (wholeEnv.foot (3/2000, 3/2000)) (pixelAt (1/1000) (1/1000) (3/2000) (3/2000)) ≠ [] := by
  refine ⟨?_, by decide +kernel⟩
  intro d hd f hf e he hfe hne
  rw [List.mem_singleton] at hd
  subst hd
  obtain ⟨hf, -⟩ := List.mem_filter.mp hf
  simp only [longSample, List.mem_singleton] at hf
  subst hf
  decide +kernel

/-- What is missing in the tile in the east is the energy of the second event, as far as it is in the pixel. -/
example : (longSample.flashes.filter fun f => ¬ WithinReach (1/1000) (1/1000) (padding (1/1000)) (padding (1/1000))
    (boxCentres 0 (1/1000) 6 12) (boxCentres 0 (1/1000) 0 2).reverse f) = longSample.flashes ∧
    (∀ e ∈ longSample.events, 0 ≤ e.val.energy) ∧ UniqueIds longSample.flashes ∧ UniqueIds longSample.groups := by
  refine ⟨by decide +kernel, by decide +kernel, ?_, ?_⟩ <;> unfold UniqueIds <;> decide +kernel

end Verif.Props
