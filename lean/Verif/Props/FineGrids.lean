import Verif.Props.LongFlashes

/-!
# Grids of any box size and files of any kind: C167

The search for the boxes under a footprint looks at most two boxes around the box in which the mean of its corners is.  If
boxes are small compared with footprints, the rest of the footprint is not found.  Here nothing is assumed about the sizes
of footprints and flashes, or about where the events are, and it is said exactly what each pixel shows.
-/

namespace Verif.Props

open Verif.Py Verif.Model Verif.Spec Verif.Proofs

/-! ## What is said -/

/-- An event is in the field of view, and closer than the padding to one of the pixels of an image. -/
structure EventWithinReach (dx dy px py : Rat) (xs ys : List Rat) (e : Row GVal) : Prop where
  viewX : |e.val.x| < 1349 / 10000
  viewY : |e.val.y| < 1349 / 10000
  x : ∃ X ∈ xs, |e.val.x - X| < px + dx / 2
  y : ∃ Y ∈ ys, |e.val.y - Y| < py + dy / 2

/-- The flashes that are read for an image: their position, and one of their events, is within reach of it. -/
def ReadFor (dx dy px py : Rat) (xs ys : List Rat) (d : GFile) (f : Row GVal) : Prop :=
  WithinReach dx dy px py xs ys f ∧ ∃ e ∈ d.events, EventOfFlash d f.id e ∧ EventWithinReach dx dy px py xs ys e

open scoped Classical in
/-- A file without the flashes that are not read for an image. -/
noncomputable def readFor (dx dy px py : Rat) (xs ys : List Rat) (d : GFile) : GFile :=
  { d with flashes := d.flashes.filter fun f => ReadFor dx dy px py xs ys d f }

/-- A point is at most two and a half boxes from the centre of a pixel, in both directions. -/
def CloseTo (dx dy X Y : Rat) (m : Pt) : Prop :=
  (X - 5/2 * dx < m.1 ∧ m.1 ≤ X + 5/2 * dx) ∧ Y - 5/2 * dy < m.2 ∧ m.2 ≤ Y + 5/2 * dy

instance (dx dy X Y : Rat) (m : Pt) : Decidable (CloseTo dx dy X Y m) := by
  unfold CloseTo
  infer_instance

/-- The clipper, for the footprints only whose mean is close to a pixel. -/
def closeClip (clip : Poly → Poly → List Poly) (dx dy X Y : Rat) (p q : Poly) : List Poly :=
  if CloseTo dx dy X Y (meanPoint p) then clip p q else []

/-- What is assumed of a file: it has been opened without defects, flashes have an area, the table puts only events at one
place together, and footprints are polygons with an area. -/
structure AnyFile (foot : Pt → Poly) (loc : Rat → Rat → Int) (d : GFile) : Prop where
  hasData : HasData d
  consistent : Consistent d
  derived : Derived d
  flashes : UniqueIds d.flashes
  groups : UniqueIds d.groups
  areas : ∀ f ∈ d.flashes, 0 < f.val.area
  pixels : PixelExact loc d
  polygons : ∀ e ∈ d.events, foot (placeOf e) ≠ [] ∧ signedArea (foot (placeOf e)) ≠ 0

/-- A call as C139 assumes it, for files of any kind and clippers that may report parts of a footprint anywhere. -/
structure AnyCall (env : Surroundings) (kw : Dict) (xlo ylo dx dy : Rat) (M N s : Nat) (me mg : Option Int)
    (files opened : List GFile) : Prop where
  asked : FixedGridAsked kw xlo ylo dx dy M N s me mg
  xPos : 0 < dx
  yPos : 0 < dy
  tiles : 0 < s
  xTiles : 2 * s ≤ M
  yTiles : s ≤ N
  xPad : 2 * dx ≤ 28 / 10000
  yPad : 2 * dy ≤ 28 / 10000
  edges : MakesEdges env.edges
  parts : ∀ p q s, s ∈ env.clip p q → s ≠ []
  order : ∀ l, (env.order l).Perm l
  opens : ∀ rev, kw.get "ellipse_rev" = .ok rev → List.Forall₂ (fun f d => env.openFile rev f = .ok d) files opened
  some : ∃ d ∈ opened, d.events ≠ []
  any : ∀ d ∈ opened, d.events ≠ [] → AnyFile env.foot env.loc d
  centred : ∀ d ∈ opened, ∀ e ∈ d.events, CentredAt env.clip env.foot dx dy (placeOf e)

/-! ## The search -/

theorem searched_axis {lo d m : Rat} {n i : Nat} (hd : 0 < d) (hi : 2 ≤ i) (hi' : i + 3 ≤ n) :
    (∃ col, inCell (boxEdges lo d n) col m ∧ i ≤ col + 2 ∧ col ≤ i + 2) ↔
      lo + (i + 1/2) * d - 5/2 * d < m ∧ m ≤ lo + (i + 1/2) * d + 5/2 * d := by
  have hax : AxisOk (boxEdges lo d n) := boxEdges_axis hd (by omega)
  have g : ∀ k, k ≤ n → (boxEdges lo d n).getD k 0 = lo + k * d := fun k hk => boxEdges_getD _ _ hk
  constructor
  · rintro ⟨col, ⟨h1, h2, h3⟩, h4, h5⟩
    rw [boxEdges_length] at h1
    rw [g _ (by omega)] at h2 h3
    have c1 : (i : Rat) ≤ col + 2 := by exact_mod_cast h4
    have c2 : (col : Rat) ≤ i + 2 := by exact_mod_cast h5
    have m1 := mul_le_mul_of_nonneg_right c1 hd.le
    have m2 := mul_le_mul_of_nonneg_right c2 hd.le
    push_cast at h3
    constructor <;> linarith
  · rintro ⟨h1, h2⟩
    have q1 : (2 : Rat) ≤ i := by exact_mod_cast hi
    have q2 : (i : Rat) + 3 ≤ n := by exact_mod_cast hi'
    have m1 := mul_le_mul_of_nonneg_right q1 hd.le
    have m2 := mul_le_mul_of_nonneg_right q2 hd.le
    obtain ⟨col, hc⟩ := exists_inCell hax.1 hax.2 (v := m) (by rw [g 0 (by omega)]; push_cast; linarith)
      (by rw [boxEdges_length, Nat.add_sub_cancel, g n (le_refl n)]; linarith)
    refine ⟨col, hc, ?_, ?_⟩
    · obtain ⟨k1, k2, k3⟩ := hc
      rw [boxEdges_length] at k1
      rw [g _ (by omega)] at k2 k3
      by_contra hlt
      have c1 : (col : Rat) + 3 ≤ i := by exact_mod_cast (by omega : col + 3 ≤ i)
      have m3 := mul_le_mul_of_nonneg_right c1 hd.le
      push_cast at k3
      linarith
    · obtain ⟨k1, k2, k3⟩ := hc
      rw [boxEdges_length] at k1
      rw [g _ (by omega)] at k2 k3
      by_contra hlt
      have c1 : (i : Rat) + 3 ≤ col := by exact_mod_cast (by omega : i + 3 ≤ col)
      have m3 := mul_le_mul_of_nonneg_right c1 hd.le
      linarith

/-- In a box with two boxes around it on each side, exactly the footprints are found whose mean is close to its centre. -/
theorem found_close (clip : Poly → Poly → List Poly) (query : List Pt → Pt → Nat → List Nat) {xlo ylo dx dy : Rat}
    {m n : Nat} (hdx : 0 < dx) (hdy : 0 < dy) (p : Poly) {i j : Nat} (hi : 2 ≤ i) (hi' : i + 3 ≤ m) (hj : 2 ≤ j)
    (hj' : j + 3 ≤ n) :
    foundClip clip query (boxEdges xlo dx m) (boxEdges ylo dy n) p
        (cellRect (boxEdges xlo dx m) (boxEdges ylo dy n) j i) =
      closeClip clip dx dy (xlo + (i + 1/2) * dx) (ylo + (j + 1/2) * dy) p
        (cellRect (boxEdges xlo dx m) (boxEdges ylo dy n) j i) := by
  classical
  have hx : AxisOk (boxEdges xlo dx m) := boxEdges_axis hdx (by omega)
  have hy : AxisOk (boxEdges ylo dy n) := boxEdges_axis hdy (by omega)
  have lx : (boxEdges xlo dx m).length = m + 1 := boxEdges_length _ _ _
  have ly : (boxEdges ylo dy n).length = n + 1 := boxEdges_length _ _ _
  obtain ⟨c, g1, g2, g3, g4⟩ := grid_nearest query hx hy (Or.inl (by rw [lx]; omega)) (meanPoint p)
  have hcand : candidatesFor query (gridMesh (boxEdges xlo dx m) (boxEdges ylo dy n)) .none p = .ok c := by
    unfold candidatesFor
    simp only [g1, bind, Except.bind, pure, Except.pure]
    rw [if_neg g3]
  have key : (∃ c, candidatesFor query (gridMesh (boxEdges xlo dx m) (boxEdges ylo dy n)) .none p = .ok c ∧
      cellRect (boxEdges xlo dx m) (boxEdges ylo dy n) j i ∈ c.quads) ↔
      CloseTo dx dy (xlo + (i + 1/2) * dx) (ylo + (j + 1/2) * dy) (meanPoint p) := by
    unfold CloseTo
    rw [← searched_axis hdx hi hi', ← searched_axis hdy hj hj']
    constructor
    · rintro ⟨c', hc', hq⟩
      obtain rfl := Except.ok.inj (hcand.symm.trans hc')
      rw [g2.2.2.2] at hq
      obtain ⟨⟨r, k⟩, hrk, he⟩ := List.mem_map.mp hq
      have hrk' := (g4 r k).mp hrk
      obtain ⟨rfl, rfl⟩ := cellRect_inj hx hy (by omega) (by omega) (by omega) (by omega) he
      obtain ⟨-, -, col, row, a1, a2, a3, a4, a5, a6⟩ := hrk'
      exact ⟨⟨col, a1, a3, a4⟩, row, a2, a5, a6⟩
    · rintro ⟨⟨col, a1, a3, a4⟩, row, a2, a5, a6⟩
      refine ⟨c, hcand, ?_⟩
      rw [g2.2.2.2]
      exact List.mem_map.mpr ⟨(j, i), (g4 j i).mpr ⟨by omega, by omega, col, row, a1, a2, a3, a4, a5, a6⟩, rfl⟩
  unfold foundClip closeClip
  by_cases hk : CloseTo dx dy (xlo + (i + 1/2) * dx) (ylo + (j + 1/2) * dy) (meanPoint p)
  · rw [if_pos hk, if_pos (key.mpr hk)]
  · rw [if_neg hk, if_neg fun h => hk (key.mp h)]

/-! ## The grids of a tile -/

/-- As `tile_gridded`, for files of any kind. -/
theorem tile_gridded_any {clip : Poly → Poly → List Poly} {query : List Pt → Pt → Nat → List Nat} {foot : Pt → Poly}
    {edges : Rat × Rat → Rat → List Rat} {dx dy : Rat} (basedate : Int) {loc : Rat → Rat → Int}
    {order : List Int → List Int} {rest : Criteria} {n : Nat} {files : List (Int × GFile)}
    (points : Grid → List LmaParent → Grid) (label : String) (par : String → FakeLma → List LmaParent) {t : Tile}
    (hclip : ∀ p q s, s ∈ clip p q → s ≠ []) (ho : ∀ l, (order l).Perm l) (hn : 0 < n)
    (hx : AxisOk (edges t.xBnd dx)) (hy : AxisOk (edges t.yBnd dy)) (hsz : 2 < (edges t.xBnd dx).length)
    (hf : ∀ d ∈ files, d.2.events ≠ [] → AnyFile foot loc d.2)
    (hg : ∀ d ∈ files, d.2.events ≠ [] → ChunksOnGrid clip query foot edges dx dy order rest n t d.2) :
    ∃ grid : String → Grid,
      Gridded clip query foot edges dx dy basedate loc order rest n files points label par t grid ∧
      ∀ i j, i + 1 < (edges t.xBnd dx).length → j + 1 < (edges t.yBnd dy).length →
        CellsOfFiles (foundClip clip query (edges t.xBnd dx) (edges t.yBnd dy)) foot (edges t.xBnd dx) (edges t.yBnd dy)
          { rest with x := some t.xBnd, y := some t.yBnd } files i j
          ((grid "flash_extent_density").val i j) ((grid "average_flash_area").val i j)
          ((grid "total_energy").val i j) ((grid "group_extent_density").val i j)
          ((grid "average_group_area").val i j) ((grid "minimum_flash_area").val i j) := by
  obtain ⟨fakes, outgrids, grids, fed, fa, te, ged, ga, mfa, a1, a2, a3, n1, n2, n3, n4, n5, n6, -, hv⟩ :=
    C93_partial (foundClip clip query (edges t.xBnd dx) (edges t.yBnd dy)) query foot (edges t.xBnd dx) (edges t.yBnd dy)
      basedate loc order { rest with x := some t.xBnd, y := some t.yBnd } n files points label par hx hy (Or.inl hsz)
      (by
        intro p q s hs
        unfold foundClip at hs
        split at hs
        · exact hclip p q s hs
        · exact absurd hs (List.not_mem_nil)) ho hn (by
        intro d hd hne
        have h := hf d hd hne
        exact
          { hasData := h.hasData
            consistent := h.consistent
            derived := h.derived
            flashes := h.flashes
            groups := h.groups
            areas := h.areas
            pixels := h.pixels
            polygons := fun e he => ⟨(h.polygons e he).1, (h.polygons e he).2,
              search_found clip query hx hy (Or.inl hsz) (h.polygons e he).1⟩
            onGrid := fun chunks hc ch hch => by
              obtain ⟨e, he, hcov⟩ := hg d hd hne chunks hc ch hch
              exact ⟨e, he, by rwa [covered_found]⟩ })
  rw [readFiles_found] at a1
  refine ⟨fun name => if name = "flash_extent_density" then fed else if name = "average_flash_area" then fa else
    if name = "total_energy" then te else if name = "group_extent_density" then ged else
    if name = "average_group_area" then ga else mfa, ⟨fakes, outgrids, grids, a1, a2, a3, ?_⟩, hv⟩
  intro name hname
  simp only [List.mem_cons, List.not_mem_nil, or_false] at hname
  rcases hname with rfl | rfl | rfl | rfl | rfl | rfl
  · exact n1
  · exact n2
  · exact n3
  · exact n4
  · exact n5
  · exact n6

/-- As `chunks_on_grid`, for files of any kind. -/
theorem chunks_on_grid_any {clip : Poly → Poly → List Poly} {query : List Pt → Pt → Nat → List Nat} {foot : Pt → Poly}
    {edges : Rat × Rat → Rat → List Rat} {dx dy : Rat} {loc : Rat → Rat → Int} {order : List Int → List Int}
    {rest : Criteria} {n : Nat} {t : Tile} {d : GFile} (ho : ∀ l, (order l).Perm l) (hn : 0 < n)
    (hx : AxisOk (edges t.xBnd dx)) (hy : AxisOk (edges t.yBnd dy)) (hsz : 2 < (edges t.xBnd dx).length)
    (ux : Spaced (edges t.xBnd dx) dx) (uy : Spaced (edges t.yBnd dy) dy)
    (x0 : (edges t.xBnd dx).getD 0 0 = t.xBnd.1)
    (x1 : (edges t.xBnd dx).getD ((edges t.xBnd dx).length - 1) 0 = t.xBnd.2)
    (y0 : (edges t.yBnd dy).getD 0 0 = t.yBnd.1)
    (y1 : (edges t.yBnd dy).getD ((edges t.yBnd dy).length - 1) 0 = t.yBnd.2)
    (hf : AnyFile foot loc d) (hc : ∀ e ∈ d.events, CentredAt clip foot dx dy (placeOf e)) :
    ChunksOnGrid clip query foot edges dx dy order rest n t d := by
  classical
  intro chunks hr ch hch
  have hnc : ¬ NoCriteria { rest with x := some t.xBnd, y := some t.yBnd } := by
    intro h
    exact absurd h.2.2.1 (by simp)
  obtain ⟨chunks', hr', -, hsel, hmem⟩ := C21_filter_iff_asked ho { rest with x := some t.xBnd, y := some t.yBnd } hn
    hf.hasData hf.consistent hf.derived hf.flashes hf.groups
  obtain rfl := Except.ok.inj (hr.symm.trans hr')
  obtain ⟨chunks'', hr'', -, hpos, -⟩ := C20_chunks ho { rest with x := some t.xBnd, y := some t.yBnd } hn hf.hasData
    hf.derived hf.flashes hf.groups
  obtain rfl := Except.ok.inj (hr.symm.trans hr'')
  obtain ⟨f, hfm⟩ := List.exists_mem_of_length_pos (hpos ch hch).1
  obtain ⟨-, -, e, he, hfe, hiv⟩ := (hsel hnc f).mp (List.mem_flatMap.mpr ⟨ch, hch, hfm⟩)
  refine ⟨e, (hmem ch hch).2.2.mem_iff.mpr (List.mem_filter.mpr ⟨he, decide_eq_true ⟨f, hfm, hfe⟩⟩), ?_⟩
  have ix := hiv.xr _ rfl
  have iy := hiv.yr _ rfl
  exact centred_covered query hx hy (Or.inl hsz) ux uy (hc e he) (by rw [x0]; exact ix.1) (by rw [x1]; exact ix.2.le)
    (by rw [y0]; exact iy.1) (by rw [y1]; exact iy.2.le)

/-- The flashes that are asked for are those that count of the ones that are read for the image. -/
theorem asked_readFor {dx dy px py : Rat} {xs ys : List Rat} {c : Criteria} (hc : ¬ NoCriteria c) (hlon : c.lon = none)
    (hlat : c.lat = none) {bx by' : Rat × Rat} (hx : c.x = some bx) (hy : c.y = some by')
    (rx : ∀ z, (∃ X ∈ xs, |z - X| < px + dx / 2) ↔ bx.1 < z ∧ z < bx.2)
    (ry : ∀ z, (∃ Y ∈ ys, |z - Y| < py + dy / 2) ↔ by'.1 < z ∧ z < by'.2) (d : GFile) :
    askedFor (readFor dx dy px py xs ys d) c = askedFor d c ∧
    countedFlashes c.minEvents c.minGroups (readFor dx dy px py xs ys d) = askedFor d c := by
  classical
  have hview : ∀ e : Row GVal, InView c e ↔ EventWithinReach dx dy px py xs ys e := by
    intro e
    constructor
    · intro h
      exact ⟨abs_lt.mpr h.x, abs_lt.mpr h.y, (rx _).mpr (h.xr _ hx), (ry _).mpr (h.yr _ hy)⟩
    · intro h
      refine ⟨abs_lt.mp h.viewX, abs_lt.mp h.viewY, ?_, ?_⟩
      · intro r hr
        rw [hx] at hr
        cases hr
        exact (rx _).mp h.x
      · intro r hr
        rw [hy] at hr
        cases hr
        exact (ry _).mp h.y
  have hmeet : ∀ f : Row GVal, Meets c f ↔ WithinReach dx dy px py xs ys f ∧ AtLeast c.minEvents f.val.nEvents ∧
      AtLeast c.minGroups f.val.nGroups := by
    intro f
    constructor
    · intro h
      exact ⟨⟨(rx _).mpr (h.x _ hx), (ry _).mpr (h.y _ hy)⟩, h.minEvents, h.minGroups⟩
    · rintro ⟨⟨h1, h2⟩, h3, h4⟩
      refine ⟨?_, ?_, ?_, ?_, h3, h4⟩
      · intro r hr
        rw [hlon] at hr
        cases hr
      · intro r hr
        rw [hlat] at hr
        cases hr
      · intro r hr
        rw [hx] at hr
        cases hr
        exact (rx _).mp h1
      · intro r hr
        rw [hy] at hr
        cases hr
        exact (ry _).mp h2
  have hev : ∀ i e, EventOfFlash (readFor dx dy px py xs ys d) i e ↔ EventOfFlash d i e := fun i e => Iff.rfl
  unfold askedFor countedFlashes
  rw [if_neg hc, if_neg hc]
  constructor
  · show ((d.flashes.filter _).filter _) = _
    rw [List.filter_filter]
    apply List.filter_congr
    intro f _
    rw [← Bool.decide_and, decide_eq_decide]
    constructor
    · rintro ⟨h1, -⟩
      exact h1
    · rintro ⟨h1, e, he, hfe, hv⟩
      exact ⟨⟨h1, e, he, hfe, hv⟩, ((hmeet f).mp h1).1, e, he, hfe, (hview e).mp hv⟩
  · show ((d.flashes.filter _).filter _) = _
    rw [List.filter_filter]
    apply List.filter_congr
    intro f _
    rw [← Bool.decide_and, decide_eq_decide]
    constructor
    · rintro ⟨h1, h2, e, he, hfe, hv⟩
      exact ⟨(hmeet f).mpr ⟨h2, h1⟩, e, he, hfe, (hview e).mpr hv⟩
    · rintro ⟨h1, e, he, hfe, hv⟩
      exact ⟨((hmeet f).mp h1).2, ((hmeet f).mp h1).1, e, he, hfe, (hview e).mp hv⟩

/-- Cells are the same for files without the flashes that are not asked for. -/
theorem cells_same_asked {clip : Poly → Poly → List Poly} {foot : Pt → Poly} {x y : List Rat} {c : Criteria}
    {files : List (Int × GFile)} {i j : Nat} {fed fa te ged ga mfa : Rat} {only : GFile → GFile}
    (ask : ∀ d, askedFor (only d) c = askedFor d c) (hg : ∀ d, (only d).groups = d.groups)
    (he : ∀ d, (only d).events = d.events) (hcell : CellsOfFiles clip foot x y c files i j fed fa te ged ga mfa) :
    CellsOfFiles clip foot x y c (files.map fun d => (d.1, only d.2)) i j fed fa te ged ga mfa := by
  classical
  have ev : ∀ d i e, EventOfFlash (only d) i e = EventOfFlash d i e := by
    intro d i e
    unfold EventOfFlash
    rw [hg]
  have askG : ∀ d, askedGroups (only d) c = askedGroups d c := by
    intro d
    unfold askedGroups
    rw [ask, hg]
  have askE : ∀ d, askedEvents (only d) c = askedEvents d c := by
    intro d
    unfold askedEvents
    simp only [ask, he, ev]
  have fp : ∀ d f, flashPlaces (only d) f = flashPlaces d f := by
    intro d f
    unfold flashPlaces
    simp only [he, ev]
  have gp : ∀ d f, groupPlaces (only d) f = groupPlaces d f := by
    intro d f
    unfold groupPlaces
    simp only [he]
  refine ⟨?_, ?_, ?_, ?_, ?_, ?_⟩
  · rw [hcell.energy, List.map_map]
    simp only [Function.comp_def, askE]
  · rw [hcell.flashes, List.map_map]
    simp only [Function.comp_def, ask, fp]
  · rw [hcell.groups, List.map_map]
    simp only [Function.comp_def, askG, gp]
  · rw [hcell.flashArea, List.map_map]
    simp only [Function.comp_def, ask, fp]
  · rw [hcell.groupArea, List.map_map]
    simp only [Function.comp_def, askG, gp]
  · rw [List.flatMap_map]
    simp only [ask, fp]
    exact hcell.least

/-- Nothing of what reaches a pixel is left out of an image: the footprints have their means close to the pixel, and their
flashes are read for the image. -/
def NothingLeftOut (clip : Poly → Poly → List Poly) (foot : Pt → Poly) (me mg : Option Int) (files : List GFile)
    (dx dy px py : Rat) (xs ys : List Rat) (X Y : Rat) : Prop :=
  ∀ d ∈ files, ∀ e ∈ d.events, clip (foot (placeOf e)) (pixelAt dx dy X Y) ≠ [] →
    CloseTo dx dy X Y (meanPoint (foot (placeOf e))) ∧
    ∀ f ∈ countedFlashes me mg d, EventOfFlash d f.id e → ReadFor dx dy px py xs ys d f

/-- What an image shows of files of any kind. -/
structure AnyImage (clip : Poly → Poly → List Poly) (foot : Pt → Poly) (me mg : Option Int) (files : List GFile)
    (dx dy px py : Rat) (sc : Bool) (frame : Rat × Rat) (xs ys : List Rat) (f : ImageFile) : Prop where
  start : f.start = frame.1
  stop : f.stop = frame.2
  x : f.x = xs
  y : f.y = ys.reverse
  names : f.fields.map Prod.fst = eightNames
  shape : ∀ img ∈ f.fields.map Prod.snd, img.rows = ys.length ∧ img.cols = xs.length
  pixels : ∀ row col X Y, f.x[col]? = some X → f.y[row]? = some Y → ∃ fed fa te ged ga mfa,
    PixelHolds (closeClip clip dx dy X Y) foot me mg (files.map (readFor dx dy px py xs ys)) dx dy X Y
      fed fa te ged ga mfa ∧
    ∀ name img v, (name, img) ∈ f.fields → (name, v) ∈ shown sc fed fa te ged ga mfa → img.val row col = v
  whole : ∀ row col X Y, f.x[col]? = some X → f.y[row]? = some Y →
    NothingLeftOut clip foot me mg files dx dy px py xs ys X Y → ∃ fed fa te ged ga mfa,
      PixelHolds clip foot me mg files dx dy X Y fed fa te ged ga mfa ∧
      ∀ name img v, (name, img) ∈ f.fields → (name, v) ∈ shown sc fed fa te ged ga mfa → img.val row col = v

theorem any_tile_image {env : Surroundings} {xlo ylo dx dy : Rat} (hdx : 0 < dx) (hdy : 0 < dy) (he : MakesEdges env.edges)
    {a b c d p q : Nat} (hab : a + 2 ≤ b) (hcd : c + 1 ≤ d) (hp2 : 2 ≤ p) (hq2 : 2 ≤ q) {t : Tile}
    (tx : t.xBnd = (xlo + a * dx - p * dx, xlo + b * dx + p * dx))
    (ty : t.yBnd = (ylo + c * dy - q * dy, ylo + d * dy + q * dy)) (tp : t.pads = ⟨p, q, p * dx, q * dy⟩)
    (me mg : Option Int) {files : List GFile} (hclip : ∀ p q s, s ∈ env.clip p q → s ≠ [])
    (ho : ∀ l, (env.order l).Perm l) (hf : ∀ g ∈ files, g.events ≠ [] → AnyFile env.foot env.loc g)
    (hcen : ∀ g ∈ files, ∀ e ∈ g.events, CentredAt env.clip env.foot dx dy (placeOf e)) :
    ∃ fakes,
      readFiles env.clip env.query (fun pts => pts.map env.foot) (gridMesh (env.edges t.xBnd dx) (env.edges t.yBnd dy))
        env.basedate env.loc env.order { x := some t.xBnd, y := some t.yBnd, minEvents := me, minGroups := mg } 20000
        (files.map fun g => (env.productTime g, g)) = .ok fakes ∧
      ∀ out scale, ∃ f, lutImages env ⟨env.edges t.xBnd dx, env.edges t.yBnd dy, fakes⟩ out
          (.slices (getPadSlices t.pads).1 (getPadSlices t.pads).2) scale = .ok [f] ∧
        AnyImage env.clip env.foot me mg files dx dy (p * dx) (q * dy) (scale != .bool false) env.frame
          (boxCentres xlo dx a b) (boxCentres ylo dy c d) f := by
  classical
  have ext : env.edges t.xBnd dx = boxEdges (xlo + a * dx - p * dx) dx (b - a + 2 * p) := by
    rw [tx, padded_edges he hdx (by omega)]
  have eyt : env.edges t.yBnd dy = boxEdges (ylo + c * dy - q * dy) dy (d - c + 2 * q) := by
    rw [ty, padded_edges he hdy (by omega)]
  have hax : AxisOk (env.edges t.xBnd dx) := by rw [ext]; exact boxEdges_axis hdx (by omega)
  have hay : AxisOk (env.edges t.yBnd dy) := by rw [eyt]; exact boxEdges_axis hdy (by omega)
  have hsz : 2 < (env.edges t.xBnd dx).length := by rw [ext, boxEdges_length]; omega
  have ux : Spaced (env.edges t.xBnd dx) dx := by rw [ext]; exact boxEdges_spaced hdx
  have uy : Spaced (env.edges t.yBnd dy) dy := by rw [eyt]; exact boxEdges_spaced hdy
  have x0 : (env.edges t.xBnd dx).getD 0 0 = t.xBnd.1 := by
    rw [ext, boxEdges_getD _ _ (by omega), tx]
    push_cast
    ring
  have y0 : (env.edges t.yBnd dy).getD 0 0 = t.yBnd.1 := by
    rw [eyt, boxEdges_getD _ _ (by omega), ty]
    push_cast
    ring
  have x1 : (env.edges t.xBnd dx).getD ((env.edges t.xBnd dx).length - 1) 0 = t.xBnd.2 := by
    rw [ext, boxEdges_length, boxEdges_getD _ _ (by omega), tx]
    rw [show b - a + 2 * p + 1 - 1 = b - a + 2 * p by omega]
    push_cast [Nat.cast_sub (show a ≤ b by omega)]
    ring
  have y1 : (env.edges t.yBnd dy).getD ((env.edges t.yBnd dy).length - 1) 0 = t.yBnd.2 := by
    rw [eyt, boxEdges_length, boxEdges_getD _ _ (by omega), ty]
    rw [show d - c + 2 * q + 1 - 1 = d - c + 2 * q by omega]
    push_cast [Nat.cast_sub (show c ≤ d by omega)]
    ring
  have hf' : ∀ g ∈ files.map fun g => (env.productTime g, g), g.2.events ≠ [] → AnyFile env.foot env.loc g.2 := by
    intro g hg
    obtain ⟨g, hg', rfl⟩ := List.mem_map.mp hg
    exact hf g hg'
  obtain ⟨grid, ⟨fakes, outgrids, grids, h1, h2, h3, h4⟩, hv⟩ := tile_gridded_any (t := t)
    (rest := { minEvents := me, minGroups := mg }) (query := env.query) env.basedate
    (env.points (env.edges t.xBnd dx) (env.edges t.yBnd dy)) env.label (fun k f => env.keep (f.parentsFor k)) hclip ho
    (n := 20000) (by omega) hax hay hsz hf' (by
      intro g hg hne
      have hc := hf' g hg hne
      obtain ⟨g, hg', rfl⟩ := List.mem_map.mp hg
      exact chunks_on_grid_any ho (by omega) hax hay hsz ux uy x0 x1 y0 y1 hc fun e hee => hcen g hg' e hee)
  refine ⟨fakes, h1, ?_⟩
  intro out scale
  obtain ⟨f, f1, f2, f3, f4, f5, f6, f7, f8⟩ := lut_image hdx hdy he hab hcd tx ty tp h2 h3 h4 out scale
  have hnc : ¬ NoCriteria { x := some t.xBnd, y := some t.yBnd, minEvents := me, minGroups := mg } := by
    intro h
    exact absurd h.2.2.1 (by simp)
  have ask := asked_readFor (dx := dx) (dy := dy) (px := p * dx) (py := q * dy) (xs := boxCentres xlo dx a b)
    (ys := boxCentres ylo dy c d) hnc rfl rfl rfl rfl (fun z => by rw [tx]; exact reach_iff hdx (by omega) (by omega))
    (fun z => by rw [ty]; exact reach_iff hdy (by omega) (by omega))
  -- the cell of a pixel
  have pixel : ∀ row col X Y, f.x[col]? = some X → f.y[row]? = some Y → ∃ i j,
      cellRect (env.edges t.xBnd dx) (env.edges t.yBnd dy) j i = pixelAt dx dy X Y ∧
      (∀ fp, foundClip env.clip env.query (env.edges t.xBnd dx) (env.edges t.yBnd dy) fp (pixelAt dx dy X Y) =
        closeClip env.clip dx dy X Y fp (pixelAt dx dy X Y)) ∧
      CellsOfFiles (foundClip env.clip env.query (env.edges t.xBnd dx) (env.edges t.yBnd dy)) env.foot
        (env.edges t.xBnd dx) (env.edges t.yBnd dy) { x := some t.xBnd, y := some t.yBnd, minEvents := me, minGroups := mg }
        (files.map fun g => (env.productTime g, g)) i j
        ((grid "flash_extent_density").val i j) ((grid "average_flash_area").val i j)
        ((grid "total_energy").val i j) ((grid "group_extent_density").val i j)
        ((grid "average_group_area").val i j) ((grid "minimum_flash_area").val i j) ∧
      ∀ name img, (name, img) ∈ f.fields → ∀ v, (name, v) ∈ shown (scale != .bool false)
        ((grid "flash_extent_density").val i j) ((grid "average_flash_area").val i j)
        ((grid "total_energy").val i j) ((grid "group_extent_density").val i j)
        ((grid "average_group_area").val i j) ((grid "minimum_flash_area").val i j) →
        img.val row col = v := by
    intro row col X Y hX hY
    rw [show f.x = boxCentres xlo dx a b from f4] at hX
    rw [show f.y = (boxCentres ylo dy c d).reverse from f5] at hY
    obtain ⟨hcol, hX⟩ := boxCentres_get hX
    have hrow : row < d - c := by
      obtain ⟨hr, -⟩ := List.getElem?_eq_some_iff.mp hY
      rwa [List.length_reverse, boxCentres_length] at hr
    rw [List.getElem?_reverse (by rw [boxCentres_length]; exact hrow), boxCentres_length] at hY
    obtain ⟨-, hY⟩ := boxCentres_get hY
    obtain ⟨k, hk⟩ : ∃ k, k = d - c - 1 - row := ⟨_, rfl⟩
    rw [← hk] at hY
    have f8 := f8 row col hrow hcol
    rw [show q + (d - c) - 1 - row = q + k by omega] at f8
    have cx : xlo + a * dx - p * dx + ((p + col : Nat) + 1/2) * dx = X := by rw [hX]; push_cast; ring
    have cy : ylo + c * dy - q * dy + ((q + k : Nat) + 1/2) * dy = Y := by rw [hY]; push_cast; ring
    have hrect : cellRect (env.edges t.xBnd dx) (env.edges t.yBnd dy) (q + k) (p + col) = pixelAt dx dy X Y := by
      rw [cellRect_rect, ext, eyt, boxEdges_getD _ _ (by omega), boxEdges_getD _ _ (by omega), boxEdges_getD _ _ (by omega),
        boxEdges_getD _ _ (by omega), ← cx, ← cy]
      unfold pixelAt
      congr 1 <;> push_cast <;> ring
    refine ⟨p + col, q + k, hrect, ?_, hv (p + col) (q + k) (by rw [ext, boxEdges_length]; omega)
      (by rw [eyt, boxEdges_length]; omega), f8⟩
    intro fp
    rw [← hrect, ext, eyt, found_close env.clip env.query hdx hdy _ (by omega) (by omega) (by omega) (by omega), cx, cy]
  refine ⟨f, f1, f2, f3, f4, f5, f6, ?_, ?_, ?_⟩
  · intro img hi
    rw [boxCentres_length, boxCentres_length]
    exact f7 img hi
  · intro row col X Y hX hY
    obtain ⟨i, j, hrect, hfound, hcell, hall⟩ := pixel row col X Y hX hY
    have hcell := cells_same_asked (only := readFor dx dy (p * dx) (q * dy) (boxCentres xlo dx a b) (boxCentres ylo dy c d))
      (fun d => (ask d).1) (fun _ => rfl) (fun _ => rfl) hcell
    rw [List.map_map] at hcell
    have := cells_direct (clip := closeClip env.clip dx dy X Y) hcell hrect (fun g _ e _ => hfound _) (by
        intro g hg fl hfl hno
        obtain ⟨g, hg', rfl⟩ := List.mem_map.mp hg
        refine absurd ?_ hno
        show fl ∈ askedFor (readFor dx dy (p * dx) (q * dy) (boxCentres xlo dx a b) (boxCentres ylo dy c d) g) _
        rw [(ask g).1, ← (ask g).2]
        exact hfl) hnc
    rw [List.map_map] at this
    exact ⟨_, _, _, _, _, _, this, fun name img v him hv => hall name img him v hv⟩
  · intro row col X Y hX hY hout
    obtain ⟨i, j, hrect, hfound, hcell, hall⟩ := pixel row col X Y hX hY
    have := cells_direct (clip := env.clip) hcell hrect (by
        intro g hg e hee
        obtain ⟨g, hg', rfl⟩ := List.mem_map.mp hg
        rw [hfound]
        unfold closeClip
        split
        · rfl
        · rename_i hno
          by_contra hne
          exact hno (hout g hg' e hee fun h => hne h.symm).1) (by
        intro g hg fl hfl hno e hee hfe
        obtain ⟨g, hg', rfl⟩ := List.mem_map.mp hg
        by_contra hne
        apply hno
        have hr := (hout g hg' e hee hne).2 fl hfl hfe
        have h2 := (ask g).2
        show fl ∈ askedFor g _
        rw [← h2]
        obtain ⟨k1, k2⟩ := List.mem_filter.mp hfl
        exact List.mem_filter.mpr ⟨List.mem_filter.mpr ⟨k1, decide_eq_true hr⟩, k2⟩) hnc
    rw [List.map_map, show (Prod.snd ∘ fun g : GFile => (env.productTime g, g)) = id from rfl, List.map_id] at this
    exact ⟨_, _, _, _, _, _, this, fun name img v him hv => hall name img him v hv⟩

/-! ## C167 -/

/-- The images of a call for files of any kind. -/
theorem any_images {env : Surroundings} {kw : Dict} (shared : Dict) {xlo ylo dx dy : Rat} {M N s : Nat}
    {me mg : Option Int} {files opened : List GFile} (h : AnyCall env kw xlo ylo dx dy M N s me mg files opened) :
    ∃ runs shared', gridGlmFlashes (lutGridder env) files kw shared = .ok (runs, shared') ∧
      (runs.map fun r => r.ij) = ((List.range s).flatMap fun i => (List.range s).map fun j => (i, j)) ∧
      ∀ r ∈ runs, ∃ f, r.written = [(f.name, f)] ∧
        AnyImage env.clip env.foot me mg opened dx dy (padding dx) (padding dy) (r.scale != .bool false) env.frame
          (boxCentres xlo dx (tileStart M s r.ij.1) (tileStart M s (r.ij.1 + 1)))
          (boxCentres ylo dy (tileStart N s r.ij.2) (tileStart N s (r.ij.2 + 1))) f := by
  obtain ⟨runs, sh, h1, h2, h3, -⟩ := call_runs (env := env) (G := lutGridder env)
    (P := fun sc xs ys (w : List (String × ImageFile)) => ∃ f, w = [(f.name, f)] ∧
      AnyImage env.clip env.foot me mg opened dx dy (padding dx) (padding dy) sc env.frame xs ys f) rfl rfl rfl shared
    h.asked h.xPos h.yPos h.tiles h.xTiles h.yTiles h.xPad h.yPad h.opens h.some (by
      intro t a b c d p q hab hcd hp hq ep eq tx ty tp
      subst ep eq
      obtain ⟨fakes, hread, himg⟩ := any_tile_image (env := env) h.xPos h.yPos h.edges hab hcd hp hq tx ty tp me mg
        (files := opened) h.parts h.order h.any h.centred
      refine ⟨fakes, hread, fun out scale => ?_⟩
      obtain ⟨f, hf, hsh⟩ := himg out scale
      refine ⟨[(f.name, f)], ?_, f, rfl, hsh⟩
      show (do let files ← lutImages env _ out _ scale; pure (files.map fun (f : ImageFile) => (f.name, f))) = _
      rw [hf]
      rfl)
  exact ⟨runs, sh, h1, h2, h3⟩

theorem readFor_reverse (dx dy px py : Rat) (xs ys : List Rat) :
    readFor dx dy px py xs ys.reverse = readFor dx dy px py xs ys := by
  classical
  funext d
  have : ∀ e : Row GVal, EventWithinReach dx dy px py xs ys.reverse e ↔ EventWithinReach dx dy px py xs ys e := by
    intro e
    constructor
    · rintro ⟨h1, h2, h3, Y, hY, h4⟩
      exact ⟨h1, h2, h3, Y, List.mem_reverse.mp hY, h4⟩
    · rintro ⟨h1, h2, h3, Y, hY, h4⟩
      exact ⟨h1, h2, h3, Y, List.mem_reverse.mpr hY, h4⟩
  have hall : ∀ f, ReadFor dx dy px py xs ys.reverse d f ↔ ReadFor dx dy px py xs ys d f := by
    intro f
    unfold ReadFor WithinReach
    simp only [List.mem_reverse, this]
  unfold readFor
  congr 1
  exact List.filter_congr fun f _ => decide_eq_decide.mpr (hall f)

theorem sum_filter_le_both {α : Type} (l : List α) (P Q : α → Prop) [DecidablePred P] [DecidablePred Q] (F G : α → Rat)
    (hPQ : ∀ a ∈ l, P a → Q a) (hFG : ∀ a ∈ l, F a ≤ G a) (hG : ∀ a ∈ l, 0 ≤ G a) :
    ((l.filter fun a => P a).map F).sum ≤ ((l.filter fun a => Q a).map G).sum := by
  induction l with
  | nil => simp
  | cons a l ih =>
    have ih := ih (fun b hb => hPQ b (List.mem_cons_of_mem _ hb)) (fun b hb => hFG b (List.mem_cons_of_mem _ hb))
      fun b hb => hG b (List.mem_cons_of_mem _ hb)
    by_cases hP : P a
    · rw [List.filter_cons_of_pos (by simpa using hP),
        List.filter_cons_of_pos (by simpa using hPQ a List.mem_cons_self hP), List.map_cons, List.map_cons, List.sum_cons,
        List.sum_cons]
      exact add_le_add (hFG a List.mem_cons_self) ih
    · rw [List.filter_cons_of_neg (by simpa using hP)]
      by_cases hQ : Q a
      · rw [List.filter_cons_of_pos (by simpa using hQ), List.map_cons, List.sum_cons]
        linarith [hG a List.mem_cons_self]
      · rw [List.filter_cons_of_neg (by simpa using hQ)]
        exact ih

section
variable {clip : Poly → Poly → List Poly} {foot : Pt → Poly} {me mg : Option Int} {files : List GFile}
  {dx dy px py X Y : Rat} {xs ys : List Rat} {fed fa te ged ga mfa fed1 fa1 te1 ged1 ga1 mfa1 : Rat}

theorem close_part_le (p q : Poly) : partArea (closeClip clip dx dy X Y) p q ≤ partArea clip p q := by
  by_cases hc : CloseTo dx dy X Y (meanPoint p)
  · rw [show partArea (closeClip clip dx dy X Y) p q = partArea clip p q by
      unfold partArea; rw [show closeClip clip dx dy X Y p q = clip p q from if_pos hc]]
  · rw [show partArea (closeClip clip dx dy X Y) p q = 0 by
      unfold partArea; rw [show closeClip clip dx dy X Y p q = [] from if_neg hc]; rfl]
    exact List.sum_nonneg fun v hv => by
      obtain ⟨s, -, rfl⟩ := List.mem_map.mp hv
      exact abs_nonneg _

theorem shown_mono (sc : Bool) {step u v : Rat} (h : u ≤ v) : atLeastStep sc step u ≤ atLeastStep sc step v := by
  unfold atLeastStep
  split
  · rename_i h1
    split
    · exact le_refl _
    · rename_i h2
      by_contra hlt
      exact h2 ⟨h1.1, h1.2.1.trans_le h, not_le.mp hlt⟩
  · split
    · rename_i h2
      exact h.trans h2.2.2.le
    · exact h

/-- What is found and read of the lightning in a pixel is not more than all of it. -/
theorem holds_at_most (hdx : 0 < dx) (hdy : 0 < dy) (hen : ∀ d ∈ files, ∀ e ∈ d.events, 0 ≤ e.val.energy)
    (h : PixelHolds clip foot me mg files dx dy X Y fed fa te ged ga mfa)
    (h1 : PixelHolds (closeClip clip dx dy X Y) foot me mg (files.map (readFor dx dy px py xs ys)) dx dy X Y
      fed1 fa1 te1 ged1 ga1 mfa1) :
    fed1 ≤ fed ∧ te1 ≤ te ∧ ged1 ≤ ged := by
  classical
  have hd : 0 ≤ dx * dy := mul_nonneg hdx.le hdy.le
  have inRead : ∀ d f, f ∈ countedFlashes me mg (readFor dx dy px py xs ys d) → f ∈ countedFlashes me mg d := by
    intro d f hf
    unfold countedFlashes readFor at *
    simp only [List.mem_filter, decide_eq_true_eq] at *
    exact ⟨hf.1.1, hf.2⟩
  have places : ∀ l : List Pt, (l.map fun p => partArea (closeClip clip dx dy X Y) (foot p) (pixelAt dx dy X Y) /
      (dx * dy)).sum ≤ (l.map fun p => partArea clip (foot p) (pixelAt dx dy X Y) / (dx * dy)).sum :=
    fun l => List.sum_le_sum fun p _ => div_le_div_of_nonneg_right (close_part_le _ _) hd
  have placesNonneg : ∀ l : List Pt, 0 ≤ (l.map fun p => partArea clip (foot p) (pixelAt dx dy X Y) / (dx * dy)).sum := by
    intro l
    refine List.sum_nonneg fun v hv => ?_
    obtain ⟨p, -, rfl⟩ := List.mem_map.mp hv
    exact div_nonneg (partArea_nonneg _ _ _) hd
  refine ⟨?_, ?_, ?_⟩
  · rw [h.flashes, h1.flashes, List.map_map]
    refine List.sum_le_sum fun d _ => ?_
    have := sum_filter_le_both d.flashes
      (fun f => (AtLeast me f.val.nEvents ∧ AtLeast mg f.val.nGroups) ∧ ReadFor dx dy px py xs ys d f)
      (fun f => AtLeast me f.val.nEvents ∧ AtLeast mg f.val.nGroups)
      (fun f => ((flashPlaces d f).map fun p =>
        partArea (closeClip clip dx dy X Y) (foot p) (pixelAt dx dy X Y) / (dx * dy)).sum)
      (fun f => ((flashPlaces d f).map fun p => partArea clip (foot p) (pixelAt dx dy X Y) / (dx * dy)).sum)
      (fun f _ hf => hf.1) (fun f _ => places _) fun f _ => placesNonneg _
    unfold countedFlashes readFor
    simp only [Function.comp_def, List.filter_filter]
    simp only [Bool.decide_and] at this ⊢
    exact this
  · rw [h.energy, h1.energy, List.map_map]
    refine List.sum_le_sum fun d hdm => ?_
    refine sum_filter_le_both d.events (fun e => ∃ f ∈ countedFlashes me mg (readFor dx dy px py xs ys d), EventOfFlash d f.id e)
      (fun e => ∃ f ∈ countedFlashes me mg d, EventOfFlash d f.id e) _ _ ?_ ?_ ?_
    · rintro e _ ⟨f, hf, hfe⟩
      exact ⟨f, inRead d f hf, hfe⟩
    · intro e he
      exact mul_le_mul_of_nonneg_left (div_le_div_of_nonneg_right (close_part_le _ _) (abs_nonneg _)) (hen d hdm e he)
    · intro e he
      exact mul_nonneg (hen d hdm e he) (div_nonneg (partArea_nonneg _ _ _) (abs_nonneg _))
  · rw [h.groups, h1.groups, List.map_map]
    refine List.sum_le_sum fun d hdm => ?_
    refine sum_filter_le_both d.groups (fun g => ∃ f ∈ countedFlashes me mg (readFor dx dy px py xs ys d), f.id = g.pid)
      (fun g => ∃ f ∈ countedFlashes me mg d, f.id = g.pid) _ _ ?_ ?_ ?_
    · rintro e _ ⟨f, hf, hfe⟩
      exact ⟨f, inRead d f hf, hfe⟩
    · intro e _
      exact places _
    · intro e _
      exact placesNonneg _

end

section
variable {env : Surroundings} {kw shared sh : Dict} {xlo ylo dx dy : Rat} {M N s : Nat} {me mg : Option Int}
  {files opened : List GFile} {runs : List (TileRun TileState ImageFile)}

theorem AnyCall.works (h : AnyCall env kw xlo ylo dx dy M N s me mg files opened)
    (hr : gridGlmFlashes (lutGridder env) files kw shared = .ok (runs, sh)) :
    ∀ r ∈ runs, ∃ f, r.written = [(f.name, f)] ∧
      AnyImage env.clip env.foot me mg opened dx dy (padding dx) (padding dy) (r.scale != .bool false) env.frame
        (boxCentres xlo dx (tileStart M s r.ij.1) (tileStart M s (r.ij.1 + 1)))
        (boxCentres ylo dy (tileStart N s r.ij.2) (tileStart N s (r.ij.2 + 1))) f := by
  obtain ⟨runs', sh', h1, -, h3⟩ := any_images shared h
  rw [hr] at h1
  simp only [Except.ok.injEq, Prod.mk.injEq] at h1
  obtain ⟨rfl, -⟩ := h1
  exact h3

/-- **C167**: an image shows in each pixel what the flashes that are read for it put there with the footprints whose means
are at most two and a half boxes from the centre of the pixel. -/
theorem C167_exact (h : AnyCall env kw xlo ylo dx dy M N s me mg files opened)
    (hr : gridGlmFlashes (lutGridder env) files kw shared = .ok (runs, sh))
    {r : TileRun TileState ImageFile} (hrr : r ∈ runs) {nf : String × ImageFile} (hnf : nf ∈ r.written) {row col : Nat}
    {X Y : Rat} (hX : nf.2.x[col]? = some X) (hY : nf.2.y[row]? = some Y) :
    ∃ fed fa te ged ga mfa,
      PixelHolds (closeClip env.clip dx dy X Y) env.foot me mg
        (opened.map (readFor dx dy (padding dx) (padding dy) nf.2.x nf.2.y)) dx dy X Y fed fa te ged ga mfa ∧
      ∀ name img v, (name, img) ∈ nf.2.fields → (name, v) ∈ shown (r.scale != .bool false) fed fa te ged ga mfa →
        img.val row col = v := by
  obtain ⟨f, hf, hs⟩ := h.works hr r hrr
  rw [hf, List.mem_singleton] at hnf
  subst hnf
  have hp := hs.pixels row col X Y hX hY
  show ∃ fed fa te ged ga mfa, PixelHolds (closeClip env.clip dx dy X Y) env.foot me mg (opened.map
    (readFor dx dy (padding dx) (padding dy) f.x f.y)) dx dy X Y fed fa te ged ga mfa ∧ _
  rw [hs.x, hs.y, readFor_reverse]
  exact hp

/-- **C167**, for pixels of which nothing is left out: the pixel shows what all lightning puts there. -/
theorem C167_partial (h : AnyCall env kw xlo ylo dx dy M N s me mg files opened)
    (hr : gridGlmFlashes (lutGridder env) files kw shared = .ok (runs, sh))
    {r : TileRun TileState ImageFile} (hrr : r ∈ runs) {nf : String × ImageFile} (hnf : nf ∈ r.written) {row col : Nat}
    {X Y : Rat} (hX : nf.2.x[col]? = some X) (hY : nf.2.y[row]? = some Y)
    (hout : NothingLeftOut env.clip env.foot me mg opened dx dy (padding dx) (padding dy) nf.2.x nf.2.y X Y) :
    ∃ fed fa te ged ga mfa,
      PixelHolds env.clip env.foot me mg opened dx dy X Y fed fa te ged ga mfa ∧
      ∀ name img v, (name, img) ∈ nf.2.fields → (name, v) ∈ shown (r.scale != .bool false) fed fa te ged ga mfa →
        img.val row col = v := by
  obtain ⟨f, hf, hs⟩ := h.works hr r hrr
  rw [hf, List.mem_singleton] at hnf
  subst hnf
  refine hs.whole row col X Y hX hY ?_
  intro d hd e he hne
  obtain ⟨h1, h2⟩ := hout d hd e he hne
  refine ⟨h1, fun fl hfl hfe => ?_⟩
  obtain ⟨⟨⟨a, ha, ha'⟩, ⟨b, hb, hb'⟩⟩, e', he', hfe', ⟨v1, v2, ⟨a1, k1, k1'⟩, ⟨b1, k2, k2'⟩⟩⟩ := h2 fl hfl hfe
  rw [hs.x] at ha k1
  rw [hs.y, List.mem_reverse] at hb k2
  exact ⟨⟨⟨a, ha, ha'⟩, ⟨b, hb, hb'⟩⟩, e', he', hfe', ⟨v1, v2, ⟨a1, k1, k1'⟩, ⟨b1, k2, k2'⟩⟩⟩

/-- **C167**: whatever the sizes of boxes, footprints and flashes, no density and no energy is higher than what all
lightning puts into the pixel. -/
theorem C167_at_most (h : AnyCall env kw xlo ylo dx dy M N s me mg files opened)
    (hr : gridGlmFlashes (lutGridder env) files kw shared = .ok (runs, sh))
    (hen : ∀ d ∈ opened, ∀ e ∈ d.events, 0 ≤ e.val.energy)
    {r : TileRun TileState ImageFile} (hrr : r ∈ runs) {nf : String × ImageFile} (hnf : nf ∈ r.written) {row col : Nat}
    {X Y : Rat} (hX : nf.2.x[col]? = some X) (hY : nf.2.y[row]? = some Y) {fed fa te ged ga mfa : Rat}
    (hall : PixelHolds env.clip env.foot me mg opened dx dy X Y fed fa te ged ga mfa) (img : Image) :
    (("flash_extent_density", img) ∈ nf.2.fields → img.val row col ≤ atLeastStep (r.scale != .bool false) (1/16) fed) ∧
    (("total_energy", img) ∈ nf.2.fields →
      img.val row col ≤ atLeastStep (r.scale != .bool false) (152597 / 100000000000) te) ∧
    (("group_extent_density", img) ∈ nf.2.fields →
      img.val row col ≤ atLeastStep (r.scale != .bool false) (1/4) ged) := by
  obtain ⟨fed1, fa1, te1, ged1, ga1, mfa1, hp, hs⟩ := C167_exact h hr hrr hnf hX hY
  obtain ⟨m1, m2, m3⟩ := holds_at_most h.xPos h.yPos hen hall hp
  refine ⟨fun hi => ?_, fun hi => ?_, fun hi => ?_⟩
  · rw [hs _ img (atLeastStep (r.scale != .bool false) (1/16) fed1) hi (by simp [shown])]
    exact shown_mono _ m1
  · rw [hs _ img (atLeastStep (r.scale != .bool false) (152597 / 100000000000) te1) hi (by simp [shown])]
    exact shown_mono _ m2
  · rw [hs _ img (atLeastStep (r.scale != .bool false) (1/4) ged1) hi (by simp [shown])]
    exact shown_mono _ m3

end

/-- **C167**, in full: every pixel shows what all lightning puts there, whatever the sizes of boxes and footprints. -/
def C167_full : Prop :=
  ∀ (env : Surroundings) (kw shared sh : Dict) (xlo ylo dx dy : Rat) (M N s : Nat) (me mg : Option Int)
    (files opened : List GFile) (runs : List (TileRun TileState ImageFile)),
    AnyCall env kw xlo ylo dx dy M N s me mg files opened →
    gridGlmFlashes (lutGridder env) files kw shared = .ok (runs, sh) →
    ∀ r ∈ runs, ∀ nf ∈ r.written, ∀ row col X Y, nf.2.x[col]? = some X → nf.2.y[row]? = some Y →
      ∃ fed fa te ged ga mfa, PixelHolds env.clip env.foot me mg opened dx dy X Y fed fa te ged ga mfa ∧
        ∀ name img v, (name, img) ∈ nf.2.fields → (name, v) ∈ shown (r.scale != .bool false) fed fa te ged ga mfa →
          img.val row col = v

/-! ### Sample -/

/-- A file with one flash of one event. -/
def oneSample : GFile where
  flashes := [⟨5, 0, { x := 11/10000, y := 11/10000, area := 100, nGroups := 1, nEvents := 1 }⟩]
  groups := [⟨13, 5, { nEvents := 1, area := 40 }⟩]
  events := [⟨100, 13, { x := 11/10000, y := 11/10000, energy := 2, flashOf := 5 }⟩]

/-- A call for twelve by twelve boxes of a fifth of a milliradian, with footprints of one and a half milliradians. -/
def smallBoxCall : Dict :=
  [("proj_name", .str "geos"), ("fixed_grid", .bool true), ("dx", .num (1/5000)), ("dy", .num (1/5000)),
   ("x_bnd", .bnd 0 (12/5000)), ("y_bnd", .bnd 0 (12/5000)), ("subdivide", .nat 1), ("clip_events", .bool true),
   ("ellipse_rev", .nat 1), ("nadir_lon", .num (-75)), ("output_filename_prefix", .str "GLM"),
   ("output_writer", .function "write_cf_netcdf"), ("min_points_per_flash", .nat 1)]

theorem smallBoxCall_any : AnyCall wholeEnv smallBoxCall 0 0 (1/5000) (1/5000) 12 12 1 (some 1) none [oneSample] [oneSample] where
  asked :=
    { proj := ⟨_, rfl⟩
      fixed := ⟨by decide +kernel, by decide +kernel⟩
      xBox := rfl
      yBox := rfl
      x := by decide +kernel
      y := by decide +kernel
      subdivide := Or.inl rfl
      given := by decide +kernel
      minEvents := Or.inl ⟨1, rfl, rfl⟩
      minGroups := Or.inr ⟨Or.inr rfl, rfl⟩ }
  xPos := by norm_num
  yPos := by norm_num
  tiles := by omega
  xTiles := by omega
  yTiles := by omega
  xPad := by norm_num
  yPad := by norm_num
  edges := arange_makesEdges
  parts := fun p q s => rectClip_ne_nil p q s
  order := fun l => List.Perm.refl l
  opens := fun _ _ => opens_same _
  some := ⟨oneSample, by simp, by simp [oneSample]⟩
  any := by
    intro d hd _
    rw [List.mem_singleton] at hd
    subst hd
    exact
      { hasData := by unfold HasData; decide +kernel
        consistent := by decide +kernel
        derived := ⟨by decide +kernel, by decide +kernel, by decide +kernel, by decide +kernel⟩
        flashes := by unfold UniqueIds; decide +kernel
        groups := by unfold UniqueIds; decide +kernel
        areas := by decide +kernel
        pixels := by unfold PixelExact placeOf; decide +kernel
        polygons := by decide +kernel }
  centred := fun _ _ _ _ => square_centred (by norm_num) (by norm_num) (by norm_num) _

theorem oneSample_event : EventOfFlash oneSample 5 ⟨100, 13, { x := 11/10000, y := 11/10000, energy := 2, flashOf := 5 }⟩ :=
  ⟨⟨13, 5, { nEvents := 1, area := 40 }⟩, by simp [oneSample], rfl, rfl⟩

/-- The image does not show the part of the footprint that is three boxes east of its mean. -/
theorem C167_full_false : ¬ C167_full := by
  classical
  intro hfull
  obtain ⟨runs, sh, h1, h2, h3⟩ := any_images [] smallBoxCall_any
  have hij : (0, 0) ∈ runs.map fun r => r.ij := by rw [h2]; decide
  obtain ⟨r, hr, hij⟩ := List.mem_map.mp hij
  obtain ⟨f, hf, hs⟩ := h3 r hr
  rw [hij] at hs
  have hx : f.x[8]? = some (17/10000 : Rat) := by rw [hs.x]; decide +kernel
  have hy : f.y[6]? = some (11/10000 : Rat) := by rw [hs.y]; decide +kernel
  have hnf : (f.name, f) ∈ r.written := by rw [hf]; exact List.mem_singleton.mpr rfl
  obtain ⟨fed, fa, te, ged, ga, mfa, hp, hv⟩ := hfull _ _ _ _ _ _ _ _ _ _ _ _ _ _ _ _ smallBoxCall_any h1 r hr _ hnf 6 8 _ _ hx hy
  obtain ⟨fed', fa', te', ged', ga', mfa', hp', hv'⟩ := C167_exact smallBoxCall_any h1 hr hnf hx hy
  have hcount : countedEvents (some 1) none oneSample = oneSample.events := by
    unfold countedEvents
    rw [List.filter_eq_self]
    intro e he
    apply decide_eq_true
    refine ⟨_, List.mem_filter.mpr ⟨List.mem_singleton.mpr rfl, decide_eq_true ⟨fun m h => by cases h; decide +kernel,
      fun m h => by cases h⟩⟩, ?_⟩
    simp only [oneSample, List.mem_singleton] at he
    subst he
    exact oneSample_event
  have hte : te = 2 * (partArea rectClip (wholeEnv.foot (11/10000, 11/10000)) (pixelAt (1/5000) (1/5000) (17/10000) (11/10000)) /
      |signedArea (wholeEnv.foot (11/10000, 11/10000))|) := by
    rw [hp.energy, List.map_singleton, hcount]
    simp only [oneSample, List.map_cons, List.map_nil, List.sum_cons, List.sum_nil, add_zero, placeOf]
    rfl
  have hte : te = 8/225 := by rw [hte]; decide +kernel
  have hte' : te' = 0 := by
    rw [hp'.energy]
    refine List.sum_eq_zero fun v hv => ?_
    obtain ⟨d, hd, rfl⟩ := List.mem_map.mp hv
    refine List.sum_eq_zero fun v hv => ?_
    obtain ⟨e, he, rfl⟩ := List.mem_map.mp hv
    obtain ⟨d, hd', rfl⟩ := List.mem_map.mp hd
    rw [List.mem_singleton] at hd'
    subst hd'
    have he' : e ∈ oneSample.events := (List.mem_filter.mp he).1
    simp only [oneSample, List.mem_singleton] at he'
    subst he'
    have hz : partArea (closeClip wholeEnv.clip (1/5000) (1/5000) (17/10000) (11/10000))
        (wholeEnv.foot (placeOf ⟨100, 13, { x := 11/10000, y := 11/10000, energy := 2, flashOf := 5 }⟩))
        (pixelAt (1/5000) (1/5000) (17/10000) (11/10000)) = 0 := by decide +kernel
    rw [hz, zero_div, mul_zero]
  have hname : "total_energy" ∈ f.fields.map Prod.fst := by rw [hs.names]; decide
  obtain ⟨⟨n, img⟩, hi, hn⟩ := List.mem_map.mp hname
  obtain rfl : n = "total_energy" := hn
  have e1 := hv _ img (atLeastStep (r.scale != .bool false) (152597 / 100000000000) te) hi (by simp [shown])
  have e2 := hv' _ img (atLeastStep (r.scale != .bool false) (152597 / 100000000000) te') hi (by simp [shown])
  rw [e1, hte, hte'] at e2
  revert e2
  cases (r.scale != .bool false) <;> decide +kernel

/-- Of the pixel under the mean of the footprint nothing is left out: `C167_partial` applies to it. -/
example : NothingLeftOut rectClip wholeEnv.foot (some 1) none [oneSample] (1/5000) (1/5000) (padding (1/5000))
    (padding (1/5000)) (boxCentres 0 (1/5000) 0 12) (boxCentres 0 (1/5000) 0 12).reverse (11/10000) (11/10000) ∧
    rectClip (wholeEnv.foot (11/10000, 11/10000)) (pixelAt (1/5000) (1/5000) (11/10000) (11/10000)) ≠ [] := by
  refine ⟨?_, by decide +kernel⟩
  intro d hd e he hne
  rw [List.mem_singleton] at hd
  subst hd
  simp only [oneSample, List.mem_singleton] at he
  subst he
  refine ⟨by decide +kernel, ?_⟩
  intro f hf _
  obtain ⟨hf, -⟩ := List.mem_filter.mp hf
  simp only [oneSample, List.mem_singleton] at hf
  subst hf
  exact ⟨by decide +kernel, _, List.mem_singleton.mpr rfl, oneSample_event, by decide +kernel, by decide +kernel,
    by decide +kernel, by decide +kernel⟩

example : ∀ e ∈ oneSample.events, 0 ≤ e.val.energy := by decide +kernel

end Verif.Props
