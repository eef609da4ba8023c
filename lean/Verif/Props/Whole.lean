import Verif.Model.Whole
import Verif.Props.Tiling
import Verif.Props.Select
import Verif.Props.Imagery

/-!
# Whole calls: C137

From the options of a call and the files to the pixels of the images.
-/

namespace Verif.Props

open Verif.Py Verif.Model Verif.Spec Verif.Proofs

/-! ## What a pixel should hold -/

open scoped Classical in
/-- The flashes of a file that have enough events and enough groups. -/
noncomputable def countedFlashes (me mg : Option Int) (d : GFile) : List (Row GVal) :=
  d.flashes.filter fun f => AtLeast me f.val.nEvents ∧ AtLeast mg f.val.nGroups

open scoped Classical in
/-- Their groups. -/
noncomputable def countedGroups (me mg : Option Int) (d : GFile) : List (Row GVal) :=
  d.groups.filter fun g => ∃ f ∈ countedFlashes me mg d, f.id = g.pid

open scoped Classical in
/-- Their events. -/
noncomputable def countedEvents (me mg : Option Int) (d : GFile) : List (Row GVal) :=
  d.events.filter fun e => ∃ f ∈ countedFlashes me mg d, EventOfFlash d f.id e

/-- The area that the clipper finds of a footprint in a cell. -/
def partArea (clip : Poly → Poly → List Poly) (p cell : Poly) : Rat := ((clip p cell).map fun s => |signedArea s|).sum

/-- The pixel whose centre is at `X`, `Y`. -/
def pixelAt (dx dy X Y : Rat) : Poly := rect (X - dx / 2) (X + dx / 2) (Y - dy / 2) (Y + dy / 2)

/-- What is accumulated in a pixel: the sums over the flashes, groups and events of all files that count, wherever they
are. -/
structure PixelHolds (clip : Poly → Poly → List Poly) (foot : Pt → Poly) (me mg : Option Int) (files : List GFile)
    (dx dy X Y : Rat) (fed fa te ged ga mfa : Rat) : Prop where
  /-- Energy: of each event, the part of its footprint that is in the pixel. -/
  energy : te = (files.map fun d => ((countedEvents me mg d).map fun e => e.val.energy *
    (partArea clip (foot (placeOf e)) (pixelAt dx dy X Y) / |signedArea (foot (placeOf e))|)).sum).sum
  /-- Flashes: the part of the pixel that is under the footprint of each place of the flash. -/
  flashes : fed = (files.map fun d => ((countedFlashes me mg d).map fun f => ((flashPlaces d f).map fun p =>
    partArea clip (foot p) (pixelAt dx dy X Y) / (dx * dy)).sum).sum).sum
  groups : ged = (files.map fun d => ((countedGroups me mg d).map fun g => ((groupPlaces d g).map fun p =>
    partArea clip (foot p) (pixelAt dx dy X Y) / (dx * dy)).sum).sum).sum
  flashArea : fa = (files.map fun d => ((countedFlashes me mg d).map fun f => f.val.area *
    ((flashPlaces d f).map fun p => partArea clip (foot p) (pixelAt dx dy X Y) / (dx * dy)).sum).sum).sum
  groupArea : ga = (files.map fun d => ((countedGroups me mg d).map fun g => g.val.area *
    ((groupPlaces d g).map fun p => partArea clip (foot p) (pixelAt dx dy X Y) / (dx * dy)).sum).sum).sum
  /-- The least area among the flashes with a place whose footprint reaches the pixel. -/
  least : LeastOrZero (files.flatMap fun d => ((countedFlashes me mg d).filter fun (f : Row GVal) =>
    ∃ p ∈ flashPlaces d f, clip (foot p) (pixelAt dx dy X Y) ≠ []).map fun f => f.val.area) mfa

/-- What the images show of it: averages are totals over densities, and, if the values are scaled, no positive value is
below one step. -/
def shown (sc : Bool) (fed fa te ged ga mfa : Rat) : List (String × Rat) :=
  [("flash_extent_density", atLeastStep sc (1/16) fed),
   ("average_flash_area", atLeastStep sc 10 (averageOf fa (atLeastStep sc (1/16) fed))),
   ("total_energy", atLeastStep sc (152597 / 100000000000) te),
   ("group_extent_density", atLeastStep sc (1/4) ged),
   ("average_group_area", atLeastStep sc 1 (averageOf ga (atLeastStep sc (1/4) ged))),
   ("minimum_flash_area", atLeastStep sc 10 mfa)]

/-! ## From the grids to the pixels -/

/-- Cells that leave out only what does not reach them. -/
theorem cells_direct {clip clip' : Poly → Poly → List Poly} {foot : Pt → Poly} {x y : List Rat} {c : Criteria}
    {files : List (Int × GFile)} {i j : Nat} {fed fa te ged ga mfa dx dy X Y : Rat}
    (h : CellsOfFiles clip' foot x y c files i j fed fa te ged ga mfa)
    (hr : cellRect x y j i = pixelAt dx dy X Y)
    (hcl : ∀ d ∈ files, ∀ e ∈ d.2.events,
      clip' (foot (placeOf e)) (pixelAt dx dy X Y) = clip (foot (placeOf e)) (pixelAt dx dy X Y))
    (hleft : ∀ d ∈ files, ∀ f ∈ countedFlashes c.minEvents c.minGroups d.2, f ∉ askedFor d.2 c →
      ∀ e ∈ d.2.events, EventOfFlash d.2 f.id e → clip (foot (placeOf e)) (pixelAt dx dy X Y) = [])
    (hc : ¬ NoCriteria c) :
    PixelHolds clip foot c.minEvents c.minGroups (files.map Prod.snd) dx dy X Y fed fa te ged ga mfa := by
  classical
  have hask : ∀ d : GFile, ∀ f ∈ askedFor d c, f ∈ countedFlashes c.minEvents c.minGroups d := by
    intro d f hf
    unfold askedFor at hf
    rw [if_neg hc] at hf
    obtain ⟨h1, h2⟩ := List.mem_filter.mp hf
    obtain ⟨hm, -⟩ := of_decide_eq_true h2
    exact List.mem_filter.mpr ⟨h1, decide_eq_true ⟨hm.minEvents, hm.minGroups⟩⟩
  have area : ∀ d ∈ files, ∀ e ∈ d.2.events,
      areaInCell clip' x y (foot (placeOf e)) i j = partArea clip (foot (placeOf e)) (pixelAt dx dy X Y) := by
    intro d hd e he
    unfold areaInCell partArea
    rw [hr, hcl d hd e he]
  have cell : gridCellArea x y i j = dx * dy := by
    unfold cellRect pixelAt rect at hr
    simp only [List.cons.injEq, Prod.mk.injEq, and_true] at hr
    unfold gridCellArea
    rw [hr.1.1, hr.1.2, hr.2.1.1, hr.2.2.1.2]
    ring
  have zero : ∀ d ∈ files, ∀ f ∈ countedFlashes c.minEvents c.minGroups d.2, f ∉ askedFor d.2 c → ∀ e ∈ d.2.events,
      EventOfFlash d.2 f.id e → partArea clip (foot (placeOf e)) (pixelAt dx dy X Y) = 0 := by
    intro d hd f hf hf' e he hfe
    unfold partArea
    rw [hleft d hd f hf hf' e he hfe]
    rfl
  have flashSum : ∀ d ∈ files, ∀ u : Row GVal → Rat,
      ((askedFor d.2 c).map fun f => u f * ((flashPlaces d.2 f).map fun p =>
        areaInCell clip' x y (foot p) i j / gridCellArea x y i j).sum).sum =
      ((countedFlashes c.minEvents c.minGroups d.2).map fun f => u f * ((flashPlaces d.2 f).map fun p =>
        partArea clip (foot p) (pixelAt dx dy X Y) / (dx * dy)).sum).sum := by
    intro d hd u
    have m1 : ∀ f, f ∈ askedFor d.2 c → f ∈ countedFlashes c.minEvents c.minGroups d.2 := hask d.2
    have m2 : ∀ f ∈ countedFlashes c.minEvents c.minGroups d.2, f ∉ askedFor d.2 c → ((flashPlaces d.2 f).map fun p =>
        partArea clip (foot p) (pixelAt dx dy X Y) / (dx * dy)).sum = 0 := by
      intro f hf hf'
      refine List.sum_eq_zero ?_
      intro v hv
      obtain ⟨p, hp, rfl⟩ := List.mem_map.mp hv
      obtain ⟨e, he, hfe, rfl⟩ := mem_flashPlaces.mp hp
      rw [zero d hd f hf hf' e he hfe, zero_div]
    have m3 : ∀ f, ((flashPlaces d.2 f).map fun p => areaInCell clip' x y (foot p) i j / gridCellArea x y i j).sum =
        ((flashPlaces d.2 f).map fun p => partArea clip (foot p) (pixelAt dx dy X Y) / (dx * dy)).sum := by
      intro f
      congr 1
      apply List.map_congr_left
      intro p hp
      obtain ⟨e, he, -, rfl⟩ := mem_flashPlaces.mp hp
      rw [area d hd e he, cell]
    unfold askedFor countedFlashes at m1 m2 ⊢
    rw [if_neg hc] at *
    simp only [List.mem_filter, decide_eq_true_eq] at m1 m2
    refine sum_filter_agree _ _ _ _ _ (fun f _ _ => by rw [m3]) (fun f hf hP => (m1 f ⟨hf, hP⟩).2) ?_
    intro f hf hQ hP
    rw [m2 f ⟨hf, hQ⟩ fun h => hP h.2, mul_zero]
  have groupSum : ∀ d ∈ files, ∀ u : Row GVal → Rat,
      ((askedGroups d.2 c).map fun g => u g * ((groupPlaces d.2 g).map fun p =>
        areaInCell clip' x y (foot p) i j / gridCellArea x y i j).sum).sum =
      ((countedGroups c.minEvents c.minGroups d.2).map fun g => u g * ((groupPlaces d.2 g).map fun p =>
        partArea clip (foot p) (pixelAt dx dy X Y) / (dx * dy)).sum).sum := by
    intro d hd u
    refine sum_filter_agree _ _ _ _ _ ?_ ?_ ?_
    · intro g _ _
      congr 2
      apply List.map_congr_left
      intro p hp
      obtain ⟨e, he, -, rfl⟩ := mem_groupPlaces.mp hp
      rw [area d hd e he, cell]
    · rintro g _ ⟨f, hf, hfg⟩
      exact ⟨f, hask d.2 f hf, hfg⟩
    · rintro g hg ⟨f, hf, hfg⟩ hn
      rw [List.sum_eq_zero, mul_zero]
      intro v hv
      obtain ⟨p, hp, rfl⟩ := List.mem_map.mp hv
      obtain ⟨e, he, heg, rfl⟩ := mem_groupPlaces.mp hp
      rw [zero d hd f hf (fun h => hn ⟨f, h, hfg⟩) e he ⟨g, hg, heg.symm, hfg.symm⟩, zero_div]
  have energySum : ∀ d ∈ files,
      ((askedEvents d.2 c).map fun e => e.val.energy * (areaInCell clip' x y (foot (placeOf e)) i j /
        |signedArea (foot (placeOf e))|)).sum =
      ((countedEvents c.minEvents c.minGroups d.2).map fun e => e.val.energy *
        (partArea clip (foot (placeOf e)) (pixelAt dx dy X Y) / |signedArea (foot (placeOf e))|)).sum := by
    intro d hd
    refine sum_filter_agree _ _ _ _ _ ?_ ?_ ?_
    · intro e he _
      rw [area d hd e he]
    · rintro e _ ⟨f, hf, hfe⟩
      exact ⟨f, hask d.2 f hf, hfe⟩
    · rintro e he ⟨f, hf, hfe⟩ hn
      rw [zero d hd f hf (fun h => hn ⟨f, h, hfe⟩) e he hfe, zero_div, mul_zero]
  have over : ∀ (F : Int × GFile → Rat) (G : GFile → Rat), (∀ d ∈ files, F d = G d.2) →
      (files.map F).sum = ((files.map Prod.snd).map G).sum := by
    intro F G hFG
    rw [List.map_map, List.map_congr_left hFG]
    rfl
  refine ⟨?_, ?_, ?_, ?_, ?_, ?_⟩
  · rw [h.energy]
    exact over _ _ fun d hd => energySum d hd
  · rw [h.flashes]
    exact over _ _ fun d hd => by simpa using flashSum d hd fun _ => 1
  · rw [h.groups]
    exact over _ _ fun d hd => by simpa using groupSum d hd fun _ => 1
  · rw [h.flashArea]
    exact over _ _ fun d hd => flashSum d hd fun f => f.val.area
  · rw [h.groupArea]
    exact over _ _ fun d hd => groupSum d hd fun f => f.val.area
  · rw [List.flatMap_map]
    refine leastOrZero_trans ?_ ?_ h.least
    · intro a ha
      obtain ⟨d, hd, ha⟩ := List.mem_flatMap.mp ha
      obtain ⟨f, hf, rfl⟩ := List.mem_map.mp ha
      obtain ⟨hf1, hf2⟩ := List.mem_filter.mp hf
      obtain ⟨p, hp, hne⟩ := of_decide_eq_true hf2
      refine List.mem_flatMap.mpr ⟨d, hd, List.mem_map.mpr ⟨f, List.mem_filter.mpr ⟨hask d.2 f hf1, ?_⟩, rfl⟩⟩
      simp only [decide_eq_true_eq]
      refine ⟨p, hp, ?_⟩
      obtain ⟨e, he, -, rfl⟩ := mem_flashPlaces.mp hp
      rwa [hr, hcl d hd e he] at hne
    · intro b hb
      obtain ⟨d, hd, hb⟩ := List.mem_flatMap.mp hb
      obtain ⟨f, hf, rfl⟩ := List.mem_map.mp hb
      obtain ⟨hf1, hf2⟩ := List.mem_filter.mp hf
      obtain ⟨p, hp, hne⟩ := of_decide_eq_true hf2
      obtain ⟨e, he, hfe, rfl⟩ := mem_flashPlaces.mp hp
      have hin : f ∈ askedFor d.2 c := by
        by_contra hn
        exact hne (hleft d hd f hf1 hn e he hfe)
      refine ⟨_, List.mem_flatMap.mpr ⟨d, hd, List.mem_map.mpr ⟨f, List.mem_filter.mpr ⟨hin, ?_⟩, rfl⟩⟩, le_refl _⟩
      simp only [decide_eq_true_eq]
      exact ⟨_, hp, by rwa [hr, hcl d hd e he]⟩

/-! ## Every chunk is on the grid -/

/-- The mean of the corners of the footprint of a place is the place, and the clipper finds a part of it in every rectangle
around the place that has at least the size of a box. -/
structure CentredAt (clip : Poly → Poly → List Poly) (foot : Pt → Poly) (dx dy : Rat) (p : Pt) : Prop where
  mean : meanPoint (foot p) = p
  part : ∀ a b c d, a + dx ≤ b → c + dy ≤ d → a < p.1 → p.1 ≤ b → c < p.2 → p.2 ≤ d →
    partArea clip (foot p) (rect a b c d) ≠ 0

theorem cellRect_rect (x y : List Rat) (r k : Nat) :
    cellRect x y r k = rect (x.getD k 0) (x.getD (k + 1) 0) (y.getD r 0) (y.getD (r + 1) 0) := rfl

/-- A footprint whose place is on the grid has a part on the grid. -/
theorem centred_covered {clip : Poly → Poly → List Poly} (query : List Pt → Pt → Nat → List Nat) {foot : Pt → Poly}
    {x y : List Rat} (hx : AxisOk x) (hy : AxisOk y) (hsz : 2 < x.length ∨ 2 < y.length) {dx dy : Rat}
    (ux : Spaced x dx) (uy : Spaced y dy) {p : Pt} (hc : CentredAt clip foot dx dy p) (h1 : x.getD 0 0 < p.1) (h2 : p.1 ≤ x.getD (x.length - 1) 0) (h3 : y.getD 0 0 < p.2)
    (h4 : p.2 ≤ y.getD (y.length - 1) 0) : coveredArea clip query (gridMesh x y) (foot p) ≠ 0 := by
  obtain ⟨col, c1⟩ := exists_inCell hx.1 hx.2 h1 h2
  obtain ⟨row, r1⟩ := exists_inCell hy.1 hy.2 h3 h4
  obtain ⟨c, g1, g2, g3, g4⟩ := grid_nearest query hx hy hsz (meanPoint (foot p))
  rw [hc.mean] at g4
  have hmem := (g4 row col).mpr ⟨r1.1, c1.1, col, row, c1, r1, by omega, by omega, by omega, by omega⟩
  have hcand : candidatesFor query (gridMesh x y) .none (foot p) = .ok c := by
    unfold candidatesFor
    simp only [g1, bind, Except.bind, pure, Except.pure]
    rw [if_neg g3]
  unfold coveredArea
  rw [hcand]
  simp only
  have hq : cellRect x y row col ∈ c.quads := by
    rw [g2.2.2.2]
    exact List.mem_map.mpr ⟨(row, col), hmem, rfl⟩
  have ex := ux.2 col c1.1
  have ey := uy.2 row r1.1
  have hpart := hc.part _ _ _ _ (by linarith) (by linarith) c1.2.1 c1.2.2 r1.2.1 r1.2.2
  rw [← cellRect_rect] at hpart
  unfold partArea at hpart
  have nonneg : ∀ l : List Poly, 0 ≤ (l.map fun s => |signedArea s|).sum := by
    intro l
    refine List.sum_nonneg ?_
    intro v hv
    obtain ⟨s, -, rfl⟩ := List.mem_map.mp hv
    exact abs_nonneg _
  have pos := lt_of_le_of_ne (nonneg _) (Ne.symm hpart)
  refine ne_of_gt (lt_of_lt_of_le pos ?_)
  generalize c.quads = quads at hq
  induction quads with
  | nil => cases hq
  | cons q qs ih =>
    rw [List.flatMap_cons, List.map_append, List.sum_append]
    rcases List.mem_cons.mp hq with rfl | hq
    · linarith [nonneg (qs.flatMap (clip (foot p)))]
    · linarith [ih hq, nonneg (clip (foot p) q)]

/-- Every chunk that is read for a tile has a footprint with a part on the grid of the tile. -/
theorem chunks_on_grid {clip : Poly → Poly → List Poly} {query : List Pt → Pt → Nat → List Nat} {foot : Pt → Poly}
    {edges : Rat × Rat → Rat → List Rat} {dx dy px py : Rat} {loc : Rat → Rat → Int} {order : List Int → List Int}
    {rest : Criteria} {n : Nat} {t : Tile} {d : GFile} (ho : ∀ l, (order l).Perm l) (hn : 0 < n)
    (hx : AxisOk (edges t.xBnd dx)) (hy : AxisOk (edges t.yBnd dy)) (hsz : 2 < (edges t.xBnd dx).length)
    (ux : Spaced (edges t.xBnd dx) dx) (uy : Spaced (edges t.yBnd dy) dy)
    (x0 : (edges t.xBnd dx).getD 0 0 = t.xBnd.1)
    (x1 : (edges t.xBnd dx).getD ((edges t.xBnd dx).length - 1) 0 = t.xBnd.2)
    (y0 : (edges t.yBnd dy).getD 0 0 = t.yBnd.1)
    (y1 : (edges t.yBnd dy).getD ((edges t.yBnd dy).length - 1) 0 = t.yBnd.2)
    (hf : CompactFile foot loc dx dy px py d) (hc : ∀ e ∈ d.events, CentredAt clip foot dx dy (placeOf e)) :
    ChunksOnGrid clip query foot edges dx dy order rest n t d := by
  classical
  intro chunks hr ch hch
  have hnc : ¬ NoCriteria { rest with x := some t.xBnd, y := some t.yBnd } := by
    intro h
    exact absurd h.2.2.1 (by simp)
  obtain ⟨chunks', hr', -, hsel, hmem⟩ := C21_filter_iff_asked ho { rest with x := some t.xBnd, y := some t.yBnd } hn
    hf.hasData hf.consistent hf.derived hf.flashes hf.groups
  obtain rfl := Except.ok.inj (hr.symm.trans hr')
  obtain ⟨chunks'', hr'', -, hpos, -⟩ := C20_chunks ho { rest with x := some t.xBnd, y := some t.yBnd } hn hf.hasData
    hf.derived hf.flashes hf.groups
  obtain rfl := Except.ok.inj (hr.symm.trans hr'')
  obtain ⟨f, hfm⟩ := List.exists_mem_of_length_pos (hpos ch hch).1
  obtain ⟨-, -, e, he, hfe, hiv⟩ := (hsel hnc f).mp (List.mem_flatMap.mpr ⟨ch, hch, hfm⟩)
  refine ⟨e, (hmem ch hch).2.2.mem_iff.mpr (List.mem_filter.mpr ⟨he, decide_eq_true ⟨f, hfm, hfe⟩⟩), ?_⟩
  have ix := hiv.xr _ rfl
  have iy := hiv.yr _ rfl
  exact centred_covered query hx hy (Or.inl hsz) ux uy (hc e he) (by rw [x0]; exact ix.1) (by rw [x1]; exact ix.2.le)
    (by rw [y0]; exact iy.1) (by rw [y1]; exact iy.2.le)

/-! ## The gridder -/

/-- What the gridder has been sent after the files. -/
theorem lut_processFiles {env : Surroundings} {rev : Val} {proc : Dict} {c : Criteria} (hc : processCriteria proc = .ok c)
    {files opened : List GFile} (ho : List.Forall₂ (fun f d => env.openFile rev f = .ok d) files opened) (s : TileState)
    (b : Bool) (fakes : List FakeLma)
    (h : readFiles env.clip env.query (fun pts => pts.map env.foot) (gridMesh s.xedge s.yedge) env.basedate env.loc env.order
      c 20000 (opened.map fun d => (env.productTime d, d)) = .ok fakes) :
    processFiles (lutGridder env) rev proc (s, b) files =
      .ok ({ s with sent := s.sent ++ fakes }, b || opened.any fun d => decide (d.events ≠ [])) := by
  induction ho generalizing s b fakes with
  | nil =>
    unfold readFiles at h
    cases h
    simp [processFiles]
  | @cons f d fs ds hfd _ ih =>
    unfold readFiles at h
    rw [List.map_cons, List.mapM_cons] at h
    obtain ⟨sent, hs, h⟩ := bind_ok h
    obtain ⟨l, hl, hs⟩ := bind_ok hs
    obtain ⟨ls, hls, hs⟩ := bind_ok hs
    cases hs
    cases h
    have hrest := ih { s with sent := s.sent ++ l } true ls.flatten (by
      unfold readFiles
      rw [hls]
      rfl)
    have hrest' := ih s b ls.flatten (by
      unfold readFiles
      rw [hls]
      rfl)
    rw [processFiles, show (lutGridder env).openFile rev f = .ok d from hfd]
    simp only [bind, Except.bind]
    by_cases hd : d.events.length > 0
    · have hne : d.events ≠ [] := List.length_pos_iff.mp hd
      rw [if_pos hd] at hl ⊢
      have hp : (lutGridder env).process s proc d = .ok { s with sent := s.sent ++ l } := by
        show lutProcess env s proc d = _
        unfold lutProcess
        rw [hc]
        simp only [bind, Except.bind]
        rw [show tileMesh s.xedge s.yedge = gridMesh s.xedge s.yedge from rfl, hl]
        rfl
      rw [hp]
      simp only
      rw [hrest]
      simp [hne, List.append_assoc]
    · have he : d.events = [] := by
        by_contra hn
        exact hd (List.length_pos_iff.mpr hn)
      rw [if_neg hd] at hl ⊢
      cases hl
      rw [hrest']
      simp [he]

/-- The names of the images, in the order in which they are in a file. -/
def eightNames : List String :=
  ["flash_extent_density", "flash_centroid_density", "average_flash_area", "total_energy", "group_extent_density",
   "group_centroid_density", "average_group_area", "minimum_flash_area"]

/-- The image file of a tile, from its grids. -/
theorem lut_image {env : Surroundings} {xlo ylo dx dy : Rat} (hdx : 0 < dx) (hdy : 0 < dy) (he : MakesEdges env.edges)
    {a b c d p q : Nat} (hab : a + 2 ≤ b) (hcd : c + 1 ≤ d) {t : Tile}
    (hx : t.xBnd = (xlo + a * dx - p * dx, xlo + b * dx + p * dx))
    (hy : t.yBnd = (ylo + c * dy - q * dy, ylo + d * dy + q * dy)) (hp : t.pads = ⟨p, q, p * dx, q * dy⟩)
    {sent : List FakeLma} {outgrids : List (String × Accum)} {grids : List Grid} {grid : String → Grid}
    (h1 : lutPipelineSetup = .ok outgrids)
    (h2 : gridFrame (env.points (env.edges t.xBnd dx) (env.edges t.yBnd dy)) ((env.edges t.xBnd dx).length - 1) ((env.edges t.yBnd dy).length - 1) outgrids
      (fun k => sent.map fun f => (f.children, env.keep (f.parentsFor k))) = .ok grids)
    (h3 : ∀ name ∈ ["flash_extent_density", "average_flash_area", "total_energy", "group_extent_density",
      "average_group_area", "minimum_flash_area"], gridNamed env.label grids name = some (grid name))
    (out : Dict) (scale : Val) :
    ∃ f, lutImages env ⟨env.edges t.xBnd dx, env.edges t.yBnd dy, sent⟩ out
        (.slices (getPadSlices t.pads).1 (getPadSlices t.pads).2) scale = .ok [f] ∧
      f.start = env.frame.1 ∧ f.stop = env.frame.2 ∧
      f.x = ((List.range (b - a)).map fun (k : Nat) => xlo + ((a + k : Nat) + 1/2) * dx) ∧
      f.y = ((List.range (d - c)).map fun (k : Nat) => ylo + ((c + k : Nat) + 1/2) * dy).reverse ∧
      f.fields.map Prod.fst = eightNames ∧
      (∀ img ∈ f.fields.map Prod.snd, img.rows = d - c ∧ img.cols = b - a) ∧
      ∀ row col, row < d - c → col < b - a → ∀ name img, (name, img) ∈ f.fields →
        ∀ v, (name, v) ∈ shown (scale != .bool false) ((grid "flash_extent_density").val (p + col) (q + (d - c) - 1 - row))
          ((grid "average_flash_area").val (p + col) (q + (d - c) - 1 - row))
          ((grid "total_energy").val (p + col) (q + (d - c) - 1 - row))
          ((grid "group_extent_density").val (p + col) (q + (d - c) - 1 - row))
          ((grid "average_group_area").val (p + col) (q + (d - c) - 1 - row))
          ((grid "minimum_flash_area").val (p + col) (q + (d - c) - 1 - row)) → img.val row col = v := by
  have ex : (env.edges t.xBnd dx).length = b - a + 2 * p + 1 := by
    rw [hx, padded_edges he hdx (by omega), boxEdges_length]
  have ey : (env.edges t.yBnd dy).length = d - c + 2 * q + 1 := by
    rw [hy, padded_edges he hdy (by omega), boxEdges_length]
  obtain ⟨o, ho, hlen⟩ : ∃ o, lutPipelineSetup = .ok o ∧ o.length = 8 := ⟨_, rfl, rfl⟩
  obtain rfl := Except.ok.inj (h1.symm.trans ho)
  have hgl : grids.length = 8 := by
    unfold gridFrame at h2
    rw [← (mapM_ok_forall₂ h2).length_eq, hlen]
  obtain ⟨g0, g1, g2, g3, g4, g5, g6, g7, rfl⟩ : ∃ g0 g1 g2 g3 g4 g5 g6 g7, grids = [g0, g1, g2, g3, g4, g5, g6, g7] := by
    match grids, hgl with
    | [g0, g1, g2, g3, g4, g5, g6, g7], _ => exact ⟨_, _, _, _, _, _, _, _, rfl⟩
  have e0 := h3 "flash_extent_density" (by simp)
  have e2 := h3 "average_flash_area" (by simp)
  have e3 := h3 "total_energy" (by simp)
  have e4 := h3 "group_extent_density" (by simp)
  have e6 := h3 "average_group_area" (by simp)
  have e7 := h3 "minimum_flash_area" (by simp)
  simp only [gridNamed, lutOutputSetup, outputSetup, List.zip_cons_cons, List.lookup, beq_self_eq_true, Option.some.injEq,
    show ("average_flash_area" == "flash_extent_density") = false by decide,
    show ("average_flash_area" == "flash_centroid_density") = false by decide,
    show ("total_energy" == "flash_extent_density") = false by decide,
    show ("total_energy" == "flash_centroid_density") = false by decide,
    show ("total_energy" == "average_flash_area") = false by decide,
    show ("group_extent_density" == "flash_extent_density") = false by decide,
    show ("group_extent_density" == "flash_centroid_density") = false by decide,
    show ("group_extent_density" == "average_flash_area") = false by decide,
    show ("group_extent_density" == "total_energy") = false by decide,
    show ("average_group_area" == "flash_extent_density") = false by decide,
    show ("average_group_area" == "flash_centroid_density") = false by decide,
    show ("average_group_area" == "average_flash_area") = false by decide,
    show ("average_group_area" == "total_energy") = false by decide,
    show ("average_group_area" == "group_extent_density") = false by decide,
    show ("average_group_area" == "group_centroid_density") = false by decide,
    show ("minimum_flash_area" == "flash_extent_density") = false by decide,
    show ("minimum_flash_area" == "flash_centroid_density") = false by decide,
    show ("minimum_flash_area" == "average_flash_area") = false by decide,
    show ("minimum_flash_area" == "total_energy") = false by decide,
    show ("minimum_flash_area" == "group_extent_density") = false by decide,
    show ("minimum_flash_area" == "group_centroid_density") = false by decide,
    show ("minimum_flash_area" == "average_group_area") = false by decide] at e0 e2 e3 e4 e6 e7
  rw [← e0, ← e2, ← e3, ← e4, ← e6, ← e7]
  set S : ImageSetup :=
    { table := env.table, fileName := env.path out, xedge := env.edges t.xBnd dx, yedge := env.edges t.yBnd dy,
      tEdges := [env.frame.1, env.frame.2], names := (lutOutputSetup env.label).names,
      divide := (lutOutputSetup env.label).divide } with hS
  set g : Grids := ⟨(env.edges t.xBnd dx).length - 1, (env.edges t.yBnd dy).length - 1, 1,
    [g0, g1, g2, g3, g4, g5, g6, g7].map fun g i j _ => g.val i j⟩ with hg
  set pad : Option (PySlice × PySlice) := some (getPadSlices t.pads) with hpad
  have hgx : g.nx = b - a + 2 * p := by rw [hg]; simp only; omega
  have hgy : g.ny = d - c + 2 * q := by rw [hg]; simp only; omega
  have hw : written g pad = ((p, b - a + p), (q, d - c + q)) := by
    unfold written
    rw [hgx, hgy, hpad, hp]
    unfold getPadSlices
    simp only [Option.getD_some, padSlice_bounds]
  have hlut : LutGrids S g (fun i j _ => g0.val i j) (fun i j _ => g1.val i j) (fun i j _ => g2.val i j)
      (fun i j _ => g3.val i j) (fun i j _ => g4.val i j) (fun i j _ => g5.val i j) (fun i j _ => g6.val i j)
      (fun i j _ => g7.val i j) := ⟨⟨env.label, rfl⟩, ⟨env.label, rfl⟩, rfl⟩
  obtain ⟨files, g', hwr⟩ := C41_written S pad (scale != .bool false) g (by rw [hgx]; exact ex) (by rw [hgy]; exact ey)
    (by simp [hS, hg]) (by rw [hw]; simp only; omega) (by rw [hw]; simp only; omega) (by
      intro i k hik
      have : k < 8 := by
        simp only [hS, lutOutputSetup, List.lookup] at hik
        split at hik
        · cases hik; omega
        · split at hik
          · cases hik; omega
          · cases hik
      simpa [hg] using this)
  obtain ⟨w1, w2, w3, w4, w5⟩ := writeImagery_ok hwr
  have hfl : files.length = 1 := by rw [w4]; rfl
  obtain ⟨f, rfl⟩ := List.length_eq_one_iff.mp hfl
  obtain ⟨-, b1, b2, b3, b4, -, -, b7⟩ := w5 0 f rfl
  refine ⟨f, ?_, (Option.some.inj b1).symm, (Option.some.inj b2).symm, ?_, ?_, ?_, ?_, ?_⟩
  · unfold lutImages
    rw [ho]
    simp only [bind, Except.bind, pure, Except.pure]
    rw [h2]
    simp only
    rw [show Val.asPad (.slices (getPadSlices t.pads).1 (getPadSlices t.pads).2) = pad from rfl]
    rw [show writeImagery _ pad (scale != .bool false) _ = .ok ([f], g') from hwr]
  · rw [b3]
    show PySlice.apply (getPadSlices t.pads).1 (cellCentres (env.edges t.xBnd dx)) = _
    rw [hp, hx]
    exact trim_axis env.edges he xlo dx a b p (by omega) hdx
  · rw [b4]
    congr 1
    show PySlice.apply (getPadSlices t.pads).2 (cellCentres (env.edges t.yBnd dy)) = _
    rw [hp, hy]
    exact trim_axis env.edges he ylo dy c d q (by omega) hdy
  · rw [b7, lut_fieldList hlut]
    rfl
  · intro img himg
    rw [b7, List.map_map] at himg
    obtain ⟨i, -, rfl⟩ := List.mem_map.mp himg
    have := imageOf_shape g' (getPadSlices t.pads).1 (getPadSlices t.pads).2 0 i.1
    have hw1 : ((getPadSlices t.pads).1.bounds g.nx, (getPadSlices t.pads).2.bounds g.ny) = _ := hw
    simp only [Prod.mk.injEq] at hw1
    rw [w1.nx, w1.ny, hw1.1, hw1.2] at this
    simp only at this
    exact ⟨this.1.trans (by omega), this.2.trans (by omega)⟩
  · intro row col hrow hcol name img him v hv
    have hpx := lut_pixels hlut hwr (k := 0) (f := f) rfl him (r := row) (c := col) (by rw [hw]; simp only; omega)
      (by rw [hw]; simp only; omega) (a := p + col) (b := q + (d - c) - 1 - row) (by rw [hw]) (by rw [hw]; simp only; omega)
    simp only [shown, List.mem_cons, Prod.mk.injEq, List.not_mem_nil, or_false] at hv hpx
    rcases hv with ⟨rfl, rfl⟩ | ⟨rfl, rfl⟩ | ⟨rfl, rfl⟩ | ⟨rfl, rfl⟩ | ⟨rfl, rfl⟩ | ⟨rfl, rfl⟩ <;> simpa using hpx

/-! ## Images of tiles -/

/-- An image file shows the pixels with the given centres, from west to east and from north to south, and in each pixel what
should be there. -/
structure ImageShows (clip : Poly → Poly → List Poly) (foot : Pt → Poly) (me mg : Option Int) (files : List GFile)
    (dx dy : Rat) (sc : Bool) (frame : Rat × Rat) (xs ys : List Rat) (f : ImageFile) : Prop where
  start : f.start = frame.1
  stop : f.stop = frame.2
  x : f.x = xs
  y : f.y = ys.reverse
  names : f.fields.map Prod.fst = eightNames
  shape : ∀ img ∈ f.fields.map Prod.snd, img.rows = ys.length ∧ img.cols = xs.length
  pixels : ∀ row col X Y, f.x[col]? = some X → f.y[row]? = some Y → ∃ fed fa te ged ga mfa,
    PixelHolds clip foot me mg files dx dy X Y fed fa te ged ga mfa ∧
    ∀ name img v, (name, img) ∈ f.fields → (name, v) ∈ shown sc fed fa te ged ga mfa → img.val row col = v

/-- The centres of the boxes `a` to `b` of an axis. -/
def boxCentres (lo d : Rat) (a b : Nat) : List Rat := (List.range (b - a)).map fun k => lo + ((a + k : Nat) + 1/2) * d

theorem boxCentres_get {lo d v : Rat} {a b k : Nat} (h : (boxCentres lo d a b)[k]? = some v) :
    k < b - a ∧ v = lo + ((a + k : Nat) + 1/2) * d := by
  unfold boxCentres at h
  rw [List.getElem?_map] at h
  obtain ⟨k', hk, rfl⟩ := Option.map_eq_some_iff.mp h
  obtain ⟨hk', rfl⟩ := List.getElem?_eq_some_iff.mp hk
  rw [List.length_range] at hk'
  exact ⟨hk', by rw [List.getElem_range]⟩

theorem boxCentres_length (lo d : Rat) (a b : Nat) : (boxCentres lo d a b).length = b - a := by
  unfold boxCentres
  simp

/-- What is in a cell of the grids of a tile is what should be in its pixel. -/
theorem tile_cell_holds {env : Surroundings} {xlo ylo dx dy : Rat} (hdx : 0 < dx) (hdy : 0 < dy) (he : MakesEdges env.edges)
    {a b c d p q : Nat} (hab : a + 2 ≤ b) (hcd : c + 1 ≤ d) (hp2 : 2 ≤ p) (hq2 : 2 ≤ q) {t : Tile}
    (tx : t.xBnd = (xlo + a * dx - p * dx, xlo + b * dx + p * dx))
    (ty : t.yBnd = (ylo + c * dy - q * dy, ylo + d * dy + q * dy))
    (me mg : Option Int) {files : List GFile}
    (hbeside : ∀ x y p i j, Beside x y p i j → env.clip p (cellRect x y j i) = [])
    (hf : ∀ g ∈ files, g.events ≠ [] → CompactFile env.foot env.loc dx dy (p * dx) (q * dy) g)
    {col k : Nat} (hcol : col < b - a) (hkd : c + k < d) {fed fa te ged ga mfa : Rat}
    (hcell : CellsOfFiles (foundClip env.clip env.query (env.edges t.xBnd dx) (env.edges t.yBnd dy)) env.foot
      (env.edges t.xBnd dx) (env.edges t.yBnd dy) { x := some t.xBnd, y := some t.yBnd, minEvents := me, minGroups := mg }
      (files.map fun g => (env.productTime g, g)) (p + col) (q + k) fed fa te ged ga mfa) :
    PixelHolds env.clip env.foot me mg files dx dy (xlo + ((a + col : Nat) + 1/2) * dx) (ylo + ((c + k : Nat) + 1/2) * dy)
      fed fa te ged ga mfa := by
  classical
  have ext : env.edges t.xBnd dx = boxEdges (xlo + a * dx - p * dx) dx (b - a + 2 * p) := by
    rw [tx, padded_edges he hdx (by omega)]
  have eyt : env.edges t.yBnd dy = boxEdges (ylo + c * dy - q * dy) dy (d - c + 2 * q) := by
    rw [ty, padded_edges he hdy (by omega)]
  have hax : AxisOk (env.edges t.xBnd dx) := by rw [ext]; exact boxEdges_axis hdx (by omega)
  have hay : AxisOk (env.edges t.yBnd dy) := by rw [eyt]; exact boxEdges_axis hdy (by omega)
  have hsz : 2 < (env.edges t.xBnd dx).length := by rw [ext, boxEdges_length]; omega
  have ux : Spaced (env.edges t.xBnd dx) dx := by rw [ext]; exact boxEdges_spaced hdx
  have uy : Spaced (env.edges t.yBnd dy) dy := by rw [eyt]; exact boxEdges_spaced hdy
  obtain ⟨X, hX⟩ : ∃ X, X = xlo + ((a + col : Nat) + 1/2) * dx := ⟨_, rfl⟩
  obtain ⟨Y, hY⟩ : ∃ Y, Y = ylo + ((c + k : Nat) + 1/2) * dy := ⟨_, rfl⟩
  rw [← hX, ← hY]
  have gx : ∀ r, r ≤ 1 → (env.edges t.xBnd dx).getD (p + col + r) 0 = xlo + (a + col + r : Nat) * dx := by
    intro r hr
    rw [ext, boxEdges_getD _ _ (by omega)]
    push_cast
    ring
  have gy : ∀ r, r ≤ 1 → (env.edges t.yBnd dy).getD (q + k + r) 0 = ylo + (c + k + r : Nat) * dy := by
    intro r hr
    rw [eyt, boxEdges_getD _ _ (by omega)]
    push_cast
    ring
  have hrect : cellRect (env.edges t.xBnd dx) (env.edges t.yBnd dy) (q + k) (p + col) = pixelAt dx dy X Y := by
    have e0 := gx 0 (by omega)
    have e1 := gx 1 (by omega)
    have e2 := gy 0 (by omega)
    have e3 := gy 1 (by omega)
    simp only [Nat.add_zero] at e0 e2
    rw [cellRect_rect, e0, e1, e2, e3, hX, hY]
    unfold pixelAt
    congr 1 <;> push_cast <;> ring
  have inside : ∀ g ∈ files, ∀ e ∈ g.events,
      foundClip env.clip env.query (env.edges t.xBnd dx) (env.edges t.yBnd dy) (env.foot (placeOf e))
        (cellRect (env.edges t.xBnd dx) (env.edges t.yBnd dy) (q + k) (p + col)) =
      env.clip (env.foot (placeOf e)) (cellRect (env.edges t.xBnd dx) (env.edges t.yBnd dy) (q + k) (p + col)) := by
    intro g hg e hee
    have hc := hf g hg (List.ne_nil_of_mem hee)
    exact found_inside env.query hax hay (Or.inl hsz) ux uy hbeside (hc.narrow e hee)
      (by omega) (by rw [ext, boxEdges_length]; omega) (by omega) (by rw [eyt, boxEdges_length]; omega)
  have hnc : ¬ NoCriteria { x := some t.xBnd, y := some t.yBnd, minEvents := me, minGroups := mg } := by
    intro h
    exact absurd h.2.2.1 (by simp)
  have hpix := cells_direct (clip := env.clip) hcell hrect (by
    intro g hg e hee
    obtain ⟨g, hg', rfl⟩ := List.mem_map.mp hg
    rw [← hrect]
    exact inside g hg' e hee) (by
    intro g hg f hff hfn e hee hfe
    obtain ⟨g, hg', rfl⟩ := List.mem_map.mp hg
    by_contra hne
    apply hfn
    have hnb : ¬ Beside (env.edges t.xBnd dx) (env.edges t.yBnd dy) (env.foot (placeOf e)) (p + col) (q + k) :=
      fun h => hne (by rw [← hrect]; exact hbeside _ _ _ _ _ h)
    unfold Beside at hnb
    push Not at hnb
    obtain ⟨⟨v1, k1, b1⟩, ⟨v2, k2, b2⟩, ⟨v3, k3, b3⟩, ⟨v4, k4, b4⟩⟩ := hnb
    have hc := hf g hg' (List.ne_nil_of_mem hee)
    unfold askedFor
    rw [if_neg hnc]
    obtain ⟨hf1, hf2⟩ := List.mem_filter.mp hff
    obtain ⟨hm1, hm2⟩ := of_decide_eq_true hf2
    have e0 := gx 0 (by omega)
    have e1 := gx 1 (by omega)
    have e2 := gy 0 (by omega)
    have e3 := gy 1 (by omega)
    simp only [Nat.add_zero] at e0 e2
    rw [e0] at b1
    rw [e1] at b2
    rw [e2] at b3
    rw [e3] at b4
    have near : ∀ {lo dl v w z : Rat} {a b P r : Nat}, 0 < dl → r + 1 ≤ b → a ≤ r → lo + (r : Nat) * dl < v →
        w < lo + (r + 1 : Nat) * dl → |v - z| ≤ P * dl → |w - z| ≤ P * dl →
        lo + a * dl - P * dl < z ∧ z < lo + b * dl + P * dl := by
      intro lo dl v w z a b P r hd hrb har hv hw hvz hwz
      have h1 : ((r + 1 : Nat) : Rat) ≤ b := by exact_mod_cast hrb
      have h2 : (a : Rat) ≤ r := by exact_mod_cast har
      have h3 := mul_le_mul_of_nonneg_right h1 hd.le
      have h4 := mul_le_mul_of_nonneg_right h2 hd.le
      constructor
      · linarith [(abs_le.mp hvz).2]
      · linarith [(abs_le.mp hwz).1]
    have E := hc.event e hee
    have F := hc.flash f hf1 e hee hfe
    have V := hc.view e hee
    refine List.mem_filter.mpr ⟨hf1, decide_eq_true ⟨⟨?_, ?_, ?_, ?_, hm1, hm2⟩, e, hee, hfe,
      ⟨abs_lt.mp V.1, abs_lt.mp V.2, ?_, ?_⟩⟩⟩
    · rintro r hr
      cases hr
    · rintro r hr
      cases hr
    · rintro r hr
      cases hr
      rw [tx]
      exact near hdx (by omega) (by omega) b1 b2 (F v1 k1).1 (F v2 k2).1
    · rintro r hr
      cases hr
      rw [ty]
      exact near hdy hkd (by omega) b3 b4 (F v3 k3).2 (F v4 k4).2
    · rintro r hr
      cases hr
      rw [tx]
      exact near hdx (by omega) (by omega) b1 b2 (E v1 k1).1 (E v2 k2).1
    · rintro r hr
      cases hr
      rw [ty]
      exact near hdy hkd (by omega) b3 b4 (E v3 k3).2 (E v4 k4).2) hnc
  rw [List.map_map, show (Prod.snd ∘ fun g : GFile => (env.productTime g, g)) = id from rfl, List.map_id] at hpix
  exact hpix

/-- The image of a tile: what is read for it can be gridded and written, and the image shows what should be there. -/
theorem tile_image {env : Surroundings} {xlo ylo dx dy : Rat} (hdx : 0 < dx) (hdy : 0 < dy) (he : MakesEdges env.edges)
    {a b c d p q : Nat} (hab : a + 2 ≤ b) (hcd : c + 1 ≤ d) (hp2 : 2 ≤ p) (hq2 : 2 ≤ q) {t : Tile}
    (tx : t.xBnd = (xlo + a * dx - p * dx, xlo + b * dx + p * dx))
    (ty : t.yBnd = (ylo + c * dy - q * dy, ylo + d * dy + q * dy)) (tp : t.pads = ⟨p, q, p * dx, q * dy⟩)
    (me mg : Option Int) {files : List GFile} (hclip : ∀ p q s, s ∈ env.clip p q → s ≠ [])
    (hbeside : ∀ x y p i j, Beside x y p i j → env.clip p (cellRect x y j i) = []) (ho : ∀ l, (env.order l).Perm l)
    (hf : ∀ g ∈ files, g.events ≠ [] → CompactFile env.foot env.loc dx dy (p * dx) (q * dy) g)
    (hcen : ∀ g ∈ files, ∀ e ∈ g.events, CentredAt env.clip env.foot dx dy (placeOf e)) :
    ∃ fakes,
      readFiles env.clip env.query (fun pts => pts.map env.foot) (gridMesh (env.edges t.xBnd dx) (env.edges t.yBnd dy))
        env.basedate env.loc env.order { x := some t.xBnd, y := some t.yBnd, minEvents := me, minGroups := mg } 20000
        (files.map fun g => (env.productTime g, g)) = .ok fakes ∧
      ∀ out scale, ∃ f, lutImages env ⟨env.edges t.xBnd dx, env.edges t.yBnd dy, fakes⟩ out
          (.slices (getPadSlices t.pads).1 (getPadSlices t.pads).2) scale = .ok [f] ∧
        ImageShows env.clip env.foot me mg files dx dy (scale != .bool false) env.frame (boxCentres xlo dx a b)
          (boxCentres ylo dy c d) f := by
  classical
  have ext : env.edges t.xBnd dx = boxEdges (xlo + a * dx - p * dx) dx (b - a + 2 * p) := by
    rw [tx, padded_edges he hdx (by omega)]
  have eyt : env.edges t.yBnd dy = boxEdges (ylo + c * dy - q * dy) dy (d - c + 2 * q) := by
    rw [ty, padded_edges he hdy (by omega)]
  have hax : AxisOk (env.edges t.xBnd dx) := by rw [ext]; exact boxEdges_axis hdx (by omega)
  have hay : AxisOk (env.edges t.yBnd dy) := by rw [eyt]; exact boxEdges_axis hdy (by omega)
  have hsz : 2 < (env.edges t.xBnd dx).length := by rw [ext, boxEdges_length]; omega
  have ux : Spaced (env.edges t.xBnd dx) dx := by rw [ext]; exact boxEdges_spaced hdx
  have uy : Spaced (env.edges t.yBnd dy) dy := by rw [eyt]; exact boxEdges_spaced hdy
  have x0 : (env.edges t.xBnd dx).getD 0 0 = t.xBnd.1 := by
    rw [ext, boxEdges_getD _ _ (by omega), tx]
    push_cast
    ring
  have y0 : (env.edges t.yBnd dy).getD 0 0 = t.yBnd.1 := by
    rw [eyt, boxEdges_getD _ _ (by omega), ty]
    push_cast
    ring
  have x1 : (env.edges t.xBnd dx).getD ((env.edges t.xBnd dx).length - 1) 0 = t.xBnd.2 := by
    rw [ext, boxEdges_length, boxEdges_getD _ _ (by omega), tx]
    rw [show b - a + 2 * p + 1 - 1 = b - a + 2 * p by omega]
    push_cast [Nat.cast_sub (show a ≤ b by omega)]
    ring
  have y1 : (env.edges t.yBnd dy).getD ((env.edges t.yBnd dy).length - 1) 0 = t.yBnd.2 := by
    rw [eyt, boxEdges_length, boxEdges_getD _ _ (by omega), ty]
    rw [show d - c + 2 * q + 1 - 1 = d - c + 2 * q by omega]
    push_cast [Nat.cast_sub (show c ≤ d by omega)]
    ring
  have hf' : ∀ g ∈ files.map fun g => (env.productTime g, g), g.2.events ≠ [] →
      CompactFile env.foot env.loc dx dy (p * dx) (q * dy) g.2 := by
    intro g hg
    obtain ⟨g, hg', rfl⟩ := List.mem_map.mp hg
    exact hf g hg'
  obtain ⟨grid, ⟨fakes, outgrids, grids, h1, h2, h3, h4⟩, -, hv⟩ := tile_gridded (t := t)
    (rest := { minEvents := me, minGroups := mg }) (query := env.query) env.basedate
    (env.points (env.edges t.xBnd dx) (env.edges t.yBnd dy)) env.label (fun k f => env.keep (f.parentsFor k)) hclip ho
    (n := 20000) (by omega) hax hay hsz hf' (by
      intro g hg hne
      have hc := hf' g hg hne
      obtain ⟨g, hg', rfl⟩ := List.mem_map.mp hg
      exact chunks_on_grid ho (by omega) hax hay hsz ux uy x0 x1 y0 y1 hc fun e hee => hcen g hg' e hee)
  refine ⟨fakes, h1, ?_⟩
  intro out scale
  obtain ⟨f, f1, f2, f3, f4, f5, f6, f7, f8⟩ := lut_image hdx hdy he hab hcd tx ty tp h2 h3 h4 out scale
  refine ⟨f, f1, f2, f3, f4, f5, f6, ?_, ?_⟩
  · intro img hi
    rw [boxCentres_length, boxCentres_length]
    exact f7 img hi
  · intro row col X Y hX hY
    rw [show f.x = boxCentres xlo dx a b from f4] at hX
    rw [show f.y = (boxCentres ylo dy c d).reverse from f5] at hY
    obtain ⟨hcol, hX⟩ := boxCentres_get hX
    have hrow : row < d - c := by
      obtain ⟨hr, -⟩ := List.getElem?_eq_some_iff.mp hY
      rwa [List.length_reverse, boxCentres_length] at hr
    rw [List.getElem?_reverse (by rw [boxCentres_length]; exact hrow), boxCentres_length] at hY
    obtain ⟨-, hY⟩ := boxCentres_get hY
    obtain ⟨k, hk⟩ : ∃ k, k = d - c - 1 - row := ⟨_, rfl⟩
    rw [← hk] at hY
    have hkd : c + k < d := by omega
    have f8 := f8 row col hrow hcol
    rw [show q + (d - c) - 1 - row = q + k by omega] at f8
    have hcell := hv (p + col) (q + k) (by rw [ext, boxEdges_length]; omega) (by rw [eyt, boxEdges_length]; omega)
    exact ⟨_, _, _, _, _, _, by
      rw [hX, hY]
      exact tile_cell_holds hdx hdy he hab hcd hp2 hq2 tx ty me mg hbeside hf hcol hkd hcell,
      fun name img v him hv => f8 name img him v hv⟩

/-! ## Whole calls -/

/-- What a call for the fixed grid is given: a domain of `M` by `N` boxes in `s` by `s` tiles, the thresholds, and the
options without which there is no result (C72). -/
structure FixedGridAsked (kw : Dict) (xlo ylo dx dy : Rat) (M N s : Nat) (me mg : Option Int) : Prop where
  proj : ∃ p, kw.get "proj_name" = .ok p
  fixed : FixedGridCall kw
  xBox : kw.get "dx" = .ok (.num dx)
  yBox : kw.get "dy" = .ok (.num dy)
  x : kw.get "x_bnd" = .ok (.bnd xlo (xlo + M * dx))
  y : kw.get "y_bnd" = .ok (.bnd ylo (ylo + N * dy))
  subdivide : kw.get "subdivide" = .ok (.nat s) ∨ kw.get "subdivide" = .error .keyError ∧ s = 1
  given : ∀ k ∈ ["clip_events", "ellipse_rev", "nadir_lon", "output_filename_prefix", "output_writer"], kw.has k = true
  minEvents : LeastIs (kw.get "min_points_per_flash") me
  minGroups : LeastIs (kw.get "min_groups_per_flash") mg

theorem procEachGrid_exists {σ ι : Type} {G : Gridder σ ι} {files : List GFile} {shared : Dict} {g : Subgrid} {rev : Val}
    {s : σ} {p : Pads × Val} (h1 : g.proc.get "ellipse_rev" = .ok rev) (h2 : g.proc.has "clip_events" = true)
    (h3 : processFiles G rev (tileProc g) (G.init g.kwargs, false) files = .ok (s, true)) (hpre : g.preprocess = some p)
    (h4 : ∀ scale, ∃ w, G.write s g.out (.slices (getPadSlices p.1).1 (getPadSlices p.1).2) scale = .ok w) :
    ∃ r sh, procEachGrid G files shared g = .ok (r, sh) ∧ r.state = s := by
  unfold procEachGrid
  have hl : (g.proc.del "ellipse_rev").has "clip_events" = true := by
    rw [← h2]; exact Dict.has_congr (Dict.get_del_ne _ (by decide))
  rw [h1]
  unfold tileProc at h3
  have hlut : ∃ o, lutPipelineSetup = .ok o := ⟨_, rfl⟩
  obtain ⟨o, ho⟩ := hlut
  simp only [bind, Except.bind, hl, if_true, ho, h3, hpre]
  obtain ⟨o', e1, -⟩ := writeGrids_ok G s g.out
    ((if g.out.has "output_kwargs" = true then shared else []).put "pad"
      (.slices (getPadSlices p.1).1 (getPadSlices p.1).2))
  obtain ⟨w, hw⟩ := h4 (optionOr ((if g.out.has "output_kwargs" = true then shared else []).put "pad"
      (.slices (getPadSlices p.1).1 (getPadSlices p.1).2)) "scale_and_offset" (.bool true))
  rw [show optionOr ((if g.out.has "output_kwargs" = true then shared else []).put "pad"
      (.slices (getPadSlices p.1).1 (getPadSlices p.1).2)) "pad" .none =
        .slices (getPadSlices p.1).1 (getPadSlices p.1).2 from optionOr_ok (Dict.get_put_same _ _ _)] at e1
  simp only [e1]
  rw [hw]
  exact ⟨_, _, rfl, rfl⟩

theorem procAll_each {σ ι : Type} {G : Gridder σ ι} {files : List GFile} {P : Subgrid → TileRun σ ι → Prop}
    {gs : List Subgrid} (h : ∀ g ∈ gs, ∀ sh, ∃ r sh', procEachGrid G files sh g = .ok (r, sh') ∧ P g r) :
    ∀ shared, ∃ runs sh', procAll G files shared gs = .ok (runs, sh') ∧ List.Forall₂ P gs runs := by
  induction gs with
  | nil => exact fun shared => ⟨_, _, rfl, List.Forall₂.nil⟩
  | cons g rest ih =>
    intro shared
    obtain ⟨r, sh, h1, hr⟩ := h g List.mem_cons_self shared
    obtain ⟨runs, sh', h2, hrs⟩ := ih (fun g hg => h g (List.mem_cons_of_mem _ hg)) sh
    refine ⟨r :: runs, sh', ?_, .cons hr hrs⟩
    rw [procAll, h1]
    simp only [bind, Except.bind, h2]
    rfl

theorem leastIs_unique {v : Except Err Val} {m m' : Option Int} (h : LeastIs v m) (h' : LeastIs v m') : m = m' := by
  rcases h with ⟨n, rfl, rfl⟩ | ⟨rfl | rfl, rfl⟩ <;> rcases h' with ⟨n', hn, rfl⟩ | ⟨hn | hn, rfl⟩ <;> cases hn <;> rfl

/-- A tile has at least as many boxes as fit `s` times into the domain. -/
theorem tileStart_step (N s i : Nat) (hi : i < s) : tileStart N s i + N / s ≤ tileStart N s (i + 1) := by
  unfold tileStart
  rw [if_pos hi]
  have e : i * (N / s) + N / s = (i + 1) * (N / s) := by ring
  split
  · rw [e]
  · rw [e]
    exact le_trans (Nat.mul_le_mul_right _ (by omega : i + 1 ≤ s)) (Nat.mul_div_le N s)

/-- Every box of an axis is in a tile. -/
theorem box_in_tile (N s m : Nat) (hs : 0 < s) (hm : m < N) :
    ∃ i, i < s ∧ tileStart N s i ≤ m ∧ m < tileStart N s (i + 1) := by
  have key : ∀ k, k ≤ s → m < tileStart N s k → ∃ i, i < k ∧ tileStart N s i ≤ m ∧ m < tileStart N s (i + 1) := by
    intro k
    induction k with
    | zero =>
      intro _ h
      unfold tileStart at h
      rw [if_pos hs] at h
      omega
    | succ k ih =>
      intro hk h
      by_cases h' : m < tileStart N s k
      · obtain ⟨i, hi, hh⟩ := ih (by omega) h'
        exact ⟨i, by omega, hh⟩
      · exact ⟨k, by omega, by omega, h⟩
  exact key s (le_refl s) (by unfold tileStart; rw [if_neg (lt_irrefl s)]; exact hm)

/-- The run of a tile. -/
theorem processFiles_congr {σ ι κ : Type} {G : Gridder σ ι} {H : Gridder σ κ} (ho : G.openFile = H.openFile)
    (hp : G.process = H.process) (rev : Val) (proc : Dict) (files : List GFile) (s : σ × Bool) :
    processFiles G rev proc s files = processFiles H rev proc s files := by
  induction files generalizing s with
  | nil => rfl
  | cons f fs ih =>
    rw [processFiles, processFiles, ho, hp]
    simp only [ih]

/-- What is written for any tile of a domain, with any padding. -/
def TilesWrittenAny (env : Surroundings) {ι : Type} (G : Gridder TileState ι) (xlo ylo dx dy : Rat) (me mg : Option Int)
    (opened : List GFile) (P : Bool → List Rat → List Rat → List (String × ι) → Prop) : Prop :=
  ∀ (t : Tile) (a b c d p q : Nat), a + 2 ≤ b → c + 1 ≤ d →
    p = padBoxes (28 / 10000) dx → q = padBoxes (28 / 10000) dy →
    t.xBnd = (xlo + a * dx - p * dx, xlo + b * dx + p * dx) → t.yBnd = (ylo + c * dy - q * dy, ylo + d * dy + q * dy) →
    t.pads = ⟨p, q, p * dx, q * dy⟩ → ∃ fakes,
      readFiles env.clip env.query (fun pts => pts.map env.foot) (gridMesh (env.edges t.xBnd dx) (env.edges t.yBnd dy))
        env.basedate env.loc env.order { x := some t.xBnd, y := some t.yBnd, minEvents := me, minGroups := mg } 20000
        (opened.map fun g => (env.productTime g, g)) = .ok fakes ∧
      ∀ out scale, ∃ w, G.write ⟨env.edges t.xBnd dx, env.edges t.yBnd dy, fakes⟩ out
          (.slices (getPadSlices t.pads).1 (getPadSlices t.pads).2) scale = .ok w ∧
        P (scale != .bool false) (boxCentres xlo dx a b) (boxCentres ylo dy c d) w

/-- What is written for any tile of a domain. -/
def TilesWritten (env : Surroundings) {ι : Type} (G : Gridder TileState ι) (xlo ylo dx dy : Rat) (me mg : Option Int)
    (opened : List GFile) (P : Bool → List Rat → List Rat → List (String × ι) → Prop) : Prop :=
  ∀ (t : Tile) (a b c d p q : Nat), a + 2 ≤ b → c + 1 ≤ d → 2 ≤ p → 2 ≤ q →
    p = padBoxes (28 / 10000) dx → q = padBoxes (28 / 10000) dy →
    t.xBnd = (xlo + a * dx - p * dx, xlo + b * dx + p * dx) → t.yBnd = (ylo + c * dy - q * dy, ylo + d * dy + q * dy) →
    t.pads = ⟨p, q, p * dx, q * dy⟩ → ∃ fakes,
      readFiles env.clip env.query (fun pts => pts.map env.foot) (gridMesh (env.edges t.xBnd dx) (env.edges t.yBnd dy))
        env.basedate env.loc env.order { x := some t.xBnd, y := some t.yBnd, minEvents := me, minGroups := mg } 20000
        (opened.map fun g => (env.productTime g, g)) = .ok fakes ∧
      ∀ out scale, ∃ w, G.write ⟨env.edges t.xBnd dx, env.edges t.yBnd dy, fakes⟩ out
          (.slices (getPadSlices t.pads).1 (getPadSlices t.pads).2) scale = .ok w ∧
        P (scale != .bool false) (boxCentres xlo dx a b) (boxCentres ylo dy c d) w

theorem tile_run {env : Surroundings} {ι : Type} {G : Gridder TileState ι} (hGi : G.init = (lutGridder env).init)
    (hGo : G.openFile = env.openFile) (hGp : G.process = lutProcess env)
    {P : Bool → List Rat → List Rat → List (String × ι) → Prop}
    {kw : Dict} {xlo ylo dx dy : Rat} {M N s : Nat} {me mg : Option Int}
    {files opened : List GFile} (hkw : FixedGridAsked kw xlo ylo dx dy M N s me mg) (hdx : 0 < dx) (hdy : 0 < dy)
    (hs : 0 < s) (hM : 2 * s ≤ M) (hN : s ≤ N)
    {rev : Val} (hrev : kw.get "ellipse_rev" = .ok rev)
    (hopen : List.Forall₂ (fun f d => env.openFile rev f = .ok d) files opened) (hsome : ∃ d ∈ opened, d.events ≠ [])
    (himg : TilesWrittenAny env G xlo ylo dx dy me mg opened P)
    {gs : List Subgrid} (hgs : subgridsFor (splitKwargs kw) = .ok gs) {tiles : List Tile}
    (htiles : subdividedFixedGrid (xlo, xlo + M * dx) (ylo, ylo + N * dy) dx dy s defaultPad defaultPad = .ok tiles)
    {g : Subgrid} (hg : g ∈ gs) {t : Tile} (ht : t ∈ tiles)
    (hto : tileOptions (splitKwargs kw).kwargs (splitKwargs kw).proc (splitKwargs kw).out t = .ok g) (sh : Dict) :
    ∃ r sh', procEachGrid G files sh g = .ok (r, sh') ∧ r.ij = g.ij ∧
      P (r.scale != .bool false) (boxCentres xlo dx (tileStart M s g.ij.1) (tileStart M s (g.ij.1 + 1)))
          (boxCentres ylo dy (tileStart N s g.ij.2) (tileStart N s (g.ij.2 + 1))) r.written := by
  have hpv : defaultPad = 28 / 10000 := by norm_num [defaultPad]
  have hp0 : (0 : Rat) ≤ defaultPad := by norm_num [defaultPad]
  have clipEvents : kw.has "clip_events" = true := hkw.given _ (by simp)
  have kdx := (split_kwargs kw "dx" (by decide) (by decide) (by decide) (by decide) (by decide)).trans hkw.xBox
  have kdy := (split_kwargs kw "dy" (by decide) (by decide) (by decide) (by decide) (by decide)).trans hkw.yBox
  obtain ⟨w, wpre⟩ : ∃ w, g.preprocess = some (t.pads, w) ∧
      g.kwargs = ((splitKwargs kw).kwargs.put "x_bnd" (.bnd t.xBnd.1 t.xBnd.2)).put "y_bnd" (.bnd t.yBnd.1 t.yBnd.2) := by
    have hto := hto
    unfold tileOptions at hto
    obtain ⟨_, -, hto⟩ := bind_ok hto
    obtain ⟨w, -, hto⟩ := bind_ok hto
    cases hto
    exact ⟨w, rfl, rfl⟩
  obtain ⟨wpre, wkw⟩ := wpre
  obtain ⟨-, gproc, -, gij⟩ := tileOptions_ok hto
  obtain ⟨bx, by', blon, blat, -⟩ := tileOptions_bounds hto
  obtain ⟨-, gclip, grev, -, -⟩ := subgrids_common hgs g hg
  -- the criteria
  obtain ⟨c, hc, hca⟩ := C110_understood hgs hg ⟨_, hkw.minEvents⟩ ⟨_, hkw.minGroups⟩ fun h => absurd h hkw.fixed.1
  obtain ⟨cx, cy, -, -, -, -⟩ := processCriteria_ok hc
  rw [argOf_congr (tileProc_get g (by decide) (by decide))] at cx cy
  rw [argOf_ok bx] at cx
  rw [argOf_ok by'] at cy
  obtain ⟨clon, clat, -⟩ := hca.fixedGrid hkw.fixed
  have hcc : c = { x := some t.xBnd, y := some t.yBnd, minEvents := me, minGroups := mg } := by
    obtain ⟨lon, lat, x, y, e, gr⟩ := c
    simp only at clon clat cx cy
    have ce := leastIs_unique hca.minEvents hkw.minEvents
    have cg := leastIs_unique hca.minGroups hkw.minGroups
    simp only at ce cg
    rw [asRange_bnd cx rfl, asRange_bnd cy rfl, clon, clat, ce, cg]
  subst hcc
  -- the tile
  obtain ⟨i1, i2, tx, ty, tp⟩ := tile_shape hs hdx hdy hp0 hp0 htiles ht
  have sx := tileStart_step M s _ i1
  have sy := tileStart_step N s _ i2
  have mx : 2 ≤ M / s := (Nat.le_div_iff_mul_le hs).mpr hM
  have my : 1 ≤ N / s := (Nat.le_div_iff_mul_le hs).mpr (by omega)
  obtain ⟨fakes, hread, himg⟩ := himg t _ _ _ _ _ _ (by omega) (by omega) (by rw [hpv]) (by rw [hpv]) tx ty tp
  have hinit : (lutGridder env).init g.kwargs = ⟨env.edges t.xBnd dx, env.edges t.yBnd dy, []⟩ := by
    show TileState.mk (gridderEdges env.edges g.kwargs "x_bnd" "dx") (gridderEdges env.edges g.kwargs "y_bnd" "dy") [] = _
    have a1 : argOf g.kwargs "x_bnd" = .bnd t.xBnd.1 t.xBnd.2 :=
      argOf_ok (by rw [wkw, Dict.get_put_ne _ _ (by decide), Dict.get_put_same])
    have a2 : argOf g.kwargs "y_bnd" = .bnd t.yBnd.1 t.yBnd.2 := argOf_ok (by rw [wkw, Dict.get_put_same])
    have a3 : argOf g.kwargs "dx" = .num dx :=
      argOf_ok (by rw [wkw, Dict.get_put_ne _ _ (by decide), Dict.get_put_ne _ _ (by decide), kdx])
    have a4 : argOf g.kwargs "dy" = .num dy :=
      argOf_ok (by rw [wkw, Dict.get_put_ne _ _ (by decide), Dict.get_put_ne _ _ (by decide), kdy])
    unfold gridderEdges
    rw [a1, a2, a3, a4]
    rfl
  have hproc := lut_processFiles hc hopen ⟨env.edges t.xBnd dx, env.edges t.yBnd dy, []⟩ false fakes hread
  have hany : (opened.any fun d => decide (d.events ≠ [])) = true := by
    obtain ⟨d, hd, hne⟩ := hsome
    exact List.any_eq_true.mpr ⟨d, hd, decide_eq_true hne⟩
  rw [hany, Bool.or_true, List.nil_append] at hproc
  have hproc : processFiles G rev (tileProc g) (G.init g.kwargs, false) files =
      .ok (⟨env.edges t.xBnd dx, env.edges t.yBnd dy, fakes⟩, true) := by
    rw [hGi, hinit, processFiles_congr (H := lutGridder env) hGo hGp]
    exact hproc
  obtain ⟨r, sh', hr, hst⟩ := procEachGrid_exists (shared := sh) (grev.trans hrev) (gclip.trans clipEvents) hproc wpre (by
    intro scale
    obtain ⟨w, hw, -⟩ := himg g.out scale
    exact ⟨w, hw⟩)
  obtain ⟨r1, -, -, -, r5, -, r7, -⟩ := procEachGrid_ok hr
  refine ⟨r, sh', hr, r1, ?_⟩
  obtain ⟨f, hf, hsh⟩ := himg g.out r.scale
  rw [wpre] at r5
  rw [hst, r5] at r7
  rw [gij, ← Except.ok.inj (hf.symm.trans r7)]
  exact hsh

theorem map_eq_of_forall₂ {α β γ : Type} {R : α → β → Prop} {l : List α} {l' : List β} {f : β → γ} {g : α → γ}
    (h : List.Forall₂ R l l') (hR : ∀ a b, R a b → f b = g a) : l'.map f = l.map g := by
  induction h with
  | nil => rfl
  | cons h _ ih => rw [List.map_cons, List.map_cons, ih, hR _ _ h]

theorem tiles_ij {xBnd yBnd : Rat × Rat} {dx dy xPad yPad : Rat} {s : Nat} {tiles : List Tile}
    (h : subdividedFixedGrid xBnd yBnd dx dy s xPad yPad = .ok tiles) :
    (tiles.map fun t => t.ij) = (List.range s).flatMap fun i => (List.range s).map fun j => (i, j) := by
  unfold subdividedFixedGrid at h
  obtain ⟨_, -, h⟩ := bind_ok h
  obtain ⟨_, -, h⟩ := bind_ok h
  obtain ⟨_, -, h⟩ := bind_ok h
  cases h
  simp only [List.map_flatMap, List.map_map, Function.comp_def]

/-- The runs of a call for the fixed grid, for any way of writing the images and boxes of any size. -/
theorem call_runs_any {env : Surroundings} {ι : Type} {G : Gridder TileState ι} (hGi : G.init = (lutGridder env).init)
    (hGo : G.openFile = env.openFile) (hGp : G.process = lutProcess env)
    {P : Bool → List Rat → List Rat → List (String × ι) → Prop} {kw : Dict} (shared : Dict) {xlo ylo dx dy : Rat}
    {M N s : Nat} {me mg : Option Int}
    {files opened : List GFile} (hkw : FixedGridAsked kw xlo ylo dx dy M N s me mg) (hdx : 0 < dx) (hdy : 0 < dy)
    (hs : 0 < s) (hM : 2 * s ≤ M) (hN : s ≤ N)
    (hopen : ∀ rev, kw.get "ellipse_rev" = .ok rev → List.Forall₂ (fun f d => env.openFile rev f = .ok d) files opened)
    (hsome : ∃ d ∈ opened, d.events ≠ []) (himg : TilesWrittenAny env G xlo ylo dx dy me mg opened P) :
    ∃ runs shared', gridGlmFlashes G files kw shared = .ok (runs, shared') ∧
      (runs.map fun r => r.ij) = ((List.range s).flatMap fun i => (List.range s).map fun j => (i, j)) ∧
      (∀ r ∈ runs, P (r.scale != .bool false)
          (boxCentres xlo dx (tileStart M s r.ij.1) (tileStart M s (r.ij.1 + 1)))
          (boxCentres ylo dy (tileStart N s r.ij.2) (tileStart N s (r.ij.2 + 1))) r.written) ∧
      ∀ m n, m < M → n < N → ∃ r ∈ runs,
        xlo + (m + 1/2) * dx ∈ boxCentres xlo dx (tileStart M s r.ij.1) (tileStart M s (r.ij.1 + 1)) ∧
        ylo + (n + 1/2) * dy ∈ boxCentres ylo dy (tileStart N s r.ij.2) (tileStart N s (r.ij.2 + 1)) := by
  obtain ⟨-, rev, nadir, pre, writer⟩ : kw.has "clip_events" = true ∧ kw.has "ellipse_rev" = true ∧
      kw.has "nadir_lon" = true ∧ kw.has "output_filename_prefix" = true ∧ kw.has "output_writer" = true :=
    ⟨hkw.given _ (by simp), hkw.given _ (by simp), hkw.given _ (by simp), hkw.given _ (by simp), hkw.given _ (by simp)⟩
  obtain ⟨rev, hrev⟩ := (Dict.has_iff _ _).mp rev
  have hopen := hopen rev hrev
  -- the tiles
  obtain ⟨gs, hgs⟩ := (subgrids_exists (kw := kw) ⟨hkw.proj, ⟨_, _, hkw.x⟩, ⟨_, _, hkw.y⟩, ⟨_, hkw.xBox, hdx.ne'⟩,
    ⟨_, hkw.yBox, hdy.ne'⟩, by
      rcases hkw.subdivide with h | ⟨h, -⟩
      · exact Or.inr ⟨s, h, hs⟩
      · exact Or.inl h⟩).mpr fun _ => ⟨nadir, pre, writer⟩
  have hk : ∀ k, k ∉ procKeys → k ∉ outKeys → k ≠ "do_3d" → k ≠ "subdivide" →
      k ≠ "event_grid_area_fraction_key" → (splitKwargs kw).kwargs.get k = kw.get k :=
    fun k a b c d e => split_kwargs kw k a b c d e
  have kx := (hk "x_bnd" (by decide) (by decide) (by decide) (by decide) (by decide)).trans hkw.x
  have ky := (hk "y_bnd" (by decide) (by decide) (by decide) (by decide) (by decide)).trans hkw.y
  have kdx := (hk "dx" (by decide) (by decide) (by decide) (by decide) (by decide)).trans hkw.xBox
  have kdy := (hk "dy" (by decide) (by decide) (by decide) (by decide) (by decide)).trans hkw.yBox
  have hsub : subdividedOptions (splitKwargs kw).kwargs (splitKwargs kw).proc (splitKwargs kw).out s = .ok gs := by
    obtain ⟨pn, hpn⟩ := hkw.proj
    have hpn' := (hk "proj_name" (by decide) (by decide) (by decide) (by decide) (by decide)).trans hpn
    have hfx : (splitKwargs kw).proc.has "fixed_grid" = true :=
      (Dict.has_congr (split_proc kw _ (by decide))).trans hkw.fixed.2
    have hss : (splitKwargs kw).subdivide = .nat s := by
      rw [split_subdivide]
      rcases hkw.subdivide with h | ⟨h, rfl⟩
      · exact optionOr_ok h
      · exact optionOr_error h
    unfold subgridsFor at hgs
    rw [hpn'] at hgs
    simp only [bind, Except.bind] at hgs
    rw [if_neg (by rintro rfl; exact hkw.fixed.1 hpn), hfx, if_pos rfl, hss] at hgs
    exact hgs
  obtain ⟨tiles, htiles, hall⟩ : ∃ tiles, subdividedFixedGrid (xlo, xlo + M * dx) (ylo, ylo + N * dy) dx dy s defaultPad
      defaultPad = .ok tiles ∧ tiles.mapM (tileOptions (splitKwargs kw).kwargs (splitKwargs kw).proc (splitKwargs kw).out) =
        .ok gs := by
    unfold subdividedOptions at hsub
    simp only [kx, ky, kdx, kdy, bind, Except.bind, Val.asNum, Val.asBnd] at hsub
    cases ht : subdividedFixedGrid (xlo, xlo + M * dx) (ylo, ylo + N * dy) dx dy s defaultPad defaultPad with
    | error e => rw [ht] at hsub; cases hsub
    | ok tiles =>
      rw [ht] at hsub
      simp only at hsub
      split at hsub
      · cases hsub
      · exact ⟨tiles, rfl, hsub⟩
  have hall := mapM_ok_forall₂ hall
  have hij := tiles_ij htiles
  -- the runs
  obtain ⟨runs, shared', hruns, hshow⟩ := procAll_each (G := G) (files := files) (P := fun g r => r.ij = g.ij ∧
      P (r.scale != .bool false) (boxCentres xlo dx (tileStart M s g.ij.1) (tileStart M s (g.ij.1 + 1)))
          (boxCentres ylo dy (tileStart N s g.ij.2) (tileStart N s (g.ij.2 + 1))) r.written) (gs := gs) (by
    intro g hg sh
    obtain ⟨t, ht, hto⟩ := mem_of_forall₂_right hall hg
    exact tile_run hGi hGo hGp hkw hdx hdy hs hM hN hrev hopen hsome himg hgs htiles hg ht hto sh) shared
  refine ⟨runs, shared', ?_, ?_, ?_, ?_⟩
  · unfold gridGlmFlashes
    rw [hgs]
    exact hruns
  · rw [← hij]
    rw [map_eq_of_forall₂ (g := fun g : Subgrid => g.ij) hshow fun _ _ h => h.1]
    exact map_eq_of_forall₂ hall fun _ _ h => (tileOptions_ok h).2.2.2
  · intro r hr
    obtain ⟨g, -, h1, h3⟩ := mem_of_forall₂_right hshow hr
    rw [← h1] at h3
    exact h3
  · intro m n hm hn
    obtain ⟨i, hi, hi1, hi2⟩ := box_in_tile M s m hs hm
    obtain ⟨j, hj, hj1, hj2⟩ := box_in_tile N s n hs hn
    have hmem : (i, j) ∈ tiles.map fun t => t.ij := by
      rw [hij]
      exact List.mem_flatMap.mpr ⟨i, List.mem_range.mpr hi, List.mem_map.mpr ⟨j, List.mem_range.mpr hj, rfl⟩⟩
    obtain ⟨t, ht, htij⟩ := List.mem_map.mp hmem
    obtain ⟨g, hg, hgt⟩ := mem_of_forall₂_left hall ht
    obtain ⟨r, hr, h1, -⟩ := mem_of_forall₂_left hshow hg
    have hrij : r.ij = (i, j) := by rw [h1, (tileOptions_ok hgt).2.2.2, htij]
    refine ⟨r, hr, ?_, ?_⟩
    · rw [hrij]
      refine List.mem_map.mpr ⟨m - tileStart M s i, List.mem_range.mpr (by simp only; omega), ?_⟩
      simp only
      rw [Nat.add_sub_cancel' hi1]
    · rw [hrij]
      refine List.mem_map.mpr ⟨n - tileStart N s j, List.mem_range.mpr (by simp only; omega), ?_⟩
      simp only
      rw [Nat.add_sub_cancel' hj1]

/-- If boxes are at most half as large as the padding, there are at least two boxes of padding. -/
theorem two_boxes {d : Rat} (hd : 0 < d) (h : 2 * d ≤ 28 / 10000) : 2 ≤ padBoxes (28 / 10000) d := by
  have : (2 : Int) ≤ ⌊28 / 10000 / d⌋ := Int.le_floor.mpr (by rw [le_div_iff₀ hd]; exact_mod_cast h)
  unfold padBoxes
  omega

/-- The runs of a call for the fixed grid, for any way of writing the images. -/
theorem call_runs {env : Surroundings} {ι : Type} {G : Gridder TileState ι} (hGi : G.init = (lutGridder env).init)
    (hGo : G.openFile = env.openFile) (hGp : G.process = lutProcess env)
    {P : Bool → List Rat → List Rat → List (String × ι) → Prop} {kw : Dict} (shared : Dict) {xlo ylo dx dy : Rat}
    {M N s : Nat} {me mg : Option Int}
    {files opened : List GFile} (hkw : FixedGridAsked kw xlo ylo dx dy M N s me mg) (hdx : 0 < dx) (hdy : 0 < dy)
    (hs : 0 < s) (hM : 2 * s ≤ M) (hN : s ≤ N) (hpx : 2 * dx ≤ 28 / 10000) (hpy : 2 * dy ≤ 28 / 10000)
    (hopen : ∀ rev, kw.get "ellipse_rev" = .ok rev → List.Forall₂ (fun f d => env.openFile rev f = .ok d) files opened)
    (hsome : ∃ d ∈ opened, d.events ≠ []) (himg : TilesWritten env G xlo ylo dx dy me mg opened P) :
    ∃ runs shared', gridGlmFlashes G files kw shared = .ok (runs, shared') ∧
      (runs.map fun r => r.ij) = ((List.range s).flatMap fun i => (List.range s).map fun j => (i, j)) ∧
      (∀ r ∈ runs, P (r.scale != .bool false)
          (boxCentres xlo dx (tileStart M s r.ij.1) (tileStart M s (r.ij.1 + 1)))
          (boxCentres ylo dy (tileStart N s r.ij.2) (tileStart N s (r.ij.2 + 1))) r.written) ∧
      ∀ m n, m < M → n < N → ∃ r ∈ runs,
        xlo + (m + 1/2) * dx ∈ boxCentres xlo dx (tileStart M s r.ij.1) (tileStart M s (r.ij.1 + 1)) ∧
        ylo + (n + 1/2) * dy ∈ boxCentres ylo dy (tileStart N s r.ij.2) (tileStart N s (r.ij.2 + 1)) :=
  call_runs_any hGi hGo hGp shared hkw hdx hdy hs hM hN hopen hsome fun t a b c d p q hab hcd hp hq =>
    himg t a b c d p q hab hcd (by rw [hp]; exact two_boxes hdx hpx) (by rw [hq]; exact two_boxes hdy hpy) hp hq

/-- **C137**.  A call for the fixed grid with the lookup table gridder, from its options and its files to the pixels of its
images.  The files can be opened, at least one has events, and footprints are centred on their events and compact.  Then the
call succeeds; there is one run for each tile, each run writes one image file with the pixels of its tile, and every pixel
shows what is there, of the flashes of all files that are large enough.  Every box of the domain is a pixel of one of the
images. -/
theorem C137_end_to_end (env : Surroundings) (kw shared : Dict) (xlo ylo dx dy : Rat) (M N s : Nat) (me mg : Option Int)
    (files opened : List GFile) (hkw : FixedGridAsked kw xlo ylo dx dy M N s me mg) (hdx : 0 < dx) (hdy : 0 < dy)
    (hs : 0 < s) (hM : 2 * s ≤ M) (hN : s ≤ N) (hpx : 2 * dx ≤ 28 / 10000) (hpy : 2 * dy ≤ 28 / 10000)
    (hedges : MakesEdges env.edges) (hclip : ∀ p q s, s ∈ env.clip p q → s ≠ [])
    (hbeside : ∀ x y p i j, Beside x y p i j → env.clip p (cellRect x y j i) = []) (horder : ∀ l, (env.order l).Perm l)
    (hopen : ∀ rev, kw.get "ellipse_rev" = .ok rev → List.Forall₂ (fun f d => env.openFile rev f = .ok d) files opened)
    (hsome : ∃ d ∈ opened, d.events ≠ [])
    (hcompact : ∀ d ∈ opened, d.events ≠ [] →
      CompactFile env.foot env.loc dx dy (padBoxes (28 / 10000) dx * dx) (padBoxes (28 / 10000) dy * dy) d)
    (hcentred : ∀ d ∈ opened, ∀ e ∈ d.events, CentredAt env.clip env.foot dx dy (placeOf e)) :
    ∃ runs shared', gridGlmFlashes (lutGridder env) files kw shared = .ok (runs, shared') ∧
      (runs.map fun r => r.ij) = ((List.range s).flatMap fun i => (List.range s).map fun j => (i, j)) ∧
      (∀ r ∈ runs, ∃ f, r.written = [(f.name, f)] ∧
        ImageShows env.clip env.foot me mg opened dx dy (r.scale != .bool false) env.frame
          (boxCentres xlo dx (tileStart M s r.ij.1) (tileStart M s (r.ij.1 + 1)))
          (boxCentres ylo dy (tileStart N s r.ij.2) (tileStart N s (r.ij.2 + 1))) f) ∧
      ∀ m n, m < M → n < N → ∃ r ∈ runs, ∃ f, r.written = [(f.name, f)] ∧ xlo + (m + 1/2) * dx ∈ f.x ∧
        ylo + (n + 1/2) * dy ∈ f.y := by
  obtain ⟨runs, sh, h1, h2, h3, h4⟩ := call_runs (env := env) (G := lutGridder env)
    (P := fun sc xs ys (w : List (String × ImageFile)) => ∃ f, w = [(f.name, f)] ∧
      ImageShows env.clip env.foot me mg opened dx dy sc env.frame xs ys f) rfl rfl rfl shared hkw hdx hdy hs hM hN hpx hpy
    hopen hsome (by
      intro t a b c d p q hab hcd hp hq ep eq tx ty tp
      subst ep eq
      obtain ⟨fakes, hread, himg⟩ := tile_image (env := env) hdx hdy hedges hab hcd hp hq tx ty tp me mg (files := opened)
        hclip hbeside horder hcompact hcentred
      refine ⟨fakes, hread, fun out scale => ?_⟩
      obtain ⟨f, hf, hsh⟩ := himg out scale
      refine ⟨[(f.name, f)], ?_, f, rfl, hsh⟩
      show (do let files ← lutImages env _ out _ scale; pure (files.map fun (f : ImageFile) => (f.name, f))) = _
      rw [hf]
      rfl)
  refine ⟨runs, sh, h1, h2, h3, ?_⟩
  intro m n hm hn
  obtain ⟨r, hr, hx, hy⟩ := h4 m n hm hn
  obtain ⟨f, hf, hsh⟩ := h3 r hr
  exact ⟨r, hr, f, hf, by rw [hsh.x]; exact hx, by rw [hsh.y, List.mem_reverse]; exact hy⟩

/-! ### Sample -/

/-- Square footprints around their place are centred, for the clipper for rectangles. -/
theorem square_centred {dx dy h : Rat} (hdx : 0 < dx) (hdy : 0 < dy) (hh : 0 < h) (p : Pt) :
    CentredAt rectClip (fun p => rect (p.1 - h) (p.1 + h) (p.2 - h) (p.2 + h)) dx dy p := by
  refine ⟨?_, ?_⟩
  · unfold meanPoint rect
    refine Prod.ext ?_ ?_ <;> simp <;> ring
  · intro a b c d ha hc h1 h2 h3 h4
    unfold partArea rectClip rect
    have c1 : max (p.1 - h) a < min (p.1 + h) b :=
      max_lt (lt_min (by linarith) (by linarith)) (lt_min (by linarith) (by linarith))
    have c2 : max (p.2 - h) c < min (p.2 + h) d :=
      max_lt (lt_min (by linarith) (by linarith)) (lt_min (by linarith) (by linarith))
    simp only
    rw [if_pos ⟨c1, c2⟩]
    have := rect_area (max (p.1 - h) a) (min (p.1 + h) b) (max (p.2 - h) c) (min (p.2 + h) d)
    unfold rect at this
    simp only [List.map_cons, List.map_nil, List.sum_cons, List.sum_nil, add_zero, this]
    exact abs_ne_zero.mpr (mul_ne_zero (by linarith) (by linarith))

/-- A file with a flash in the middle of a domain of four by four boxes of a milliradian, and one outside of the domain that
reaches it. -/
def wholeSample : GFile where
  flashes := [⟨5, 0, { x := 2/1000, y := 2/1000, area := 100, nGroups := 2, nEvents := 2 }⟩,
    ⟨3, 0, { x := 9/2000, y := 7/2000, area := 60, nGroups := 1, nEvents := 2 }⟩]
  groups := [⟨11, 5, { nEvents := 1, area := 40 }⟩, ⟨12, 3, { nEvents := 2, area := 50 }⟩,
    ⟨13, 5, { nEvents := 1, area := 30 }⟩]
  events := [⟨100, 13, { x := 2/1000, y := 2/1000, energy := 2, flashOf := 5 }⟩,
    ⟨101, 11, { x := 3/2000, y := 2/1000, energy := 3, flashOf := 5 }⟩,
    ⟨102, 12, { x := 9/2000, y := 7/2000, energy := 4, flashOf := 3 }⟩,
    ⟨103, 12, { x := 5/1000, y := 7/2000, energy := 5, flashOf := 3 }⟩]

/-- A file without flashes. -/
def noFlashes : GFile := ⟨[], [], []⟩

/-- A count of points like that of lmatools. -/
def countPoints (x y : List Rat) (g : Grid) (l : List LmaParent) : Grid where
  n0 := g.n0
  n1 := g.n1
  val := fun i j => g.val i j + ((l.filter fun r => x.getD i 0 ≤ r.ctrX ∧ r.ctrX < x.getD (i + 1) 0 ∧
    y.getD j 0 ≤ r.ctrY ∧ r.ctrY < y.getD (j + 1) 0).length : Rat)

/-- The surroundings of the sample: files are opened as they are. -/
def wholeEnv : Surroundings where
  clip := rectClip
  query := fun _ _ _ => []
  foot := fun p => rect (p.1 - 3/4000) (p.1 + 3/4000) (p.2 - 3/4000) (p.2 + 3/4000)
  edges := arangeEdges
  basedate := 0
  loc := fun x y => sampleLoc (4000 * x) (4000 * y)
  order := id
  productTime := fun _ => 0
  openFile := fun _ d => .ok d
  points := countPoints
  keep := id
  label := "density"
  table := indexSetup.table
  path := fun _ _ _ _ => "image.nc"
  frame := (0, 60)

/-- A call with two by two tiles, for flashes of two events or more. -/
def wholeCall : Dict :=
  [("proj_name", .str "geos"), ("fixed_grid", .bool true), ("dx", .num (1/1000)), ("dy", .num (1/1000)),
   ("x_bnd", .bnd 0 (4/1000)), ("y_bnd", .bnd 0 (4/1000)), ("subdivide", .nat 2), ("clip_events", .bool true),
   ("ellipse_rev", .nat 1), ("nadir_lon", .num (-75)), ("output_filename_prefix", .str "GLM"),
   ("output_writer", .function "write_cf_netcdf"), ("min_points_per_flash", .nat 2)]

/-- The sample meets the hypotheses of `C137_end_to_end`, with a second file that has no events. -/
example : ∃ runs shared', gridGlmFlashes (lutGridder wholeEnv) [noFlashes, wholeSample] wholeCall [] = .ok (runs, shared') ∧
    (runs.map fun r => r.ij) = [(0, 0), (0, 1), (1, 0), (1, 1)] ∧
    ∀ r ∈ runs, ∃ f, r.written = [(f.name, f)] ∧
      ImageShows rectClip wholeEnv.foot (some 2) none [noFlashes, wholeSample] (1/1000) (1/1000) (r.scale != .bool false) (0, 60)
        (boxCentres 0 (1/1000) (tileStart 4 2 r.ij.1) (tileStart 4 2 (r.ij.1 + 1)))
        (boxCentres 0 (1/1000) (tileStart 4 2 r.ij.2) (tileStart 4 2 (r.ij.2 + 1))) f := by
  have hpads : padBoxes (28 / 10000) (1 / 1000) = 2 := by decide +kernel
  obtain ⟨runs, sh, h1, h2, h3, -⟩ := C137_end_to_end wholeEnv wholeCall [] 0 0 (1/1000) (1/1000) 4 4 2 (some 2) none
    [noFlashes, wholeSample] [noFlashes, wholeSample]
    { proj := ⟨_, rfl⟩
      fixed := ⟨by decide +kernel, by decide +kernel⟩
      xBox := rfl
      yBox := rfl
      x := by decide +kernel
      y := by decide +kernel
      subdivide := Or.inl rfl
      given := by decide +kernel
      minEvents := Or.inl ⟨2, rfl, rfl⟩
      minGroups := Or.inr ⟨Or.inr rfl, rfl⟩ }
    (by norm_num) (by norm_num) (by omega) (by omega) (by omega) (by norm_num) (by norm_num) arange_makesEdges
    (fun p q s => rectClip_ne_nil p q s) (fun x y p i j => rectClip_beside x y p i j) (fun l => List.Perm.refl l)
    (fun rev _ => .cons rfl (.cons rfl .nil)) ⟨wholeSample, by simp, by simp [wholeSample]⟩
    (by
      intro d hd hne
      simp only [List.mem_cons, List.not_mem_nil, or_false] at hd
      rcases hd with rfl | rfl
      · exact absurd rfl hne
      rw [hpads]
      exact
        { hasData := by unfold HasData; decide +kernel
          consistent := by decide +kernel
          derived := ⟨by decide +kernel, by decide +kernel, by decide +kernel, by decide +kernel⟩
          flashes := by unfold UniqueIds; decide +kernel
          groups := by unfold UniqueIds; decide +kernel
          areas := by decide +kernel
          pixels := by unfold PixelExact placeOf; decide +kernel
          polygons := by decide +kernel
          narrow := by decide +kernel
          view := by decide +kernel
          event := by decide +kernel
          flash := by decide +kernel })
    (fun d _ e _ => square_centred (by norm_num) (by norm_num) (by norm_num) _)
  exact ⟨runs, sh, h1, h2, h3⟩


/-- Two images of each tile of the sample. -/
def wholeImages : List (List (List (String × List Rat))) :=
  match gridGlmFlashes (lutGridder wholeEnv) [noFlashes, wholeSample] wholeCall [] with
  | .ok (runs, _) => runs.map fun (r : TileRun TileState ImageFile) => r.written.map fun nf =>
      nf.2.fields.filterMap fun p => if p.1 = "total_energy" ∨ p.1 = "flash_extent_density"
        then some (p.1, [p.2.val 0 0, p.2.val 0 1, p.2.val 1 0, p.2.val 1 1]) else none
  | .error _ => []

/-- What they hold: the first two tiles share a flash, the last one also has a part of the flash outside of the domain. -/
example : wholeImages =
    [[[("flash_extent_density", [3/16, 21/16, 0, 0]), ("total_energy", [1/4, 3/2, 0, 0])]],
     [[("flash_extent_density", [0, 0, 3/16, 21/16]), ("total_energy", [0, 0, 1/4, 3/2])]],
     [[("flash_extent_density", [3/4, 0, 0, 0]), ("total_energy", [3/4, 0, 0, 0])]],
     [[("flash_extent_density", [0, 1/4, 3/4, 1/16]), ("total_energy", [0, 4/9, 3/4, 1/9])]]] := by
  decide +kernel

end Verif.Props
