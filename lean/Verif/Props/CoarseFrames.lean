import Verif.Props.AnyBounds
import Verif.Props.FrameSums

/-!
# Boxes of any size, with several frames: C168

C168 for calls that write one image for each frame and tile: the image of a frame shows what the files of the frame put into
the range of the image.
-/

namespace Verif.Props

open Verif.Py Verif.Model Verif.Spec Verif.Proofs

/-- The images of a tile, one for each frame, whatever the size of boxes. -/
theorem range_tile_frames {env : Surroundings} {F : Framing} (hF : PicksByTime F) {xlo ylo dx dy : Rat} (hdx : 0 < dx) (hdy : 0 < dy)
    (he : MakesEdges env.edges)
    {a b c d p q : Nat} (hab : a + 2 ≤ b) (hcd : c + 1 ≤ d) {t : Tile}
    (tx : t.xBnd = (xlo + a * dx - p * dx, xlo + b * dx + p * dx))
    (ty : t.yBnd = (ylo + c * dy - q * dy, ylo + d * dy + q * dy)) (tp : t.pads = ⟨p, q, p * dx, q * dy⟩)
    (me mg : Option Int) {files : List GFile} (hclip : ∀ p q s, s ∈ env.clip p q → s ≠ [])
    (ho : ∀ l, (env.order l).Perm l) (hf : ∀ g ∈ files, g.events ≠ [] → AnyFile env.foot env.loc g)
    (hcen : ∀ g ∈ files, ∀ e ∈ g.events, CentredAt env.clip env.foot dx dy (placeOf e)) :
    ∃ fakes,
      readFiles env.clip env.query (fun pts => pts.map env.foot) (gridMesh (env.edges t.xBnd dx) (env.edges t.yBnd dy))
        env.basedate env.loc env.order { x := some t.xBnd, y := some t.yBnd, minEvents := me, minGroups := mg } 20000
        (files.map fun g => (env.productTime g, g)) = .ok fakes ∧
      ∀ out scale, ∃ imgs, framesImages env F ⟨env.edges t.xBnd dx, env.edges t.yBnd dy, fakes⟩ out
          (.slices (getPadSlices t.pads).1 (getPadSlices t.pads).2) scale = .ok imgs ∧
        List.Forall₂ (fun tf f => RangeImage env.clip env.foot me mg (filesOf env tf files) dx dy (p * dx) (q * dy)
          (scale != .bool false) tf
          (boxCentres xlo dx a b) (boxCentres ylo dy c d) f) (pairwise F.tEdges) imgs := by
  classical
  have ext : env.edges t.xBnd dx = boxEdges (xlo + a * dx - p * dx) dx (b - a + 2 * p) := by
    rw [tx, padded_edges he hdx (by omega)]
  have eyt : env.edges t.yBnd dy = boxEdges (ylo + c * dy - q * dy) dy (d - c + 2 * q) := by
    rw [ty, padded_edges he hdy (by omega)]
  have hax : AxisOk (env.edges t.xBnd dx) := by rw [ext]; exact boxEdges_axis hdx (by omega)
  have hay : AxisOk (env.edges t.yBnd dy) := by rw [eyt]; exact boxEdges_axis hdy (by omega)
  have hsz : 2 < (env.edges t.xBnd dx).length := by rw [ext, boxEdges_length]; omega
  have ux : Spaced (env.edges t.xBnd dx) dx := by rw [ext]; exact boxEdges_spaced hdx
  have uy : Spaced (env.edges t.yBnd dy) dy := by rw [eyt]; exact boxEdges_spaced hdy
  have x0 : (env.edges t.xBnd dx).getD 0 0 = t.xBnd.1 := by
    rw [ext, boxEdges_getD _ _ (by omega), tx]
    push_cast
    ring
  have y0 : (env.edges t.yBnd dy).getD 0 0 = t.yBnd.1 := by
    rw [eyt, boxEdges_getD _ _ (by omega), ty]
    push_cast
    ring
  have x1 : (env.edges t.xBnd dx).getD ((env.edges t.xBnd dx).length - 1) 0 = t.xBnd.2 := by
    rw [ext, boxEdges_length, boxEdges_getD _ _ (by omega), tx]
    rw [show b - a + 2 * p + 1 - 1 = b - a + 2 * p by omega]
    push_cast [Nat.cast_sub (show a ≤ b by omega)]
    ring
  have y1 : (env.edges t.yBnd dy).getD ((env.edges t.yBnd dy).length - 1) 0 = t.yBnd.2 := by
    rw [eyt, boxEdges_length, boxEdges_getD _ _ (by omega), ty]
    rw [show d - c + 2 * q + 1 - 1 = d - c + 2 * q by omega]
    push_cast [Nat.cast_sub (show c ≤ d by omega)]
    ring
  obtain ⟨fakes, outgrids, h1, h2, h3⟩ := framed_cells hF (query := env.query) (order := env.order) (loc := env.loc)
    (clip := foundClip env.clip env.query (env.edges t.xBnd dx) (env.edges t.yBnd dy)) (foot := env.foot) (n := 20000)
    (c := { x := some t.xBnd, y := some t.yBnd, minEvents := me, minGroups := mg }) (files := files.map fun g => (env.productTime g, g))
    env.basedate (env.points (env.edges t.xBnd dx) (env.edges t.yBnd dy)) env.label hax hay (Or.inl hsz) (by
      intro p q s hs
      unfold foundClip at hs
      split at hs
      · exact hclip p q s hs
      · exact absurd hs (List.not_mem_nil)) ho (by omega) (by
      intro g hg hne
      obtain ⟨g, hg', rfl⟩ := List.mem_map.mp hg
      have h := hf g hg' hne
      exact
        { hasData := h.hasData
          consistent := h.consistent
          derived := h.derived
          flashes := h.flashes
          groups := h.groups
          areas := h.areas
          pixels := h.pixels
          polygons := fun e he => ⟨(h.polygons e he).1, (h.polygons e he).2,
            search_found env.clip env.query hax hay (Or.inl hsz) (h.polygons e he).1⟩
          onGrid := fun chunks hc ch hch => by
            obtain ⟨e, he, hcov⟩ := chunks_on_grid_any (clip := env.clip) (query := env.query) (rest := { minEvents := me, minGroups := mg }) ho (by omega)
              hax hay hsz ux uy x0 x1 y0 y1 h (fun e hee => hcen g hg' e hee) chunks hc ch hch
            exact ⟨e, he, by rwa [covered_found]⟩ })
  rw [readFiles_found] at h1
  refine ⟨fakes, h1, ?_⟩
  intro out scale
  obtain ⟨imgs, i1, i2⟩ := frames_image (env := env) (F := F) (sent := fakes) hdx hdy he hab hcd tx ty tp h2
    (Q := fun tf grid => ∀ i j, i + 1 < (env.edges t.xBnd dx).length → j + 1 < (env.edges t.yBnd dy).length →
      CellsOfFiles (foundClip env.clip env.query (env.edges t.xBnd dx) (env.edges t.yBnd dy)) env.foot (env.edges t.xBnd dx)
        (env.edges t.yBnd dy) { x := some t.xBnd, y := some t.yBnd, minEvents := me, minGroups := mg }
        ((filesOf env tf files).map fun g => (env.productTime g, g)) i j
        ((grid "flash_extent_density").val i j) ((grid "average_flash_area").val i j)
        ((grid "total_energy").val i j) ((grid "group_extent_density").val i j)
        ((grid "average_group_area").val i j) ((grid "minimum_flash_area").val i j)) (by
      intro tf
      obtain ⟨grids, grid, g1, g2, g3⟩ := h3 tf fun k f => F.keep tf (f.parentsFor k)
      refine ⟨grids, grid, g1, g2, ?_⟩
      intro i j hi hj
      have := g3 i j hi hj
      rw [List.filter_map] at this
      exact this) out scale
  have hnc : ¬ NoCriteria { x := some t.xBnd, y := some t.yBnd, minEvents := me, minGroups := mg } := by
    intro h
    exact absurd h.2.2.1 (by simp)
  have ask := asked_inRange (dx := dx) (dy := dy) (px := p * dx) (py := q * dy) (xs := boxCentres xlo dx a b)
    (ys := boxCentres ylo dy c d) hnc rfl rfl rfl rfl (fun z => by rw [tx]; exact inRange_iff hdx (by omega))
    (fun z => by rw [ty]; exact inRange_iff hdy (by omega))
  refine ⟨imgs, i1, i2.imp ?_⟩
  rintro tf f ⟨grid, hv, f2, f3, f4, f5, f6, f7, f8⟩
  refine ⟨f2, f3, f4, f5, f6, ?_, ?_⟩
  · intro img hi
    rw [boxCentres_length, boxCentres_length]
    exact f7 img hi
  · intro row col X Y hX hY
    rw [show f.x = boxCentres xlo dx a b from f4] at hX
    rw [show f.y = (boxCentres ylo dy c d).reverse from f5] at hY
    obtain ⟨hcol, hX⟩ := boxCentres_get hX
    have hrow : row < d - c := by
      obtain ⟨hr, -⟩ := List.getElem?_eq_some_iff.mp hY
      rwa [List.length_reverse, boxCentres_length] at hr
    rw [List.getElem?_reverse (by rw [boxCentres_length]; exact hrow), boxCentres_length] at hY
    obtain ⟨-, hY⟩ := boxCentres_get hY
    obtain ⟨k, hk⟩ : ∃ k, k = d - c - 1 - row := ⟨_, rfl⟩
    rw [← hk] at hY
    have f8 := f8 row col hrow hcol
    rw [show q + (d - c) - 1 - row = q + k by omega] at f8
    have cx : xlo + a * dx - p * dx + ((p + col : Nat) + 1/2) * dx = X := by rw [hX]; push_cast; ring
    have cy : ylo + c * dy - q * dy + ((q + k : Nat) + 1/2) * dy = Y := by rw [hY]; push_cast; ring
    have hrect : cellRect (env.edges t.xBnd dx) (env.edges t.yBnd dy) (q + k) (p + col) = pixelAt dx dy X Y := by
      rw [cellRect_rect, ext, eyt, boxEdges_getD _ _ (by omega), boxEdges_getD _ _ (by omega), boxEdges_getD _ _ (by omega),
        boxEdges_getD _ _ (by omega), ← cx, ← cy]
      unfold pixelAt
      congr 1 <;> push_cast <;> ring
    have hfound : ∀ fp, foundClip env.clip env.query (env.edges t.xBnd dx) (env.edges t.yBnd dy) fp (pixelAt dx dy X Y) =
        rangeClip env.clip dx dy (p * dx) (q * dy) (boxCentres xlo dx a b) (boxCentres ylo dy c d) X Y fp
          (pixelAt dx dy X Y) := by
      intro fp
      unfold rangeClip
      rw [← hrect, ext, eyt, found_on_grid env.clip env.query hdx hdy _ (by omega) (by omega) (by omega), cx, cy]
      simp only [inRangeOrEnd_iff hdx (show a < b by omega), inRangeOrEnd_iff hdy (show c < d by omega)]
      have ex : xlo + a * dx - p * dx + ((b - a + 2 * p : Nat) : Rat) * dx = xlo + b * dx + p * dx := by
        push_cast [Nat.cast_sub (show a ≤ b by omega)]
        ring
      have ey : ylo + c * dy - q * dy + ((d - c + 2 * q : Nat) : Rat) * dy = ylo + d * dy + q * dy := by
        push_cast [Nat.cast_sub (show c ≤ d by omega)]
        ring
      rw [ex, ey]
    have hcell := hv (p + col) (q + k) (by rw [ext, boxEdges_length]; omega) (by rw [eyt, boxEdges_length]; omega)
    have hcell := cells_same_asked (only := inRange dx dy (p * dx) (q * dy) (boxCentres xlo dx a b) (boxCentres ylo dy c d))
      (fun d => (ask d).1) (fun _ => rfl) (fun _ => rfl) hcell
    rw [List.map_map] at hcell
    have := cells_direct (clip := rangeClip env.clip dx dy (p * dx) (q * dy) (boxCentres xlo dx a b) (boxCentres ylo dy c d) X Y) hcell hrect (fun g _ e _ => hfound _) (by
        intro g hg fl hfl hno
        obtain ⟨g, hg', rfl⟩ := List.mem_map.mp hg
        refine absurd ?_ hno
        show fl ∈ askedFor (inRange dx dy (p * dx) (q * dy) (boxCentres xlo dx a b) (boxCentres ylo dy c d) g) _
        rw [(ask g).1, ← (ask g).2]
        exact hfl) hnc
    rw [List.map_map] at this
    exact ⟨_, _, _, _, _, _, this, fun name img v him hv => f8 name img him v hv⟩


section
variable {env : Surroundings} {F : Framing} {kw shared sh : Dict} {xlo ylo dx dy : Rat} {M N s : Nat} {me mg : Option Int}
  {files opened : List GFile} {runs : List (TileRun TileState ImageFile)}

/-- **C168** for frames: the call succeeds, with one image for each tile and frame, whatever the size of boxes. -/
theorem C168_frames_succeed (hF : PicksByTime F) (shared : Dict) (h : AnyBoxes env kw xlo ylo dx dy M N s me mg files opened) :
    ∃ runs shared', gridGlmFlashes (framesGridder env F) files kw shared = .ok (runs, shared') ∧
      (runs.map fun r => r.ij) = ((List.range s).flatMap fun i => (List.range s).map fun j => (i, j)) ∧
      ∀ r ∈ runs, ∃ imgs, r.written = imgs.map (fun f => (f.name, f)) ∧
        List.Forall₂ (fun tf f => RangeImage env.clip env.foot me mg (filesOf env tf opened) dx dy (padding dx) (padding dy)
          (r.scale != .bool false) tf
          (boxCentres xlo dx (tileStart M s r.ij.1) (tileStart M s (r.ij.1 + 1)))
          (boxCentres ylo dy (tileStart N s r.ij.2) (tileStart N s (r.ij.2 + 1))) f) (pairwise F.tEdges) imgs := by
  obtain ⟨runs, sh, h1, h2, h3, -⟩ := call_runs_any (env := env) (G := framesGridder env F)
    (P := fun sc xs ys (w : List (String × ImageFile)) => ∃ imgs : List ImageFile, w = imgs.map (fun f => (f.name, f)) ∧
      List.Forall₂ (fun tf f => RangeImage env.clip env.foot me mg (filesOf env tf opened) dx dy (padding dx) (padding dy)
        sc tf xs ys f) (pairwise F.tEdges) imgs) rfl rfl rfl shared
    h.asked h.xPos h.yPos h.tiles h.xTiles h.yTiles h.opens h.some (by
      intro t a b c d p q hab hcd ep eq tx ty tp
      subst ep eq
      obtain ⟨fakes, hread, himg⟩ := range_tile_frames (env := env) hF h.xPos h.yPos h.edges hab hcd tx ty tp me mg
        (files := opened) h.parts h.order h.any h.centred
      refine ⟨fakes, hread, fun out scale => ?_⟩
      obtain ⟨imgs, hi, hsh⟩ := himg out scale
      refine ⟨imgs.map fun f => (f.name, f), ?_, imgs, rfl, hsh⟩
      show (do let files ← framesImages env F _ out _ scale; pure (files.map fun (f : ImageFile) => (f.name, f))) = _
      rw [hi]
      rfl)
  exact ⟨runs, sh, h1, h2, h3⟩

/-- **C168** for frames: the image of a frame shows in each pixel what the flashes inside its range of the files of the frame put
there, with the footprints whose means are inside its range and at most two and a half boxes from the centre of the pixel. -/
theorem C168_frames (hF : PicksByTime F) (h : AnyBoxes env kw xlo ylo dx dy M N s me mg files opened)
    (hr : gridGlmFlashes (framesGridder env F) files kw shared = .ok (runs, sh)) {k : Nat} {t : Rat × Rat}
    (ht : (pairwise F.tEdges)[k]? = some t)
    {r : TileRun TileState ImageFile} (hrr : r ∈ runs) {nf : String × ImageFile} (hnf : r.written[k]? = some nf) {row col : Nat}
    {X Y : Rat} (hX : nf.2.x[col]? = some X) (hY : nf.2.y[row]? = some Y) :
    ∃ fed fa te ged ga mfa,
      PixelHolds (rangeClip env.clip dx dy (padding dx) (padding dy) nf.2.x nf.2.y X Y) env.foot me mg
        ((filesOf env t opened).map (inRange dx dy (padding dx) (padding dy) nf.2.x nf.2.y)) dx dy X Y fed fa te ged ga mfa ∧
      ∀ name img v, (name, img) ∈ nf.2.fields → (name, v) ∈ shown (r.scale != .bool false) fed fa te ged ga mfa →
        img.val row col = v := by
  obtain ⟨runs', sh', h1, -, h3⟩ := C168_frames_succeed hF shared h
  rw [hr] at h1
  simp only [Except.ok.injEq, Prod.mk.injEq] at h1
  obtain ⟨rfl, -⟩ := h1
  obtain ⟨imgs, hw, hall⟩ := h3 r hrr
  obtain ⟨f, hf, hs⟩ := forall₂_get hall ht
  rw [hw, List.getElem?_map, hf] at hnf
  obtain rfl := Option.some.inj hnf
  have hp := hs.pixels row col X Y hX hY
  show ∃ fed fa te ged ga mfa, PixelHolds (rangeClip env.clip dx dy (padding dx) (padding dy) f.x f.y X Y) env.foot me mg
    ((filesOf env t opened).map (inRange dx dy (padding dx) (padding dy) f.x f.y)) dx dy X Y fed fa te ged ga mfa ∧ _
  rw [hs.x, hs.y, inRange_reverse, rangeClip_reverse]
  exact hp

end

section
variable {env : Surroundings} {order : List Int → List Int} {nav : Rat → Rat → Rat × Rat} {F : Framing} {kw shared sh : Dict}
  {xlo ylo dx dy : Rat} {M N s : Nat} {me mg : Option Int} {files : List GFile} {runs : List (TileRun TileState ImageFile)}

/-- The files of a frame, and what they are opened as. -/
theorem frame_marked {opened : List GFile} (hc : AnyBoxes env kw xlo ylo dx dy M N s me mg files opened)
    (htime : KeepsTime env files) (t : Rat × Rat) :
    ∃ mark, marked mark opened = filesOf env t opened ∧ marked mark files = filesOf env t files := by
  obtain ⟨rev, hrev⟩ := (Dict.has_iff _ _).mp (hc.asked.given "ellipse_rev" (by simp))
  refine ⟨files.map fun d => decide (InFrame env.basedate t (env.productTime d)), ?_, ?_⟩
  · have hm : (files.map fun d => decide (InFrame env.basedate t (env.productTime d))) =
        opened.map fun d => decide (InFrame env.basedate t (env.productTime d)) := by
      refine (map_eq_of_forall₂ (f := fun d => decide (InFrame env.basedate t (env.productTime d)))
        (g := fun d => decide (InFrame env.basedate t (env.productTime d))) (forall₂_mem (hc.opens rev hrev)) ?_).symm
      intro d d' hd
      rw [htime rev d hd.2.1 d' hd.1]
    have := marked_map opened (fun d => decide (InFrame env.basedate t (env.productTime d))) id
    rw [List.map_id, List.map_id] at this
    rw [hm]
    exact this
  · have := marked_map files (fun d => decide (InFrame env.basedate t (env.productTime d))) id
    rwa [List.map_id, List.map_id] at this

/-- **C168** for frames and files as they are recorded: the image of a frame shows in each pixel the lightning of the flashes
inside the range of the image, in the files whose product time is in the frame. -/
theorem C168_frames_files (hF : PicksByTime F) (h : AnyBoxFiles env order nav kw xlo ylo dx dy M N s me mg files)
    (htime : KeepsTime env files)
    (hr : gridGlmFlashes (framesGridder env F) files kw shared = .ok (runs, sh)) {k : Nat} {t : Rat × Rat}
    (ht : (pairwise F.tEdges)[k]? = some t)
    {r : TileRun TileState ImageFile} (hrr : r ∈ runs) {nf : String × ImageFile} (hnf : r.written[k]? = some nf) {row col : Nat}
    {X Y : Rat} (hX : nf.2.x[col]? = some X) (hY : nf.2.y[row]? = some Y) :
    ∃ fed fa te ged ga mfa,
      LightningHolds (rangeClip convexClip dx dy (padding dx) (padding dy) nf.2.x nf.2.y X Y) env.foot me mg
        ((filesOf env t files).flatMap fun d => (d.flashes.filter fun f =>
          FlashInside nav dx dy (padding dx) (padding dy) nf.2.x nf.2.y d f).map (flashOf nav d)) dx dy X Y
        fed fa te ged ga mfa ∧
      ∀ name img v, (name, img) ∈ nf.2.fields → (name, v) ∈ shown (r.scale != .bool false) fed fa te ged ga mfa →
        img.val row col = v := by
  obtain ⟨parts, opened, hp, ho, hc⟩ := h.opened
  obtain ⟨fed, fa, te, ged, ga, mfa, hpx, hv⟩ := C168_frames hF hc hr ht hrr hnf hX hY
  refine ⟨fed, fa, te, ged, ga, mfa, ?_, hv⟩
  obtain ⟨mark, e1, e2⟩ := frame_marked hc htime t
  rw [h.clip, ← e1] at hpx
  have k := opened_holds (forall₂_maps (marked_forall₂ ho mark) fun _ _ o => o.flashesInside) hpx
  have k := part_holds (forall₂_maps (marked_forall₂ hp mark) fun _ _ o => o.flashesInside) k
  rw [e2] at k
  have k := files_lightning (by
    intro d hd
    obtain ⟨d0, hd0, rfl⟩ := List.mem_map.mp hd
    have hd0 := (List.mem_filter.mp hd0).1
    exact uniqueIds_inside ⟨(h.fit d0 hd0).sound.flashes, (h.fit d0 hd0).sound.groups⟩) k
  rw [List.flatMap_map] at k
  exact k

/-- A pixel of the image of a frame shows no density and no energy higher than what the files of the frame put there. -/
theorem any_pixel_frames {sc : Bool} (hF : PicksByTime F) (h : AnyBoxFiles env order nav kw xlo ylo dx dy M N s me mg files)
    (htime : KeepsTime env files)
    (hr : gridGlmFlashes (framesGridder env F) files kw shared = .ok (runs, sh)) (hsc : Scaled runs sc) {k : Nat} {t : Rat × Rat}
    (ht : (pairwise F.tEdges)[k]? = some t) (X Y : Rat) :
    PixelAtMost env.foot nav me mg (filesOf env t files) dx dy sc X Y fun name v => ShowsIn runs k name X Y v := by
  classical
  obtain ⟨parts, opened, hp, ho, hc⟩ := h.opened
  obtain ⟨mark, e1, e2⟩ := frame_marked hc htime t
  have hp' := marked_forall₂ hp mark
  have ho' := marked_forall₂ ho mark
  rw [e2] at hp'
  rw [e1] at ho'
  obtain ⟨mfa, hm⟩ := leastOrZero_some ((filesOf env t opened).flatMap fun d => ((countedFlashes me mg d).filter
    fun (f : Row GVal) => ∃ p ∈ flashPlaces d f, convexClip (env.foot p) (pixelAt dx dy X Y) ≠ []).map fun f => f.val.area)
  have hall : PixelHolds convexClip env.foot me mg (filesOf env t opened) dx dy X Y _ _ _ _ _ mfa :=
    ⟨rfl, rfl, rfl, rfl, rfl, hm⟩
  refine ⟨_, _, _, _, _, mfa, part_holds hp' (opened_holds ho' hall), ?_, ?_, ?_⟩
  · rintro v ⟨r, hrr, nf, hnf, row, col, img, hX, hY, hi, rfl⟩
    obtain ⟨fed1, fa1, te1, ged1, ga1, mfa1, hpx, hs⟩ := C168_frames hF hc hr ht hrr hnf hX hY
    rw [h.clip] at hpx
    rw [hs _ img (atLeastStep (r.scale != .bool false) (1/16) fed1) hi (by simp [shown]), hsc r hrr]
    exact ⟨(hpx.nonneg h.xPos h.yPos).1.trans (atLeastStep_bounds sc (by norm_num)).1,
      shown_mono _ (range_at_most h.xPos h.yPos hall hpx).1⟩
  · rintro v hpos ⟨r, hrr, nf, hnf, row, col, img, hX, hY, hi, rfl⟩
    obtain ⟨fed1, fa1, te1, ged1, ga1, mfa1, hpx, hs⟩ := C168_frames hF hc hr ht hrr hnf hX hY
    rw [h.clip] at hpx
    have hpos' : ∀ d ∈ filesOf env t opened, ∀ e ∈ d.events, 0 ≤ e.val.energy := by
      intro d' hd' e' he'
      obtain ⟨d, hd, e, he, e1, -⟩ := opened_event hp' ho' d' hd' e' he'
      rw [e1]
      exact hpos d hd e he
    rw [hs _ img (atLeastStep (r.scale != .bool false) (152597 / 100000000000) te1) hi (by simp [shown]), hsc r hrr]
    refine ⟨(hpx.energy_nonneg ?_).trans (atLeastStep_bounds sc (by norm_num)).1,
      shown_mono _ ((range_at_most h.xPos h.yPos hall hpx).2.1 hpos')⟩
    intro d hd e he
    obtain ⟨d0, hd0, rfl⟩ := List.mem_map.mp hd
    exact hpos' d0 hd0 e he
  · rintro v ⟨r, hrr, nf, hnf, row, col, img, hX, hY, hi, rfl⟩
    obtain ⟨fed1, fa1, te1, ged1, ga1, mfa1, hpx, hs⟩ := C168_frames hF hc hr ht hrr hnf hX hY
    rw [h.clip] at hpx
    rw [hs _ img (atLeastStep (r.scale != .bool false) (1/4) ged1) hi (by simp [shown]), hsc r hrr]
    exact ⟨(hpx.nonneg h.xPos h.yPos).2.1.trans (atLeastStep_bounds sc (by norm_num)).1,
      shown_mono _ (range_at_most h.xPos h.yPos hall hpx).2.2⟩

/-- **C134** for frames, with boxes, footprints and flashes of any size, wherever they are: the images of a frame hold no more
energy than is recorded in the files of the frame. -/
theorem C134_frames {sc : Bool} (hF : PicksByTime F) (h : AnyBoxFiles env order nav kw xlo ylo dx dy M N s me mg files)
    (htime : KeepsTime env files)
    (hr : gridGlmFlashes (framesGridder env F) files kw shared = .ok (runs, sh)) (hsc : Scaled runs sc) {k : Nat} {t : Rat × Rat}
    (ht : (pairwise F.tEdges)[k]? = some t) (hpos : EnergiesHold (filesOf env t files)) (v : Nat → Nat → Rat)
    (hv : ∀ m n, m < M → n < N → ShowsIn runs k "total_energy" (xlo + (m + 1/2) * dx) (ylo + (n + 1/2) * dy) (v m n)) :
    (∀ m n, m < M → n < N → 0 ≤ v m n) ∧
    overBoxes M N v ≤ recordedEnergy me mg (filesOf env t files) + 152597 / 100000000000 * (M * N) ∧
    (sc = false → overBoxes M N v ≤ recordedEnergy me mg (filesOf env t files)) :=
  energy_at_most (V := fun name X Y v => ShowsIn runs k name X Y v) h.xPos h.yPos
    (by have := h.tiles; have := h.xTiles; omega) (by have := h.tiles; have := h.yTiles; omega)
    (fun d hd e he => ⟨(h.fit d (List.mem_filter.mp hd).1).convex e he, (h.fit d (List.mem_filter.mp hd).1).area e he⟩)
    (any_pixel_frames hF h htime hr hsc ht) hpos v hv

/-- **C165** for frames, with boxes, footprints and flashes of any size, wherever they are: the densities of a frame add up to no
more than the extents of the flashes (groups) in the files of the frame. -/
theorem C165_frames_at_most {sc : Bool} (hF : PicksByTime F)
    (h : AnyBoxFiles env order nav kw xlo ylo dx dy M N s me mg files) (htime : KeepsTime env files)
    (hr : gridGlmFlashes (framesGridder env F) files kw shared = .ok (runs, sh)) (hsc : Scaled runs sc) {k : Nat} {t : Rat × Rat}
    (ht : (pairwise F.tEdges)[k]? = some t)
    {name : String} {step : Rat} {extents : (Row GVal → Rat) → Rat}
    (hname : (name, step, extents) ∈
      [("flash_extent_density", 1/16, flashExtents env.foot nav me mg (filesOf env t files)),
       ("group_extent_density", 1/4, groupExtents env.foot nav me mg (filesOf env t files))])
    (v : Nat → Nat → Rat)
    (hv : ∀ m n, m < M → n < N → ShowsIn runs k name (xlo + (m + 1/2) * dx) (ylo + (n + 1/2) * dy) (v m n)) :
    (∀ m n, m < M → n < N → 0 ≤ v m n) ∧
    overBoxes M N v * (dx * dy) ≤ extents (fun _ => 1) + step * (M * N) * (dx * dy) ∧
    (sc = false → overBoxes M N v * (dx * dy) ≤ extents (fun _ => 1)) :=
  densities_at_most (V := fun name X Y v => ShowsIn runs k name X Y v) h.xPos h.yPos
    (by have := h.tiles; have := h.xTiles; omega) (by have := h.tiles; have := h.yTiles; omega)
    (fun d hd e he => ⟨(h.fit d (List.mem_filter.mp hd).1).convex e he, (h.fit d (List.mem_filter.mp hd).1).area e he⟩)
    (any_pixel_frames hF h htime hr hsc ht) hname v hv

end

/-! ## Sample -/

/-- Two frames of boxes of five milliradians, with a flash next to the seam between two tiles. -/
example : ∃ runs sh, gridGlmFlashes (framesGridder wholeEnv (sampleFrames [0, 60, 120])) [seamSample] largeBoxCall [] =
      .ok (runs, sh) ∧ runs.map (fun r => r.written.length) = [2, 2, 2, 2] := by
  obtain ⟨runs, sh, h1, h2, h3⟩ := C168_frames_succeed (sampleFrames_pick _) [] largeBoxCall_any
  refine ⟨runs, sh, h1, ?_⟩
  have hlen : ∀ r ∈ runs, r.written.length = 2 := by
    intro r hr
    obtain ⟨imgs, hw, hall⟩ := h3 r hr
    rw [hw, List.length_map, ← hall.length_eq]
    rfl
  have : runs.length = 4 := by rw [← List.length_map (f := fun r => r.ij), h2]; rfl
  rw [List.map_congr_left hlen, List.map_const', this]
  rfl

/-- Energies in the first row of the images of the sample, for each tile and frame: the flash is in the first frame, and what
is east of the seam between the tiles is missing. -/
def seamFrames : List ((Nat × Nat) × List Rat) :=
  match gridGlmFlashes (framesGridder plainEnv (sampleFrames [0, 60, 120])) [seamPlain] largeBoxCall [] with
  | .ok (runs, _) => runs.flatMap fun (r : TileRun TileState ImageFile) => r.written.flatMap fun nf =>
      nf.2.fields.flatMap fun p => if p.1 = "total_energy" then [(r.ij, (List.range 2).map fun col => p.2.val 0 col)] else []
  | .error _ => []

example : seamFrames = [((0, 0), [0, 281/225]), ((0, 0), [0, 0]), ((0, 1), [0, 0]), ((0, 1), [0, 0]),
    ((1, 0), [0, 0]), ((1, 0), [0, 0]), ((1, 1), [0, 0]), ((1, 1), [0, 0])] := by decide +kernel

example {runs : List (TileRun TileState ImageFile)} {sh : Dict} {r : TileRun TileState ImageFile} {nf : String × ImageFile}
    {X Y : Rat} (hr : gridGlmFlashes (framesGridder plainEnv (sampleFrames [0, 60, 120])) [seamPlain] largeBoxCall [] =
      .ok (runs, sh)) (hrr : r ∈ runs) (hnf : r.written[0]? = some nf) (hX : nf.2.x[1]? = some X) (hY : nf.2.y[0]? = some Y) :
    ∃ fed fa te ged ga mfa,
      LightningHolds (rangeClip convexClip (1/200) (1/200) (padding (1/200)) (padding (1/200)) nf.2.x nf.2.y X Y) plainEnv.foot
        (some 1) none ((filesOf plainEnv (0, 60) [seamPlain]).flatMap fun d => (d.flashes.filter fun f =>
          FlashInside sampleNav (1/200) (1/200) (padding (1/200)) (padding (1/200)) nf.2.x nf.2.y d f).map
            (flashOf sampleNav d)) (1/200) (1/200) X Y fed fa te ged ga mfa ∧
      ∀ name img v, (name, img) ∈ nf.2.fields → (name, v) ∈ shown (r.scale != .bool false) fed fa te ged ga mfa →
        img.val 0 1 = v :=
  C168_frames_files (sampleFrames_pick _) seamPlain_call (fun _ _ _ _ _ => rfl) hr rfl hrr hnf hX hY

example {runs : List (TileRun TileState ImageFile)} {sh : Dict} {v : Nat → Nat → Rat}
    (hr : gridGlmFlashes (framesGridder plainEnv (sampleFrames [0, 60, 120])) [seamPlain] largeBoxCall [] = .ok (runs, sh))
    (hsc : Scaled runs false) (hv : ∀ m n : Nat, m < 4 → n < 2 →
      ShowsIn runs 0 "total_energy" (0 + ((m : Rat) + 1/2) * (1/200)) (0 + ((n : Rat) + 1/2) * (1/200)) (v m n)) :
    overBoxes 4 2 v ≤ recordedEnergy (some 1) none (filesOf plainEnv (0, 60) [seamPlain]) :=
  (C134_frames (sampleFrames_pick _) seamPlain_call (fun _ _ _ _ _ => rfl) hr hsc rfl
    (fun d hd => by
      have := (List.mem_filter.mp hd).1
      rw [List.mem_singleton] at this
      subst this
      decide +kernel) v hv).2.2 rfl

example {runs : List (TileRun TileState ImageFile)} {sh : Dict} {v : Nat → Nat → Rat}
    (hr : gridGlmFlashes (framesGridder plainEnv (sampleFrames [0, 60, 120])) [seamPlain] largeBoxCall [] = .ok (runs, sh))
    (hsc : Scaled runs false) (hv : ∀ m n : Nat, m < 4 → n < 2 →
      ShowsIn runs 0 "group_extent_density" (0 + ((m : Rat) + 1/2) * (1/200)) (0 + ((n : Rat) + 1/2) * (1/200)) (v m n)) :
    overBoxes 4 2 v * (1/200 * (1/200)) ≤
      groupExtents plainEnv.foot sampleNav (some 1) none (filesOf plainEnv (0, 60) [seamPlain]) (fun _ => 1) :=
  (C165_frames_at_most (sampleFrames_pick _) seamPlain_call (fun _ _ _ _ _ => rfl) hr hsc rfl
    (List.mem_cons_of_mem _ (List.mem_cons_self ..)) v hv).2.2 rfl

end Verif.Props
