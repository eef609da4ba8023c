import Verif.Props.Bounds

/-!
# C93 exactly: what every cell of every grid holds

For files without defects and nothing else: any clipper, search, footprints, places of events in a pixel, and chunks.
-/

namespace Verif.Props

open Verif.Py Verif.Model Verif.Spec Verif.Proofs

/-- The chunks in which a file is gridded: none if it has no events. -/
def ChunksOf (order : List Int → List Int) (c : Criteria) (n : Nat) (d : GFile) (chunks : List GFile) : Prop :=
  (d.events = [] ∧ chunks = []) ∨ (d.events ≠ [] ∧ readFlashesChunks order d c n = .ok chunks)

/-- The pixels of chunks: each chunk with each location of the table at which it has events. -/
def chunkPixels (loc : Rat → Rat → Int) (chunks : List GFile) : List (GFile × Int) :=
  chunks.flatMap fun ch => (npUnique (ch.events.map fun e => loc e.val.x e.val.y)).map fun k => (ch, k)

/-- The footprint of a pixel: at the mean place of the events of the chunk there. -/
def pixelFoot (foot : Pt → Poly) (loc : Rat → Rat → Int) (p : GFile × Int) : Poly :=
  foot (pixelPlace (eventsAt loc p.1 p.2))

/-- The values of the cells of the grids, from the pixels. -/
structure CellsOfPixels (clip : Poly → Poly → List Poly) (query : List Pt → Pt → Nat → List Nat) (foot : Pt → Poly)
    (x y : List Rat) (loc : Rat → Rat → Int) (pixels : List (GFile × Int)) (i j : Nat) (fed fa te ged ga mfa : Rat) :
    Prop where
  /-- Energy: of the events at the pixel, by the part of its footprint that is in the cell and found there. -/
  energy : te = (pixels.map fun p => energyOf (eventsAt loc p.1 p.2) *
    (foundArea clip query x y (pixelFoot foot loc p) i j / |signedArea (pixelFoot foot loc p)|)).sum
  /-- Flashes: each flash of the chunk at the pixel counts by the part of the cell under the footprint. -/
  flashes : fed = (pixels.map fun p => ((flashesAt loc p.1 p.2).length : Rat) *
    (foundArea clip query x y (pixelFoot foot loc p) i j / gridCellArea x y i j)).sum
  groups : ged = (pixels.map fun p => ((groupsAt loc p.1 p.2).length : Rat) *
    (foundArea clip query x y (pixelFoot foot loc p) i j / gridCellArea x y i j)).sum
  flashArea : fa = (pixels.map fun p => ((flashesAt loc p.1 p.2).map fun f => f.val.area).sum *
    (foundArea clip query x y (pixelFoot foot loc p) i j / gridCellArea x y i j)).sum
  groupArea : ga = (pixels.map fun p => ((groupsAt loc p.1 p.2).map fun g => g.val.area).sum *
    (foundArea clip query x y (pixelFoot foot loc p) i j / gridCellArea x y i j)).sum
  /-- The least area of the flashes at the pixels of which a piece is found in the cell. -/
  least : LeastOrZero ((pixels.filter fun p =>
    foundClip clip query x y (pixelFoot foot loc p) (cellRect x y j i) ≠ []).flatMap fun p =>
      (flashesAt loc p.1 p.2).map fun f => f.val.area) mfa

/-- What the table says of a pixel. -/
structure RowOfPixel (loc : Rat → Rat → Int) (p : GFile × Int) (r : LutRow) : Prop where
  energy : r.energy = energyOf (eventsAt loc p.1 p.2)
  place : (r.x, r.y) = pixelPlace (eventsAt loc p.1 p.2)
  flashCount : r.flashCount = (flashesAt loc p.1 p.2).length
  groupCount : r.groupCount = (groupsAt loc p.1 p.2).length
  flashArea : r.totalFlashArea = ((flashesAt loc p.1 p.2).map fun f => f.val.area).sum
  groupArea : r.totalGroupArea = ((groupsAt loc p.1 p.2).map fun g => g.val.area).sum
  minMem : ∃ f ∈ flashesAt loc p.1 p.2, r.minFlashArea = f.val.area
  minLe : ∀ f ∈ flashesAt loc p.1 p.2, r.minFlashArea ≤ f.val.area

theorem parts_pixels {loc : Rat → Rat → Int} {parts : List ((Int × GFile) × List LutRow)}
    (h : ∀ p ∈ parts, getLutevents p.1.1 loc p.1.2 = .ok p.2 ∧ ∀ r ∈ p.2, ParentStats loc p.1.2 r) :
    List.Forall₂ (RowOfPixel loc) (chunkPixels loc (parts.map fun p => p.1.2)) (parts.flatMap Prod.snd) := by
  induction parts with
  | nil => exact .nil
  | cons p parts ih =>
    have hp := h p List.mem_cons_self
    have ih' := ih fun q hq => h q (List.mem_cons_of_mem _ hq)
    unfold chunkPixels at ih' ⊢
    rw [List.map_cons, List.flatMap_cons, List.flatMap_cons]
    refine forall₂_concat ?_ ih'
    have hids := lut_ids hp.1
    rw [← hids, List.map_map, List.forall₂_map_left_iff, List.forall₂_same]
    intro r hr
    have hst := ((C17_conservation hp.1).2.2.1 r hr).2
    have hps := hp.2 r hr
    have hpos : (0 : Rat) < (eventsAt loc p.1.2 r.id).length := by exact_mod_cast List.length_pos_iff.mpr hst.occupied
    exact ⟨hst.energy, Prod.ext ((eq_div_iff hpos.ne').mpr hst.x) ((eq_div_iff hpos.ne').mpr hst.y), hps.flashCount,
      hps.groupCount, hps.totalFlashArea, hps.totalGroupArea, hps.minMem, hps.minLe⟩

theorem pixels_concat (loc : Rat → Rat → Int) (a b : List GFile) :
    chunkPixels loc (a ++ b) = chunkPixels loc a ++ chunkPixels loc b := List.flatMap_append

theorem row_sum {loc : Rat → Rat → Int} {pixels : List (GFile × Int)} {rows : List LutRow}
    (h : List.Forall₂ (RowOfPixel loc) pixels rows) {F : LutRow → Rat} {G : GFile × Int → Rat}
    (he : ∀ p r, RowOfPixel loc p r → F r = G p) : (rows.map F).sum = (pixels.map G).sum := by
  induction h with
  | nil => rfl
  | cons h _ ih => rw [List.map_cons, List.map_cons, List.sum_cons, List.sum_cons, ih, he _ _ h]

/-- **C93**, exactly: for files without defects, whatever the clipper, the search, the footprints, the places of the
events and the size of the chunks, the six grids hold in each cell what the pixels of the chunks put there. -/
theorem C93_exact (clip : Poly → Poly → List Poly) (query : List Pt → Pt → Nat → List Nat)
    (foot : Pt → Poly) (x y : List Rat) (basedate : Int) (loc : Rat → Rat → Int)
    (order : List Int → List Int) (c : Criteria) (n : Nat) (files : List (Int × GFile))
    (points : Grid → List LmaParent → Grid) (label : String) (par : String → FakeLma → List LmaParent)
    (hx : AxisOk x) (hy : AxisOk y) (hsz : 2 < x.length ∨ 2 < y.length)
    (hclip : ∀ p q s, s ∈ clip p q → s ≠ []) (ho : ∀ l, (order l).Perm l) (hn : 0 < n)
    (h : ∀ d ∈ files, d.2.events ≠ [] → OpenedFile d.2 ∧ FeetOk clip query foot x y loc order c n d.2) :
    ∃ fakes outgrids grids fed fa te ged ga mfa, ∃ chunks : List (List GFile),
      readFiles clip query (fun pts => pts.map foot) (gridMesh x y) basedate loc order c n files =
        .ok fakes ∧ lutPipelineSetup = .ok outgrids ∧
      gridFrame points (x.length - 1) (y.length - 1) outgrids
        (fun k => fakes.map fun f => (f.children, par k f)) = .ok grids ∧
      gridNamed label grids "flash_extent_density" = some fed ∧
      gridNamed label grids "average_flash_area" = some fa ∧
      gridNamed label grids "total_energy" = some te ∧
      gridNamed label grids "group_extent_density" = some ged ∧
      gridNamed label grids "average_group_area" = some ga ∧
      gridNamed label grids "minimum_flash_area" = some mfa ∧
      (∀ g ∈ [fed, fa, te, ged, ga, mfa], g.n0 = x.length - 1 ∧ g.n1 = y.length - 1) ∧
      List.Forall₂ (fun d => ChunksOf order c n d.2) files chunks ∧
      ∀ i j, i + 1 < x.length → j + 1 < y.length →
        CellsOfPixels clip query foot x y loc (chunkPixels loc chunks.flatten) i j (fed.val i j) (fa.val i j)
          (te.val i j) (ged.val i j) (ga.val i j) (mfa.val i j) := by
  obtain ⟨parts, p1, ⟨chunks, p2, p3⟩, p4⟩ := files_parts (clip := foundClip clip query x y) (query := query)
    (foot := foot) (x := x) (y := y) (loc := loc) (order := order) (c := c) (n := n) basedate
    (fun d rows => ∃ chunks, ChunksOf order c n d chunks ∧ List.Forall₂ (RowOfPixel loc) (chunkPixels loc chunks) rows)
    (fun files rows => ∃ chunks : List (List GFile), List.Forall₂ (fun d => ChunksOf order c n d.2) files chunks ∧
      List.Forall₂ (RowOfPixel loc) (chunkPixels loc chunks.flatten) rows)
    ⟨[], .nil, .nil⟩
    (by
      rintro d files rows rows' ⟨px, a1, a2⟩ ⟨qx, b1, b2⟩
      refine ⟨px :: qx, .cons a1 b1, ?_⟩
      rw [List.flatten_cons, pixels_concat]
      exact forall₂_concat a2 b2)
    (fun d he => ⟨[], Or.inl ⟨he, rfl⟩, .nil⟩)
    (files := files) (fun d hd he => by
      obtain ⟨parts, f1, f2, f3, -⟩ := file_found query hx hy hsz loc ho c hn d.1 (h d hd he).1 (h d hd he).2
      exact ⟨parts, f1, f2, fun p hp => (f3 p hp).1, parts.map fun p => p.1.2, Or.inr ⟨he, f1⟩,
        parts_pixels fun p hp => ⟨(f3 p hp).1.table, (f3 p hp).2⟩⟩)
  obtain ⟨fakes, hF, outgrids, grids, fed, fa, te, ged, ga, mfa, o1, o2, n1, n2, n3, n4, n5, n6, hd, hv⟩ :=
    C67_grids (foundClip clip query x y) query foot x y basedate loc parts points label par hx hy hsz
      (by
        intro p q s hs
        unfold foundClip at hs
        split at hs
        · exact hclip p q s hs
        · exact absurd hs List.not_mem_nil) p1
  have hread := p4 fakes hF
  rw [readFiles_found] at hread
  refine ⟨fakes, outgrids, grids, fed, fa, te, ged, ga, mfa, chunks, hread, o1, o2, n1, n2, n3, n4, n5, n6, hd, p2, ?_⟩
  intro i j hi hj
  obtain ⟨v1, v2, v3, v4, v5, v6⟩ := hv i j hi hj
  refine ⟨?_, ?_, ?_, ?_, ?_, ?_⟩
  · rw [v1]
    exact row_sum p3 fun p r hr => by dsimp only; rw [hr.energy, hr.place]; rfl
  · rw [v2]
    exact row_sum p3 fun p r hr => by dsimp only; rw [hr.flashCount, hr.place]; rfl
  · rw [v3]
    exact row_sum p3 fun p r hr => by dsimp only; rw [hr.groupCount, hr.place]; rfl
  · rw [v4]
    exact row_sum p3 fun p r hr => by dsimp only; rw [hr.flashArea, hr.place]; rfl
  · rw [v5]
    exact row_sum p3 fun p r hr => by dsimp only; rw [hr.groupArea, hr.place]; rfl
  · refine leastOrZero_trans ?_ ?_ v6
    · intro a ha
      obtain ⟨r, hr, rfl⟩ := List.mem_map.mp ha
      obtain ⟨hr1, hr2⟩ := List.mem_filter.mp hr
      obtain ⟨p, hp, hrow⟩ := mem_of_forall₂_right p3 hr1
      obtain ⟨f, hf, hm⟩ := hrow.minMem
      refine List.mem_flatMap.mpr ⟨p, List.mem_filter.mpr ⟨hp, ?_⟩, List.mem_map.mpr ⟨f, hf, hm.symm⟩⟩
      rw [hrow.place] at hr2
      exact hr2
    · intro b hb
      obtain ⟨p, hp, hbp⟩ := List.mem_flatMap.mp hb
      obtain ⟨f, hf, rfl⟩ := List.mem_map.mp hbp
      obtain ⟨hp1, hp2⟩ := List.mem_filter.mp hp
      obtain ⟨r, hr, hrow⟩ := mem_of_forall₂_left p3 hp1
      refine ⟨r.minFlashArea, List.mem_map_of_mem (List.mem_filter.mpr ⟨hr, ?_⟩), hrow.minLe f hf⟩
      rw [hrow.place]
      exact hp2

/-! ## Several files, any places of events -/

/-- The pixels of files. -/
def filePixels (loc : Rat → Rat → Int) (order : List Int → List Int) (c : Criteria) (n : Nat)
    (files : List (Int × GFile)) : List (GFile × Int) :=
  files.flatMap fun d => match readFlashesChunks order d.2 c n with
    | .ok chunks => if d.2.events = [] then [] else chunkPixels loc chunks
    | .error _ => []

theorem chunks_pixels {loc : Rat → Rat → Int} {order : List Int → List Int} {c : Criteria} {n : Nat}
    {files : List (Int × GFile)} {chunks : List (List GFile)}
    (h : List.Forall₂ (fun d => ChunksOf order c n d.2) files chunks) :
    chunkPixels loc chunks.flatten = filePixels loc order c n files := by
  induction h with
  | nil => rfl
  | cons h _ ih =>
    unfold filePixels at ih ⊢
    rw [List.flatten_cons, pixels_concat, List.flatMap_cons, ih]
    congr 1
    rcases h with ⟨h1, h2⟩ | ⟨h1, h2⟩
    · rw [h2]
      split
      · rw [if_pos h1]
        rfl
      · rfl
    · rw [h2]
      simp only
      rw [if_neg h1]

/-- The grids of files exist and hold what the pixels put there. -/
theorem pixels_gridded {clip : Poly → Poly → List Poly} {query : List Pt → Pt → Nat → List Nat}
    {foot : Pt → Poly} {x y : List Rat} (basedate : Int) {loc : Rat → Rat → Int}
    {order : List Int → List Int} {c : Criteria} {n : Nat} {files : List (Int × GFile)}
    (points : Grid → List LmaParent → Grid) (label : String) (par : String → FakeLma → List LmaParent)
    (hx : AxisOk x) (hy : AxisOk y) (hsz : 2 < x.length ∨ 2 < y.length)
    (hclip : ∀ p q s, s ∈ clip p q → s ≠ []) (ho : ∀ l, (order l).Perm l) (hn : 0 < n)
    (h : ∀ d ∈ files, d.2.events ≠ [] → OpenedFile d.2 ∧ FeetOk clip query foot x y loc order c n d.2) :
    ∃ grid : String → Grid,
      FilesGridded clip query foot x y basedate loc order c n points label par files grid ∧
      ∀ i j, i + 1 < x.length → j + 1 < y.length →
        CellsOfPixels clip query foot x y loc (filePixels loc order c n files) i j
          ((grid "flash_extent_density").val i j) ((grid "average_flash_area").val i j)
          ((grid "total_energy").val i j) ((grid "group_extent_density").val i j)
          ((grid "average_group_area").val i j) ((grid "minimum_flash_area").val i j) := by
  obtain ⟨fakes, outgrids, grids, fed, fa, te, ged, ga, mfa, chunks, a1, a2, a3, n1, n2, n3, n4, n5, n6, -, hc, hv⟩ :=
    C93_exact clip query foot x y basedate loc order c n files points label par hx hy hsz hclip ho hn h
  rw [chunks_pixels hc] at hv
  refine ⟨fun name => if name = "flash_extent_density" then fed else if name = "average_flash_area" then fa else
    if name = "total_energy" then te else if name = "group_extent_density" then ged else
    if name = "average_group_area" then ga else mfa, ⟨fakes, outgrids, grids, a1, a2, a3, ?_⟩, hv⟩
  intro name hname
  simp only [sixNames, List.mem_cons, List.not_mem_nil, or_false] at hname
  rcases hname with rfl | rfl | rfl | rfl | rfl | rfl
  · exact n1
  · exact n2
  · exact n3
  · exact n4
  · exact n5
  · exact n6

/-- The flashes at the pixels of files are flashes that are asked for. -/
theorem pixel_flash {loc : Rat → Rat → Int} {order : List Int → List Int} {c : Criteria} {n : Nat}
    {files : List (Int × GFile)} (ho : ∀ l, (order l).Perm l) (hn : 0 < n)
    (h : ∀ d ∈ files, d.2.events ≠ [] → OpenedFile d.2) {p : GFile × Int} (hp : p ∈ filePixels loc order c n files)
    {f : Row GVal} (hf : f ∈ flashesAt loc p.1 p.2) : ∃ d ∈ files, d.2.events ≠ [] ∧ f ∈ askedFor d.2 c := by
  obtain ⟨d, hd, hpd⟩ := List.mem_flatMap.mp hp
  by_cases he : d.2.events = []
  · split at hpd
    · rw [if_pos he] at hpd
      exact absurd hpd List.not_mem_nil
    · exact absurd hpd List.not_mem_nil
  · obtain ⟨o1, -, o2, o3, o4, -⟩ := h d hd he
    obtain ⟨chunks, c1, c2, -⟩ := C20_chunks ho c hn o1 o2 o3 o4
    rw [c1] at hpd
    simp only [he, if_false] at hpd
    obtain ⟨ch, hch, hk⟩ := List.mem_flatMap.mp hpd
    obtain ⟨k, -, rfl⟩ := List.mem_map.mp hk
    exact ⟨d, hd, he, c2.mem_iff.mp (List.mem_flatMap.mpr ⟨ch, hch, (List.mem_filter.mp hf).1⟩)⟩

/-- **C130** for events at any places: files given in another order put the same into every cell of every grid. -/
theorem C130_order_any (clip : Poly → Poly → List Poly) (query : List Pt → Pt → Nat → List Nat)
    (foot : Pt → Poly) (x y : List Rat) (basedate : Int) (loc : Rat → Rat → Int)
    (order : List Int → List Int) (c : Criteria) (n : Nat) (files files' : List (Int × GFile))
    (points : Grid → List LmaParent → Grid) (label : String) (par : String → FakeLma → List LmaParent)
    (hx : AxisOk x) (hy : AxisOk y) (hsz : 2 < x.length ∨ 2 < y.length)
    (hclip : ∀ p q s, s ∈ clip p q → s ≠ []) (ho : ∀ l, (order l).Perm l) (hn : 0 < n)
    (h : ∀ d ∈ files, d.2.events ≠ [] → OpenedFile d.2 ∧ FeetOk clip query foot x y loc order c n d.2)
    (hp : files.Perm files') :
    ∃ grid grid' : String → Grid,
      FilesGridded clip query foot x y basedate loc order c n points label par files grid ∧
      FilesGridded clip query foot x y basedate loc order c n points label par files' grid' ∧
      ∀ name ∈ sixNames, ∀ i j, i + 1 < x.length → j + 1 < y.length → (grid name).val i j = (grid' name).val i j := by
  obtain ⟨grid, g1, g2⟩ := pixels_gridded basedate points label par hx hy hsz hclip ho hn h
  obtain ⟨grid', g1', g2'⟩ := pixels_gridded (files := files') basedate points label par hx hy hsz hclip ho hn
    fun d hd => h d (hp.mem_iff.mpr hd)
  have hpp : (filePixels loc order c n files).Perm (filePixels loc order c n files') := hp.flatMap_right _
  refine ⟨grid, grid', g1, g1', ?_⟩
  intro name hname i j hi hj
  have a := g2 i j hi hj
  have b := g2' i j hi hj
  simp only [sixNames, List.mem_cons, List.not_mem_nil, or_false] at hname
  rcases hname with rfl | rfl | rfl | rfl | rfl | rfl
  · rw [a.flashes, b.flashes]
    exact (hpp.map _).sum_eq
  · rw [a.flashArea, b.flashArea]
    exact (hpp.map _).sum_eq
  · rw [a.energy, b.energy]
    exact (hpp.map _).sum_eq
  · rw [a.groups, b.groups]
    exact (hpp.map _).sum_eq
  · rw [a.groupArea, b.groupArea]
    exact (hpp.map _).sum_eq
  · exact leastOrZero_unique ((hpp.filter _).flatMap_right _) a.least b.least

/-- **C130** for events at any places: what several files put into the grids is the sum of what they put there when they
are gridded apart. -/
theorem C130_apart_any (clip : Poly → Poly → List Poly) (query : List Pt → Pt → Nat → List Nat)
    (foot : Pt → Poly) (x y : List Rat) (basedate : Int) (loc : Rat → Rat → Int)
    (order : List Int → List Int) (c : Criteria) (n : Nat) (files files' : List (Int × GFile))
    (points : Grid → List LmaParent → Grid) (label : String) (par : String → FakeLma → List LmaParent)
    (hx : AxisOk x) (hy : AxisOk y) (hsz : 2 < x.length ∨ 2 < y.length)
    (hclip : ∀ p q s, s ∈ clip p q → s ≠ []) (ho : ∀ l, (order l).Perm l) (hn : 0 < n)
    (h : ∀ d ∈ files ++ files', d.2.events ≠ [] → OpenedFile d.2 ∧ FeetOk clip query foot x y loc order c n d.2) :
    ∃ grid grid' both : String → Grid,
      FilesGridded clip query foot x y basedate loc order c n points label par files grid ∧
      FilesGridded clip query foot x y basedate loc order c n points label par files' grid' ∧
      FilesGridded clip query foot x y basedate loc order c n points label par (files ++ files') both ∧
      ∀ i j, i + 1 < x.length → j + 1 < y.length →
        (∀ name ∈ ["flash_extent_density", "average_flash_area", "total_energy", "group_extent_density",
          "average_group_area"], (both name).val i j = (grid name).val i j + (grid' name).val i j) ∧
        (both "minimum_flash_area").val i j =
          lesserOrOther ((grid "minimum_flash_area").val i j) ((grid' "minimum_flash_area").val i j) := by
  have h1 : ∀ d ∈ files, d.2.events ≠ [] → OpenedFile d.2 ∧ FeetOk clip query foot x y loc order c n d.2 :=
    fun d hd => h d (List.mem_append_left _ hd)
  have h2 : ∀ d ∈ files', d.2.events ≠ [] → OpenedFile d.2 ∧ FeetOk clip query foot x y loc order c n d.2 :=
    fun d hd => h d (List.mem_append_right _ hd)
  obtain ⟨grid, g1, g2⟩ := pixels_gridded (files := files) basedate points label par hx hy hsz hclip ho hn h1
  obtain ⟨grid', g1', g2'⟩ := pixels_gridded (files := files') basedate points label par hx hy hsz hclip ho hn h2
  obtain ⟨both, b1, b2⟩ := pixels_gridded basedate points label par hx hy hsz hclip ho hn h
  have happ : filePixels loc order c n (files ++ files') =
      filePixels loc order c n files ++ filePixels loc order c n files' := List.flatMap_append
  refine ⟨grid, grid', both, g1, g1', b1, ?_⟩
  intro i j hi hj
  have a := g2 i j hi hj
  have a' := g2' i j hi hj
  have b := b2 i j hi hj
  rw [happ] at b
  constructor
  · intro name hname
    simp only [List.mem_cons, List.not_mem_nil, or_false] at hname
    rcases hname with rfl | rfl | rfl | rfl | rfl
    · rw [a.flashes, a'.flashes, b.flashes, List.map_append, List.sum_append]
    · rw [a.flashArea, a'.flashArea, b.flashArea, List.map_append, List.sum_append]
    · rw [a.energy, a'.energy, b.energy, List.map_append, List.sum_append]
    · rw [a.groups, a'.groups, b.groups, List.map_append, List.sum_append]
    · rw [a.groupArea, a'.groupArea, b.groupArea, List.map_append, List.sum_append]
  · have pos : ∀ l : List (Int × GFile), (∀ d ∈ l, d.2.events ≠ [] → OpenedFile d.2) → ∀ v ∈
        ((filePixels loc order c n l).filter fun p =>
          foundClip clip query x y (pixelFoot foot loc p) (cellRect x y j i) ≠ []).flatMap fun p =>
            (flashesAt loc p.1 p.2).map fun f => f.val.area, 0 < v := by
      intro l hl v hv
      obtain ⟨p, hp, hv⟩ := List.mem_flatMap.mp hv
      obtain ⟨f, hf, rfl⟩ := List.mem_map.mp hv
      obtain ⟨d, hd, he, hfd⟩ := pixel_flash ho hn hl (List.mem_filter.mp hp).1 hf
      exact (hl d hd he).areas f (asked_mem hfd)
    have hb := b.least
    rw [List.filter_append, List.flatMap_append] at hb
    exact leastOrZero_unique (List.Perm.refl _) hb (lesserOrOther_least
      (pos files fun d hd he => (h1 d hd he).1) (pos files' fun d hd he => (h2 d hd he).1) a.least a'.least)

/-- **C132** for events at any places. -/
theorem C132_average_any (clip : Poly → Poly → List Poly) (query : List Pt → Pt → Nat → List Nat)
    (foot : Pt → Poly) (x y : List Rat) (basedate : Int) (loc : Rat → Rat → Int)
    (order : List Int → List Int) (c : Criteria) (n : Nat) (files : List (Int × GFile))
    (points : Grid → List LmaParent → Grid) (label : String) (par : String → FakeLma → List LmaParent)
    (hx : AxisOk x) (hy : AxisOk y) (hsz : 2 < x.length ∨ 2 < y.length)
    (hclip : ∀ p q s, s ∈ clip p q → s ≠ []) (ho : ∀ l, (order l).Perm l) (hn : 0 < n)
    (h : ∀ d ∈ files, d.2.events ≠ [] → OpenedFile d.2 ∧ FeetOk clip query foot x y loc order c n d.2)
    (largest : Rat) (hl : ∀ d ∈ files, ∀ f ∈ askedFor d.2 c, f.val.area ≤ largest) :
    ∃ grid : String → Grid,
      FilesGridded clip query foot x y basedate loc order c n points label par files grid ∧
      ∀ i j, i + 1 < x.length → j + 1 < y.length → 0 < (grid "flash_extent_density").val i j →
        0 < (grid "minimum_flash_area").val i j ∧
        (grid "minimum_flash_area").val i j ≤
          (grid "average_flash_area").val i j / (grid "flash_extent_density").val i j ∧
        (grid "average_flash_area").val i j / (grid "flash_extent_density").val i j ≤ largest := by
  obtain ⟨grid, g1, g2⟩ := pixels_gridded basedate points label par hx hy hsz hclip ho hn h
  refine ⟨grid, g1, ?_⟩
  intro i j hi hj hpos
  have a := g2 i j hi hj
  have cell := gridCellArea_pos hx hy hi hj
  have hopen : ∀ d ∈ files, d.2.events ≠ [] → OpenedFile d.2 := fun d hd he => (h d hd he).1
  have share : ∀ p : GFile × Int, 0 ≤ foundArea clip query x y (pixelFoot foot loc p) i j / gridCellArea x y i j :=
    fun p => div_nonneg (found_le _ _ _ _ _ _ _).1 cell.le
  have reach : ∀ p : GFile × Int, foundArea clip query x y (pixelFoot foot loc p) i j ≠ 0 →
      foundClip clip query x y (pixelFoot foot loc p) (cellRect x y j i) ≠ [] := by
    intro p hne he
    apply hne
    unfold foundArea areaInCell
    rw [he]
    rfl
  have counts : ∀ (p : GFile × Int), ((flashesAt loc p.1 p.2).length : Rat) =
      ((flashesAt loc p.1 p.2).map fun _ => (1 : Rat)).sum := by
    intro p
    simp
  have some : ((filePixels loc order c n files).filter fun p =>
      foundClip clip query x y (pixelFoot foot loc p) (cellRect x y j i) ≠ []).flatMap (fun p =>
        (flashesAt loc p.1 p.2).map fun f => f.val.area) ≠ [] := by
    intro hnil
    apply hpos.ne'
    rw [a.flashes]
    apply List.sum_eq_zero
    intro v hv
    obtain ⟨p, hp, rfl⟩ := List.mem_map.mp hv
    by_cases h0 : foundArea clip query x y (pixelFoot foot loc p) i j = 0
    · rw [h0, zero_div, mul_zero]
    · have := List.flatMap_eq_nil_iff.mp hnil p (List.mem_filter.mpr ⟨hp, decide_eq_true (reach p h0)⟩)
      rw [List.map_eq_nil_iff.mp this]
      simp
  obtain ⟨m1, m2⟩ := a.least.2 some
  refine ⟨?_, ?_, ?_⟩
  · obtain ⟨p, hp, hv⟩ := List.mem_flatMap.mp m1
    obtain ⟨f, hf, hfv⟩ := List.mem_map.mp hv
    obtain ⟨d, hd, he, hfd⟩ := pixel_flash ho hn hopen (List.mem_filter.mp hp).1 hf
    rw [← hfv]
    exact (hopen d hd he).areas f (asked_mem hfd)
  · rw [le_div_iff₀ hpos, a.flashes, a.flashArea, ← List.sum_map_mul_left]
    refine sum_le_sum_map _ _ _ fun p hp => ?_
    by_cases h0 : foundArea clip query x y (pixelFoot foot loc p) i j = 0
    · rw [h0, zero_div, mul_zero, mul_zero, mul_zero]
    · rw [← mul_assoc]
      refine mul_le_mul_of_nonneg_right ?_ (share p)
      rw [counts, ← List.sum_map_mul_left]
      refine sum_le_sum_map _ _ _ fun f hf => ?_
      rw [mul_one]
      exact m2 _ (List.mem_flatMap.mpr ⟨p, List.mem_filter.mpr ⟨hp, decide_eq_true (reach p h0)⟩,
        List.mem_map_of_mem hf⟩)
  · rw [div_le_iff₀ hpos, a.flashes, a.flashArea, ← List.sum_map_mul_left]
    refine sum_le_sum_map _ _ _ fun p hp => ?_
    rw [← mul_assoc]
    refine mul_le_mul_of_nonneg_right ?_ (share p)
    rw [counts, ← List.sum_map_mul_left]
    refine sum_le_sum_map _ _ _ fun f hf => ?_
    rw [mul_one]
    obtain ⟨d, hd, -, hfd⟩ := pixel_flash ho hn hopen hp hf
    exact hl d hd f hfd

/-- The file of the counterexample to C93, with both flashes in one chunk: its two events are in one pixel. -/
example : OpenedFile nearSample ∧ FeetOk rectClip (fun _ _ _ => [])
      (fun p => rect (p.1 - 1/2) (p.1 + 1/2) (p.2 - 1/2) (p.2 + 1/2)) sampleX sampleY sampleLoc id {} 2 nearSample ∧
    ChunksOf id {} 2 nearSample [nearSample] ∧
    (chunkPixels sampleLoc [nearSample]).length = 1 := by
  have hf := nearSample_fit (fun _ _ _ => []) (n := 2) (by decide)
  have hc : readFlashesChunks id nearSample {} 2 = .ok [nearSample] := by decide +kernel
  refine ⟨⟨hf.hasData, hf.consistent, hf.derived, hf.flashes, hf.groups, hf.areas⟩,
    ⟨⟨2, 5/2, 2, 2, by decide +kernel, ?_⟩, ?_⟩, Or.inr ⟨by decide, hc⟩, by decide +kernel⟩
  · intro p _ _ _ _
    rw [rect_area]
    ring_nf
    norm_num
  · intro chunks hch ch hmem
    rw [hc] at hch
    injection hch with hch
    rw [← hch] at hmem
    obtain rfl := List.mem_singleton.mp hmem
    exact ⟨_, List.mem_cons_self, by decide +kernel⟩

end Verif.Props
