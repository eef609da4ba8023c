import Verif.Props.FineGrids

/-!
# Boxes of any size: C168

The padding of a tile is a whole number of boxes, and there is none if boxes are larger than the padding.  Here nothing is
assumed about the size of boxes either, and it is said exactly what each pixel shows: what is read for an image, and found
in it, is what is inside the range of its pixels and the padding around it.
-/

namespace Verif.Props

open Verif.Py Verif.Model Verif.Spec Verif.Proofs

/-! ## What is said -/

/-- A coordinate is inside the range of the pixels of an image and the padding around it. -/
def InRange (d pad : Rat) (zs : List Rat) (z : Rat) : Prop :=
  (∃ Z ∈ zs, Z - d / 2 - pad < z) ∧ ∃ Z ∈ zs, z < Z + d / 2 + pad

/-- As `InRange`, or at the upper end of the range. -/
def InRangeOrEnd (d pad : Rat) (zs : List Rat) (z : Rat) : Prop :=
  (∃ Z ∈ zs, Z - d / 2 - pad < z) ∧ ∃ Z ∈ zs, z ≤ Z + d / 2 + pad

instance (d pad : Rat) (zs : List Rat) (z : Rat) : Decidable (InRange d pad zs z) := by
  unfold InRange
  infer_instance

instance (d pad : Rat) (zs : List Rat) (z : Rat) : Decidable (InRangeOrEnd d pad zs z) := by
  unfold InRangeOrEnd
  infer_instance

/-- An event is in the field of view, and inside the range of an image. -/
structure EventInRange (dx dy px py : Rat) (xs ys : List Rat) (e : Row GVal) : Prop where
  viewX : |e.val.x| < 1349 / 10000
  viewY : |e.val.y| < 1349 / 10000
  x : InRange dx px xs e.val.x
  y : InRange dy py ys e.val.y

/-- The flashes whose position, and one of whose events, is inside the range of an image. -/
def FlashInRange (dx dy px py : Rat) (xs ys : List Rat) (d : GFile) (f : Row GVal) : Prop :=
  (InRange dx px xs f.val.x ∧ InRange dy py ys f.val.y) ∧
    ∃ e ∈ d.events, EventOfFlash d f.id e ∧ EventInRange dx dy px py xs ys e

open scoped Classical in
/-- A file with only the flashes that are inside the range of an image. -/
noncomputable def inRange (dx dy px py : Rat) (xs ys : List Rat) (d : GFile) : GFile :=
  { d with flashes := d.flashes.filter fun f => FlashInRange dx dy px py xs ys d f }

/-- The clipper, for the footprints only whose mean is close to a pixel and inside the range of its image. -/
def rangeClip (clip : Poly → Poly → List Poly) (dx dy px py : Rat) (xs ys : List Rat) (X Y : Rat) (p q : Poly) :
    List Poly :=
  if CloseTo dx dy X Y (meanPoint p) ∧ InRangeOrEnd dx px xs (meanPoint p).1 ∧ InRangeOrEnd dy py ys (meanPoint p).2 then
    clip p q
  else []

/-- A call as C167 assumes it, for boxes of any size. -/
structure AnyBoxes (env : Surroundings) (kw : Dict) (xlo ylo dx dy : Rat) (M N s : Nat) (me mg : Option Int)
    (files opened : List GFile) : Prop where
  asked : FixedGridAsked kw xlo ylo dx dy M N s me mg
  xPos : 0 < dx
  yPos : 0 < dy
  tiles : 0 < s
  xTiles : 2 * s ≤ M
  yTiles : s ≤ N
  edges : MakesEdges env.edges
  parts : ∀ p q s, s ∈ env.clip p q → s ≠ []
  order : ∀ l, (env.order l).Perm l
  opens : ∀ rev, kw.get "ellipse_rev" = .ok rev → List.Forall₂ (fun f d => env.openFile rev f = .ok d) files opened
  some : ∃ d ∈ opened, d.events ≠ []
  any : ∀ d ∈ opened, d.events ≠ [] → AnyFile env.foot env.loc d
  centred : ∀ d ∈ opened, ∀ e ∈ d.events, CentredAt env.clip env.foot dx dy (placeOf e)

/-! ## Ranges -/

theorem range_low {lo d z : Rat} {a b p : Nat} (hd : 0 < d) (hab : a < b) :
    (∃ Z ∈ boxCentres lo d a b, Z - d / 2 - p * d < z) ↔ lo + a * d - p * d < z := by
  constructor
  · rintro ⟨Z, hZ, hz⟩
    obtain ⟨k, hk, rfl⟩ := List.mem_map.mp hZ
    have k1 : (a : Rat) ≤ (a + k : Nat) := by exact_mod_cast Nat.le_add_right a k
    have m1 := mul_le_mul_of_nonneg_right k1 hd.le
    nlinarith
  · intro h
    refine ⟨_, List.mem_map.mpr ⟨0, List.mem_range.mpr (by omega), rfl⟩, ?_⟩
    push_cast
    linarith

theorem range_end {lo d : Rat} {a b p : Nat} (hd : 0 < d) (hab : a < b) :
    (∀ Z ∈ boxCentres lo d a b, Z + d / 2 + p * d ≤ lo + b * d + p * d) ∧
      ∃ Z ∈ boxCentres lo d a b, Z + d / 2 + p * d = lo + b * d + p * d := by
  constructor
  · intro Z hZ
    obtain ⟨k, hk, rfl⟩ := List.mem_map.mp hZ
    rw [List.mem_range] at hk
    have k2 : ((a + k : Nat) : Rat) + 1 ≤ b := by exact_mod_cast (by omega : a + k + 1 ≤ b)
    have m2 := mul_le_mul_of_nonneg_right k2 hd.le
    linarith
  · refine ⟨_, List.mem_map.mpr ⟨b - 1 - a, List.mem_range.mpr (by omega), rfl⟩, ?_⟩
    rw [show a + (b - 1 - a) = b - 1 by omega]
    push_cast [Nat.cast_sub (show 1 ≤ b by omega)]
    ring

theorem inRange_iff {lo d z : Rat} {a b p : Nat} (hd : 0 < d) (hab : a < b) :
    InRange d (p * d) (boxCentres lo d a b) z ↔ lo + a * d - p * d < z ∧ z < lo + b * d + p * d := by
  obtain ⟨r1, Z, hZ, r2⟩ := range_end (lo := lo) (p := p) hd hab
  unfold InRange
  rw [range_low hd hab]
  refine and_congr_right fun _ => ⟨?_, fun h => ⟨Z, hZ, by rw [r2]; exact h⟩⟩
  rintro ⟨Z', hZ', h⟩
  exact h.trans_le (r1 Z' hZ')

theorem inRangeOrEnd_iff {lo d z : Rat} {a b p : Nat} (hd : 0 < d) (hab : a < b) :
    InRangeOrEnd d (p * d) (boxCentres lo d a b) z ↔ lo + a * d - p * d < z ∧ z ≤ lo + b * d + p * d := by
  obtain ⟨r1, Z, hZ, r2⟩ := range_end (lo := lo) (p := p) hd hab
  unfold InRangeOrEnd
  rw [range_low hd hab]
  refine and_congr_right fun _ => ⟨?_, fun h => ⟨Z, hZ, by rw [r2]; exact h⟩⟩
  rintro ⟨Z', hZ', h⟩
  exact h.trans (r1 Z' hZ')

/-! ## The search -/

theorem searched_axis_any {lo d m : Rat} {n i : Nat} (hd : 0 < d) (hi : i < n) :
    (∃ col, inCell (boxEdges lo d n) col m ∧ i ≤ col + 2 ∧ col ≤ i + 2) ↔
      (lo + (i + 1/2) * d - 5/2 * d < m ∧ m ≤ lo + (i + 1/2) * d + 5/2 * d) ∧ lo < m ∧ m ≤ lo + n * d := by
  have hax : AxisOk (boxEdges lo d n) := boxEdges_axis hd (by omega)
  have g : ∀ k, k ≤ n → (boxEdges lo d n).getD k 0 = lo + k * d := fun k hk => boxEdges_getD _ _ hk
  constructor
  · rintro ⟨col, ⟨h1, h2, h3⟩, h4, h5⟩
    rw [boxEdges_length] at h1
    rw [g _ (by omega)] at h2 h3
    have c1 : (i : Rat) ≤ col + 2 := by exact_mod_cast h4
    have c2 : (col : Rat) ≤ i + 2 := by exact_mod_cast h5
    have c3 : ((col : Rat) + 1) ≤ n := by exact_mod_cast (by omega : col + 1 ≤ n)
    have m0 := mul_nonneg (Nat.cast_nonneg (α := Rat) col) hd.le
    have m1 := mul_le_mul_of_nonneg_right c1 hd.le
    have m2 := mul_le_mul_of_nonneg_right c2 hd.le
    have m3 := mul_le_mul_of_nonneg_right c3 hd.le
    push_cast at h3
    refine ⟨⟨?_, ?_⟩, ?_, ?_⟩ <;> linarith
  · rintro ⟨⟨h1, h2⟩, h3, h4⟩
    obtain ⟨col, hc⟩ := exists_inCell hax.1 hax.2 (v := m) (by rw [g 0 (by omega)]; push_cast; linarith)
      (by rw [boxEdges_length, Nat.add_sub_cancel, g n (le_refl n)]; exact h4)
    refine ⟨col, hc, ?_, ?_⟩
    · obtain ⟨k1, k2, k3⟩ := hc
      rw [boxEdges_length] at k1
      rw [g _ (by omega)] at k2 k3
      by_contra hlt
      have c1 : (col : Rat) + 3 ≤ i := by exact_mod_cast (by omega : col + 3 ≤ i)
      have m3 := mul_le_mul_of_nonneg_right c1 hd.le
      push_cast at k3
      linarith
    · obtain ⟨k1, k2, k3⟩ := hc
      rw [boxEdges_length] at k1
      rw [g _ (by omega)] at k2 k3
      by_contra hlt
      have c1 : (i : Rat) + 3 ≤ col := by exact_mod_cast (by omega : i + 3 ≤ col)
      have m3 := mul_le_mul_of_nonneg_right c1 hd.le
      linarith

/-- In any box, exactly the footprints are found whose mean is close to its centre and on the grid. -/
theorem found_on_grid (clip : Poly → Poly → List Poly) (query : List Pt → Pt → Nat → List Nat) {xlo ylo dx dy : Rat}
    {m n : Nat} (hdx : 0 < dx) (hdy : 0 < dy) (p : Poly) {i j : Nat} (hi : i < m) (hj : j < n) (hm : 2 ≤ m) :
    foundClip clip query (boxEdges xlo dx m) (boxEdges ylo dy n) p
        (cellRect (boxEdges xlo dx m) (boxEdges ylo dy n) j i) =
      if CloseTo dx dy (xlo + (i + 1/2) * dx) (ylo + (j + 1/2) * dy) (meanPoint p) ∧
          (xlo < (meanPoint p).1 ∧ (meanPoint p).1 ≤ xlo + m * dx) ∧ ylo < (meanPoint p).2 ∧ (meanPoint p).2 ≤ ylo + n * dy
        then clip p (cellRect (boxEdges xlo dx m) (boxEdges ylo dy n) j i) else [] := by
  classical
  have hx : AxisOk (boxEdges xlo dx m) := boxEdges_axis hdx (by omega)
  have hy : AxisOk (boxEdges ylo dy n) := boxEdges_axis hdy (by omega)
  have lx : (boxEdges xlo dx m).length = m + 1 := boxEdges_length _ _ _
  have ly : (boxEdges ylo dy n).length = n + 1 := boxEdges_length _ _ _
  obtain ⟨c, g1, g2, g3, g4⟩ := grid_nearest query hx hy (Or.inl (by rw [lx]; omega)) (meanPoint p)
  have hcand : candidatesFor query (gridMesh (boxEdges xlo dx m) (boxEdges ylo dy n)) .none p = .ok c := by
    unfold candidatesFor
    simp only [g1, bind, Except.bind, pure, Except.pure]
    rw [if_neg g3]
  have key : (∃ c, candidatesFor query (gridMesh (boxEdges xlo dx m) (boxEdges ylo dy n)) .none p = .ok c ∧
      cellRect (boxEdges xlo dx m) (boxEdges ylo dy n) j i ∈ c.quads) ↔
      CloseTo dx dy (xlo + (i + 1/2) * dx) (ylo + (j + 1/2) * dy) (meanPoint p) ∧
        (xlo < (meanPoint p).1 ∧ (meanPoint p).1 ≤ xlo + m * dx) ∧ ylo < (meanPoint p).2 ∧
          (meanPoint p).2 ≤ ylo + n * dy := by
    unfold CloseTo
    rw [and_and_and_comm, ← searched_axis_any hdx hi, ← searched_axis_any hdy hj]
    constructor
    · rintro ⟨c', hc', hq⟩
      obtain rfl := Except.ok.inj (hcand.symm.trans hc')
      rw [g2.2.2.2] at hq
      obtain ⟨⟨r, k⟩, hrk, he⟩ := List.mem_map.mp hq
      have hrk' := (g4 r k).mp hrk
      obtain ⟨rfl, rfl⟩ := cellRect_inj hx hy (by omega) (by omega) (by omega) (by omega) he
      obtain ⟨-, -, col, row, a1, a2, a3, a4, a5, a6⟩ := hrk'
      exact ⟨⟨col, a1, a3, a4⟩, row, a2, a5, a6⟩
    · rintro ⟨⟨col, a1, a3, a4⟩, row, a2, a5, a6⟩
      refine ⟨c, hcand, ?_⟩
      rw [g2.2.2.2]
      exact List.mem_map.mpr ⟨(j, i), (g4 j i).mpr ⟨by omega, by omega, col, row, a1, a2, a3, a4, a5, a6⟩, rfl⟩
  unfold foundClip
  simp only [key]

/-- The flashes that are asked for are those that count of the ones that are inside the range of the image. -/
theorem asked_inRange {dx dy px py : Rat} {xs ys : List Rat} {c : Criteria} (hc : ¬ NoCriteria c) (hlon : c.lon = none)
    (hlat : c.lat = none) {bx by' : Rat × Rat} (hx : c.x = some bx) (hy : c.y = some by')
    (rx : ∀ z, InRange dx px xs z ↔ bx.1 < z ∧ z < bx.2)
    (ry : ∀ z, InRange dy py ys z ↔ by'.1 < z ∧ z < by'.2) (d : GFile) :
    askedFor (inRange dx dy px py xs ys d) c = askedFor d c ∧
    countedFlashes c.minEvents c.minGroups (inRange dx dy px py xs ys d) = askedFor d c := by
  classical
  have hview : ∀ e : Row GVal, InView c e ↔ EventInRange dx dy px py xs ys e := by
    intro e
    constructor
    · intro h
      exact ⟨abs_lt.mpr h.x, abs_lt.mpr h.y, (rx _).mpr (h.xr _ hx), (ry _).mpr (h.yr _ hy)⟩
    · intro h
      refine ⟨abs_lt.mp h.viewX, abs_lt.mp h.viewY, ?_, ?_⟩
      · intro r hr
        rw [hx] at hr
        cases hr
        exact (rx _).mp h.x
      · intro r hr
        rw [hy] at hr
        cases hr
        exact (ry _).mp h.y
  have hmeet : ∀ f : Row GVal, Meets c f ↔ (InRange dx px xs f.val.x ∧ InRange dy py ys f.val.y) ∧ AtLeast c.minEvents f.val.nEvents ∧
      AtLeast c.minGroups f.val.nGroups := by
    intro f
    constructor
    · intro h
      exact ⟨⟨(rx _).mpr (h.x _ hx), (ry _).mpr (h.y _ hy)⟩, h.minEvents, h.minGroups⟩
    · rintro ⟨⟨h1, h2⟩, h3, h4⟩
      refine ⟨?_, ?_, ?_, ?_, h3, h4⟩
      · intro r hr
        rw [hlon] at hr
        cases hr
      · intro r hr
        rw [hlat] at hr
        cases hr
      · intro r hr
        rw [hx] at hr
        cases hr
        exact (rx _).mp h1
      · intro r hr
        rw [hy] at hr
        cases hr
        exact (ry _).mp h2
  have hev : ∀ i e, EventOfFlash (inRange dx dy px py xs ys d) i e ↔ EventOfFlash d i e := fun i e => Iff.rfl
  unfold askedFor countedFlashes
  rw [if_neg hc, if_neg hc]
  constructor
  · show ((d.flashes.filter _).filter _) = _
    rw [List.filter_filter]
    apply List.filter_congr
    intro f _
    rw [← Bool.decide_and, decide_eq_decide]
    constructor
    · rintro ⟨h1, -⟩
      exact h1
    · rintro ⟨h1, e, he, hfe, hv⟩
      exact ⟨⟨h1, e, he, hfe, hv⟩, ((hmeet f).mp h1).1, e, he, hfe, (hview e).mp hv⟩
  · show ((d.flashes.filter _).filter _) = _
    rw [List.filter_filter]
    apply List.filter_congr
    intro f _
    rw [← Bool.decide_and, decide_eq_decide]
    constructor
    · rintro ⟨h1, h2, e, he, hfe, hv⟩
      exact ⟨(hmeet f).mpr ⟨h2, h1⟩, e, he, hfe, (hview e).mpr hv⟩
    · rintro ⟨h1, e, he, hfe, hv⟩
      exact ⟨((hmeet f).mp h1).2, ((hmeet f).mp h1).1, e, he, hfe, (hview e).mp hv⟩

/-- What an image shows, whatever the size of its boxes. -/
structure RangeImage (clip : Poly → Poly → List Poly) (foot : Pt → Poly) (me mg : Option Int) (files : List GFile)
    (dx dy px py : Rat) (sc : Bool) (frame : Rat × Rat) (xs ys : List Rat) (f : ImageFile) : Prop where
  start : f.start = frame.1
  stop : f.stop = frame.2
  x : f.x = xs
  y : f.y = ys.reverse
  names : f.fields.map Prod.fst = eightNames
  shape : ∀ img ∈ f.fields.map Prod.snd, img.rows = ys.length ∧ img.cols = xs.length
  pixels : ∀ row col X Y, f.x[col]? = some X → f.y[row]? = some Y → ∃ fed fa te ged ga mfa,
    PixelHolds (rangeClip clip dx dy px py xs ys X Y) foot me mg (files.map (inRange dx dy px py xs ys)) dx dy X Y
      fed fa te ged ga mfa ∧
    ∀ name img v, (name, img) ∈ f.fields → (name, v) ∈ shown sc fed fa te ged ga mfa → img.val row col = v

theorem range_tile_image {env : Surroundings} {xlo ylo dx dy : Rat} (hdx : 0 < dx) (hdy : 0 < dy) (he : MakesEdges env.edges)
    {a b c d p q : Nat} (hab : a + 2 ≤ b) (hcd : c + 1 ≤ d) {t : Tile}
    (tx : t.xBnd = (xlo + a * dx - p * dx, xlo + b * dx + p * dx))
    (ty : t.yBnd = (ylo + c * dy - q * dy, ylo + d * dy + q * dy)) (tp : t.pads = ⟨p, q, p * dx, q * dy⟩)
    (me mg : Option Int) {files : List GFile} (hclip : ∀ p q s, s ∈ env.clip p q → s ≠ [])
    (ho : ∀ l, (env.order l).Perm l) (hf : ∀ g ∈ files, g.events ≠ [] → AnyFile env.foot env.loc g)
    (hcen : ∀ g ∈ files, ∀ e ∈ g.events, CentredAt env.clip env.foot dx dy (placeOf e)) :
    ∃ fakes,
      readFiles env.clip env.query (fun pts => pts.map env.foot) (gridMesh (env.edges t.xBnd dx) (env.edges t.yBnd dy))
        env.basedate env.loc env.order { x := some t.xBnd, y := some t.yBnd, minEvents := me, minGroups := mg } 20000
        (files.map fun g => (env.productTime g, g)) = .ok fakes ∧
      ∀ out scale, ∃ f, lutImages env ⟨env.edges t.xBnd dx, env.edges t.yBnd dy, fakes⟩ out
          (.slices (getPadSlices t.pads).1 (getPadSlices t.pads).2) scale = .ok [f] ∧
        RangeImage env.clip env.foot me mg files dx dy (p * dx) (q * dy) (scale != .bool false) env.frame
          (boxCentres xlo dx a b) (boxCentres ylo dy c d) f := by
  classical
  have ext : env.edges t.xBnd dx = boxEdges (xlo + a * dx - p * dx) dx (b - a + 2 * p) := by
    rw [tx, padded_edges he hdx (by omega)]
  have eyt : env.edges t.yBnd dy = boxEdges (ylo + c * dy - q * dy) dy (d - c + 2 * q) := by
    rw [ty, padded_edges he hdy (by omega)]
  have hax : AxisOk (env.edges t.xBnd dx) := by rw [ext]; exact boxEdges_axis hdx (by omega)
  have hay : AxisOk (env.edges t.yBnd dy) := by rw [eyt]; exact boxEdges_axis hdy (by omega)
  have hsz : 2 < (env.edges t.xBnd dx).length := by rw [ext, boxEdges_length]; omega
  have ux : Spaced (env.edges t.xBnd dx) dx := by rw [ext]; exact boxEdges_spaced hdx
  have uy : Spaced (env.edges t.yBnd dy) dy := by rw [eyt]; exact boxEdges_spaced hdy
  have x0 : (env.edges t.xBnd dx).getD 0 0 = t.xBnd.1 := by
    rw [ext, boxEdges_getD _ _ (by omega), tx]
    push_cast
    ring
  have y0 : (env.edges t.yBnd dy).getD 0 0 = t.yBnd.1 := by
    rw [eyt, boxEdges_getD _ _ (by omega), ty]
    push_cast
    ring
  have x1 : (env.edges t.xBnd dx).getD ((env.edges t.xBnd dx).length - 1) 0 = t.xBnd.2 := by
    rw [ext, boxEdges_length, boxEdges_getD _ _ (by omega), tx]
    rw [show b - a + 2 * p + 1 - 1 = b - a + 2 * p by omega]
    push_cast [Nat.cast_sub (show a ≤ b by omega)]
    ring
  have y1 : (env.edges t.yBnd dy).getD ((env.edges t.yBnd dy).length - 1) 0 = t.yBnd.2 := by
    rw [eyt, boxEdges_length, boxEdges_getD _ _ (by omega), ty]
    rw [show d - c + 2 * q + 1 - 1 = d - c + 2 * q by omega]
    push_cast [Nat.cast_sub (show c ≤ d by omega)]
    ring
  have hf' : ∀ g ∈ files.map fun g => (env.productTime g, g), g.2.events ≠ [] → AnyFile env.foot env.loc g.2 := by
    intro g hg
    obtain ⟨g, hg', rfl⟩ := List.mem_map.mp hg
    exact hf g hg'
  obtain ⟨grid, ⟨fakes, outgrids, grids, h1, h2, h3, h4⟩, hv⟩ := tile_gridded_any (t := t)
    (rest := { minEvents := me, minGroups := mg }) (query := env.query) env.basedate
    (env.points (env.edges t.xBnd dx) (env.edges t.yBnd dy)) env.label (fun k f => env.keep (f.parentsFor k)) hclip ho
    (n := 20000) (by omega) hax hay hsz hf' (by
      intro g hg hne
      have hc := hf' g hg hne
      obtain ⟨g, hg', rfl⟩ := List.mem_map.mp hg
      exact chunks_on_grid_any ho (by omega) hax hay hsz ux uy x0 x1 y0 y1 hc fun e hee => hcen g hg' e hee)
  refine ⟨fakes, h1, ?_⟩
  intro out scale
  obtain ⟨f, f1, f2, f3, f4, f5, f6, f7, f8⟩ := lut_image hdx hdy he hab hcd tx ty tp h2 h3 h4 out scale
  have hnc : ¬ NoCriteria { x := some t.xBnd, y := some t.yBnd, minEvents := me, minGroups := mg } := by
    intro h
    exact absurd h.2.2.1 (by simp)
  have ask := asked_inRange (dx := dx) (dy := dy) (px := p * dx) (py := q * dy) (xs := boxCentres xlo dx a b)
    (ys := boxCentres ylo dy c d) hnc rfl rfl rfl rfl (fun z => by rw [tx]; exact inRange_iff hdx (by omega))
    (fun z => by rw [ty]; exact inRange_iff hdy (by omega))
  -- the cell of a pixel
  have pixel : ∀ row col X Y, f.x[col]? = some X → f.y[row]? = some Y → ∃ i j,
      cellRect (env.edges t.xBnd dx) (env.edges t.yBnd dy) j i = pixelAt dx dy X Y ∧
      (∀ fp, foundClip env.clip env.query (env.edges t.xBnd dx) (env.edges t.yBnd dy) fp (pixelAt dx dy X Y) =
        rangeClip env.clip dx dy (p * dx) (q * dy) (boxCentres xlo dx a b) (boxCentres ylo dy c d) X Y fp
          (pixelAt dx dy X Y)) ∧
      CellsOfFiles (foundClip env.clip env.query (env.edges t.xBnd dx) (env.edges t.yBnd dy)) env.foot
        (env.edges t.xBnd dx) (env.edges t.yBnd dy) { x := some t.xBnd, y := some t.yBnd, minEvents := me, minGroups := mg }
        (files.map fun g => (env.productTime g, g)) i j
        ((grid "flash_extent_density").val i j) ((grid "average_flash_area").val i j)
        ((grid "total_energy").val i j) ((grid "group_extent_density").val i j)
        ((grid "average_group_area").val i j) ((grid "minimum_flash_area").val i j) ∧
      ∀ name img, (name, img) ∈ f.fields → ∀ v, (name, v) ∈ shown (scale != .bool false)
        ((grid "flash_extent_density").val i j) ((grid "average_flash_area").val i j)
        ((grid "total_energy").val i j) ((grid "group_extent_density").val i j)
        ((grid "average_group_area").val i j) ((grid "minimum_flash_area").val i j) →
        img.val row col = v := by
    intro row col X Y hX hY
    rw [show f.x = boxCentres xlo dx a b from f4] at hX
    rw [show f.y = (boxCentres ylo dy c d).reverse from f5] at hY
    obtain ⟨hcol, hX⟩ := boxCentres_get hX
    have hrow : row < d - c := by
      obtain ⟨hr, -⟩ := List.getElem?_eq_some_iff.mp hY
      rwa [List.length_reverse, boxCentres_length] at hr
    rw [List.getElem?_reverse (by rw [boxCentres_length]; exact hrow), boxCentres_length] at hY
    obtain ⟨-, hY⟩ := boxCentres_get hY
    obtain ⟨k, hk⟩ : ∃ k, k = d - c - 1 - row := ⟨_, rfl⟩
    rw [← hk] at hY
    have f8 := f8 row col hrow hcol
    rw [show q + (d - c) - 1 - row = q + k by omega] at f8
    have cx : xlo + a * dx - p * dx + ((p + col : Nat) + 1/2) * dx = X := by rw [hX]; push_cast; ring
    have cy : ylo + c * dy - q * dy + ((q + k : Nat) + 1/2) * dy = Y := by rw [hY]; push_cast; ring
    have hrect : cellRect (env.edges t.xBnd dx) (env.edges t.yBnd dy) (q + k) (p + col) = pixelAt dx dy X Y := by
      rw [cellRect_rect, ext, eyt, boxEdges_getD _ _ (by omega), boxEdges_getD _ _ (by omega), boxEdges_getD _ _ (by omega),
        boxEdges_getD _ _ (by omega), ← cx, ← cy]
      unfold pixelAt
      congr 1 <;> push_cast <;> ring
    refine ⟨p + col, q + k, hrect, ?_, hv (p + col) (q + k) (by rw [ext, boxEdges_length]; omega)
      (by rw [eyt, boxEdges_length]; omega), f8⟩
    intro fp
    unfold rangeClip
    rw [← hrect, ext, eyt, found_on_grid env.clip env.query hdx hdy _ (by omega) (by omega) (by omega), cx, cy]
    simp only [inRangeOrEnd_iff hdx (show a < b by omega), inRangeOrEnd_iff hdy (show c < d by omega)]
    have ex : xlo + a * dx - p * dx + ((b - a + 2 * p : Nat) : Rat) * dx = xlo + b * dx + p * dx := by
      push_cast [Nat.cast_sub (show a ≤ b by omega)]
      ring
    have ey : ylo + c * dy - q * dy + ((d - c + 2 * q : Nat) : Rat) * dy = ylo + d * dy + q * dy := by
      push_cast [Nat.cast_sub (show c ≤ d by omega)]
      ring
    rw [ex, ey]
  refine ⟨f, f1, f2, f3, f4, f5, f6, ?_, ?_⟩
  · intro img hi
    rw [boxCentres_length, boxCentres_length]
    exact f7 img hi
  · intro row col X Y hX hY
    obtain ⟨i, j, hrect, hfound, hcell, hall⟩ := pixel row col X Y hX hY
    have hcell := cells_same_asked (only := inRange dx dy (p * dx) (q * dy) (boxCentres xlo dx a b) (boxCentres ylo dy c d))
      (fun d => (ask d).1) (fun _ => rfl) (fun _ => rfl) hcell
    rw [List.map_map] at hcell
    have := cells_direct (clip := rangeClip env.clip dx dy (p * dx) (q * dy) (boxCentres xlo dx a b) (boxCentres ylo dy c d) X Y) hcell hrect (fun g _ e _ => hfound _) (by
        intro g hg fl hfl hno
        obtain ⟨g, hg', rfl⟩ := List.mem_map.mp hg
        refine absurd ?_ hno
        show fl ∈ askedFor (inRange dx dy (p * dx) (q * dy) (boxCentres xlo dx a b) (boxCentres ylo dy c d) g) _
        rw [(ask g).1, ← (ask g).2]
        exact hfl) hnc
    rw [List.map_map] at this
    exact ⟨_, _, _, _, _, _, this, fun name img v him hv => hall name img him v hv⟩

/-- **C168**: the call succeeds, with one image for each tile, whatever the size of boxes. -/
theorem C168_succeeds {env : Surroundings} {kw : Dict} (shared : Dict) {xlo ylo dx dy : Rat} {M N s : Nat}
    {me mg : Option Int} {files opened : List GFile} (h : AnyBoxes env kw xlo ylo dx dy M N s me mg files opened) :
    ∃ runs shared', gridGlmFlashes (lutGridder env) files kw shared = .ok (runs, shared') ∧
      (runs.map fun r => r.ij) = ((List.range s).flatMap fun i => (List.range s).map fun j => (i, j)) ∧
      ∀ r ∈ runs, ∃ f, r.written = [(f.name, f)] ∧
        RangeImage env.clip env.foot me mg opened dx dy (padding dx) (padding dy) (r.scale != .bool false) env.frame
          (boxCentres xlo dx (tileStart M s r.ij.1) (tileStart M s (r.ij.1 + 1)))
          (boxCentres ylo dy (tileStart N s r.ij.2) (tileStart N s (r.ij.2 + 1))) f := by
  obtain ⟨runs, sh, h1, h2, h3, -⟩ := call_runs_any (env := env) (G := lutGridder env)
    (P := fun sc xs ys (w : List (String × ImageFile)) => ∃ f, w = [(f.name, f)] ∧
      RangeImage env.clip env.foot me mg opened dx dy (padding dx) (padding dy) sc env.frame xs ys f) rfl rfl rfl shared
    h.asked h.xPos h.yPos h.tiles h.xTiles h.yTiles h.opens h.some (by
      intro t a b c d p q hab hcd ep eq tx ty tp
      subst ep eq
      obtain ⟨fakes, hread, himg⟩ := range_tile_image (env := env) h.xPos h.yPos h.edges hab hcd tx ty tp me mg
        (files := opened) h.parts h.order h.any h.centred
      refine ⟨fakes, hread, fun out scale => ?_⟩
      obtain ⟨f, hf, hsh⟩ := himg out scale
      refine ⟨[(f.name, f)], ?_, f, rfl, hsh⟩
      show (do let files ← lutImages env _ out _ scale; pure (files.map fun (f : ImageFile) => (f.name, f))) = _
      rw [hf]
      rfl)
  exact ⟨runs, sh, h1, h2, h3⟩

theorem inRange_reverse (dx dy px py : Rat) (xs ys : List Rat) :
    inRange dx dy px py xs ys.reverse = inRange dx dy px py xs ys := by
  classical
  funext d
  have hr : ∀ z, InRange dy py ys.reverse z ↔ InRange dy py ys z := fun z => by
    unfold InRange
    simp only [List.mem_reverse]
  have he : ∀ e : Row GVal, EventInRange dx dy px py xs ys.reverse e ↔ EventInRange dx dy px py xs ys e := by
    intro e
    constructor
    · rintro ⟨h1, h2, h3, h4⟩
      exact ⟨h1, h2, h3, (hr _).mp h4⟩
    · rintro ⟨h1, h2, h3, h4⟩
      exact ⟨h1, h2, h3, (hr _).mpr h4⟩
  have hall : ∀ f, FlashInRange dx dy px py xs ys.reverse d f ↔ FlashInRange dx dy px py xs ys d f := by
    intro f
    unfold FlashInRange
    simp only [he, hr]
  unfold inRange
  congr 1
  exact List.filter_congr fun f _ => decide_eq_decide.mpr (hall f)

theorem rangeClip_reverse (clip : Poly → Poly → List Poly) (dx dy px py : Rat) (xs ys : List Rat) (X Y : Rat) :
    rangeClip clip dx dy px py xs ys.reverse X Y = rangeClip clip dx dy px py xs ys X Y := by
  funext p q
  unfold rangeClip InRangeOrEnd
  simp only [List.mem_reverse]

section
variable {clip : Poly → Poly → List Poly} {foot : Pt → Poly} {me mg : Option Int} {files : List GFile}
  {dx dy px py X Y : Rat} {xs ys : List Rat} {fed fa te ged ga mfa fed1 fa1 te1 ged1 ga1 mfa1 : Rat}

theorem range_part_le (p q : Poly) : partArea (rangeClip clip dx dy px py xs ys X Y) p q ≤ partArea clip p q := by
  by_cases hc : CloseTo dx dy X Y (meanPoint p) ∧ InRangeOrEnd dx px xs (meanPoint p).1 ∧
      InRangeOrEnd dy py ys (meanPoint p).2
  · rw [show partArea (rangeClip clip dx dy px py xs ys X Y) p q = partArea clip p q by
      unfold partArea; rw [show rangeClip clip dx dy px py xs ys X Y p q = clip p q from if_pos hc]]
  · rw [show partArea (rangeClip clip dx dy px py xs ys X Y) p q = 0 by
      unfold partArea; rw [show rangeClip clip dx dy px py xs ys X Y p q = [] from if_neg hc]; rfl]
    exact List.sum_nonneg fun v hv => by
      obtain ⟨s, -, rfl⟩ := List.mem_map.mp hv
      exact abs_nonneg _

/-- What is inside the range of the lightning in a pixel is not more than all of it. -/
theorem range_at_most (hdx : 0 < dx) (hdy : 0 < dy)
    (h : PixelHolds clip foot me mg files dx dy X Y fed fa te ged ga mfa)
    (h1 : PixelHolds (rangeClip clip dx dy px py xs ys X Y) foot me mg (files.map (inRange dx dy px py xs ys)) dx dy X Y
      fed1 fa1 te1 ged1 ga1 mfa1) :
    fed1 ≤ fed ∧ ((∀ d ∈ files, ∀ e ∈ d.events, 0 ≤ e.val.energy) → te1 ≤ te) ∧ ged1 ≤ ged := by
  classical
  have hd : 0 ≤ dx * dy := mul_nonneg hdx.le hdy.le
  have inRead : ∀ d f, f ∈ countedFlashes me mg (inRange dx dy px py xs ys d) → f ∈ countedFlashes me mg d := by
    intro d f hf
    unfold countedFlashes inRange at *
    simp only [List.mem_filter, decide_eq_true_eq] at *
    exact ⟨hf.1.1, hf.2⟩
  have places : ∀ l : List Pt, (l.map fun p => partArea (rangeClip clip dx dy px py xs ys X Y) (foot p) (pixelAt dx dy X Y) /
      (dx * dy)).sum ≤ (l.map fun p => partArea clip (foot p) (pixelAt dx dy X Y) / (dx * dy)).sum :=
    fun l => List.sum_le_sum fun p _ => div_le_div_of_nonneg_right (range_part_le _ _) hd
  have placesNonneg : ∀ l : List Pt, 0 ≤ (l.map fun p => partArea clip (foot p) (pixelAt dx dy X Y) / (dx * dy)).sum := by
    intro l
    refine List.sum_nonneg fun v hv => ?_
    obtain ⟨p, -, rfl⟩ := List.mem_map.mp hv
    exact div_nonneg (partArea_nonneg _ _ _) hd
  refine ⟨?_, ?_, ?_⟩
  · rw [h.flashes, h1.flashes, List.map_map]
    refine List.sum_le_sum fun d _ => ?_
    have := sum_filter_le_both d.flashes
      (fun f => (AtLeast me f.val.nEvents ∧ AtLeast mg f.val.nGroups) ∧ FlashInRange dx dy px py xs ys d f)
      (fun f => AtLeast me f.val.nEvents ∧ AtLeast mg f.val.nGroups)
      (fun f => ((flashPlaces d f).map fun p =>
        partArea (rangeClip clip dx dy px py xs ys X Y) (foot p) (pixelAt dx dy X Y) / (dx * dy)).sum)
      (fun f => ((flashPlaces d f).map fun p => partArea clip (foot p) (pixelAt dx dy X Y) / (dx * dy)).sum)
      (fun f _ hf => hf.1) (fun f _ => places _) fun f _ => placesNonneg _
    unfold countedFlashes inRange
    simp only [Function.comp_def, List.filter_filter]
    simp only [Bool.decide_and] at this ⊢
    exact this
  · intro hen
    rw [h.energy, h1.energy, List.map_map]
    refine List.sum_le_sum fun d hdm => ?_
    refine sum_filter_le_both d.events (fun e => ∃ f ∈ countedFlashes me mg (inRange dx dy px py xs ys d), EventOfFlash d f.id e)
      (fun e => ∃ f ∈ countedFlashes me mg d, EventOfFlash d f.id e) _ _ ?_ ?_ ?_
    · rintro e _ ⟨f, hf, hfe⟩
      exact ⟨f, inRead d f hf, hfe⟩
    · intro e he
      exact mul_le_mul_of_nonneg_left (div_le_div_of_nonneg_right (range_part_le _ _) (abs_nonneg _)) (hen d hdm e he)
    · intro e he
      exact mul_nonneg (hen d hdm e he) (div_nonneg (partArea_nonneg _ _ _) (abs_nonneg _))
  · rw [h.groups, h1.groups, List.map_map]
    refine List.sum_le_sum fun d hdm => ?_
    refine sum_filter_le_both d.groups (fun g => ∃ f ∈ countedFlashes me mg (inRange dx dy px py xs ys d), f.id = g.pid)
      (fun g => ∃ f ∈ countedFlashes me mg d, f.id = g.pid) _ _ ?_ ?_ ?_
    · rintro e _ ⟨f, hf, hfe⟩
      exact ⟨f, inRead d f hf, hfe⟩
    · intro e _
      exact places _
    · intro e _
      exact placesNonneg _

end

section
variable {env : Surroundings} {kw shared sh : Dict} {xlo ylo dx dy : Rat} {M N s : Nat} {me mg : Option Int}
  {files opened : List GFile} {runs : List (TileRun TileState ImageFile)}

/-- **C168**: whatever the size of boxes, an image shows in each pixel what the flashes inside its range put there with the
footprints whose means are inside its range and at most two and a half boxes from the centre of the pixel. -/
theorem C168_exact (h : AnyBoxes env kw xlo ylo dx dy M N s me mg files opened)
    (hr : gridGlmFlashes (lutGridder env) files kw shared = .ok (runs, sh))
    {r : TileRun TileState ImageFile} (hrr : r ∈ runs) {nf : String × ImageFile} (hnf : nf ∈ r.written) {row col : Nat}
    {X Y : Rat} (hX : nf.2.x[col]? = some X) (hY : nf.2.y[row]? = some Y) :
    ∃ fed fa te ged ga mfa,
      PixelHolds (rangeClip env.clip dx dy (padding dx) (padding dy) nf.2.x nf.2.y X Y) env.foot me mg
        (opened.map (inRange dx dy (padding dx) (padding dy) nf.2.x nf.2.y)) dx dy X Y fed fa te ged ga mfa ∧
      ∀ name img v, (name, img) ∈ nf.2.fields → (name, v) ∈ shown (r.scale != .bool false) fed fa te ged ga mfa →
        img.val row col = v := by
  obtain ⟨runs', sh', h1, -, h3⟩ := C168_succeeds shared h
  rw [hr] at h1
  simp only [Except.ok.injEq, Prod.mk.injEq] at h1
  obtain ⟨rfl, -⟩ := h1
  obtain ⟨f, hf, hs⟩ := h3 r hrr
  rw [hf, List.mem_singleton] at hnf
  subst hnf
  have hp := hs.pixels row col X Y hX hY
  show ∃ fed fa te ged ga mfa, PixelHolds (rangeClip env.clip dx dy (padding dx) (padding dy) f.x f.y X Y) env.foot me mg
    (opened.map (inRange dx dy (padding dx) (padding dy) f.x f.y)) dx dy X Y fed fa te ged ga mfa ∧ _
  rw [hs.x, hs.y, inRange_reverse, rangeClip_reverse]
  exact hp

/-- **C168**: whatever the sizes of boxes, footprints and flashes, no density and no energy is higher than what all
lightning puts into the pixel.  Boxes may be larger than the padding. -/
theorem C168_at_most (h : AnyBoxes env kw xlo ylo dx dy M N s me mg files opened)
    (hr : gridGlmFlashes (lutGridder env) files kw shared = .ok (runs, sh))
    (hen : ∀ d ∈ opened, ∀ e ∈ d.events, 0 ≤ e.val.energy)
    {r : TileRun TileState ImageFile} (hrr : r ∈ runs) {nf : String × ImageFile} (hnf : nf ∈ r.written) {row col : Nat}
    {X Y : Rat} (hX : nf.2.x[col]? = some X) (hY : nf.2.y[row]? = some Y) {fed fa te ged ga mfa : Rat}
    (hall : PixelHolds env.clip env.foot me mg opened dx dy X Y fed fa te ged ga mfa) (img : Image) :
    (("flash_extent_density", img) ∈ nf.2.fields → img.val row col ≤ atLeastStep (r.scale != .bool false) (1/16) fed) ∧
    (("total_energy", img) ∈ nf.2.fields →
      img.val row col ≤ atLeastStep (r.scale != .bool false) (152597 / 100000000000) te) ∧
    (("group_extent_density", img) ∈ nf.2.fields →
      img.val row col ≤ atLeastStep (r.scale != .bool false) (1/4) ged) := by
  obtain ⟨fed1, fa1, te1, ged1, ga1, mfa1, hp, hs⟩ := C168_exact h hr hrr hnf hX hY
  obtain ⟨m1, m2, m3⟩ := range_at_most h.xPos h.yPos hall hp
  refine ⟨fun hi => ?_, fun hi => ?_, fun hi => ?_⟩
  · rw [hs _ img (atLeastStep (r.scale != .bool false) (1/16) fed1) hi (by simp [shown])]
    exact shown_mono _ m1
  · rw [hs _ img (atLeastStep (r.scale != .bool false) (152597 / 100000000000) te1) hi (by simp [shown])]
    exact shown_mono _ (m2 hen)
  · rw [hs _ img (atLeastStep (r.scale != .bool false) (1/4) ged1) hi (by simp [shown])]
    exact shown_mono _ m3

end

/-- Footprints are at most half of the padding that is asked for from the position of their flash. -/
def SmallFlashes (foot : Pt → Poly) (d : GFile) : Prop :=
  ∀ f ∈ d.flashes, ∀ e ∈ d.events, EventOfFlash d f.id e → ∀ v ∈ foot (placeOf e),
    |v.1 - f.val.x| ≤ 14 / 10000 ∧ |v.2 - f.val.y| ≤ 14 / 10000

/-- **C168**, in full: every pixel shows what all lightning puts there, if flashes are small compared with the padding that
is asked for, whatever the size of boxes. -/
def C168_full : Prop :=
  ∀ (env : Surroundings) (kw shared sh : Dict) (xlo ylo dx dy : Rat) (M N s : Nat) (me mg : Option Int)
    (files opened : List GFile) (runs : List (TileRun TileState ImageFile)),
    AnyBoxes env kw xlo ylo dx dy M N s me mg files opened → (∀ d ∈ opened, SmallFlashes env.foot d) →
    gridGlmFlashes (lutGridder env) files kw shared = .ok (runs, sh) →
    ∀ r ∈ runs, ∀ nf ∈ r.written, ∀ row col X Y, nf.2.x[col]? = some X → nf.2.y[row]? = some Y →
      ∃ fed fa te ged ga mfa, PixelHolds env.clip env.foot me mg opened dx dy X Y fed fa te ged ga mfa ∧
        ∀ name img v, (name, img) ∈ nf.2.fields → (name, v) ∈ shown (r.scale != .bool false) fed fa te ged ga mfa →
          img.val row col = v

/-! ### Sample -/

/-- A file with one flash of one event, next to the seam between two tiles. -/
def seamSample : GFile where
  flashes := [⟨5, 0, { x := 99/10000, y := 1/1000, area := 100, nGroups := 1, nEvents := 1 }⟩]
  groups := [⟨13, 5, { nEvents := 1, area := 40 }⟩]
  events := [⟨100, 13, { x := 99/10000, y := 1/1000, energy := 2, flashOf := 5 }⟩]

/-- A call for four by two boxes of five milliradians in four tiles, without padding. -/
def largeBoxCall : Dict :=
  [("proj_name", .str "geos"), ("fixed_grid", .bool true), ("dx", .num (1/200)), ("dy", .num (1/200)),
   ("x_bnd", .bnd 0 (4/200)), ("y_bnd", .bnd 0 (2/200)), ("subdivide", .nat 2), ("clip_events", .bool true),
   ("ellipse_rev", .nat 1), ("nadir_lon", .num (-75)), ("output_filename_prefix", .str "GLM"),
   ("output_writer", .function "write_cf_netcdf"), ("min_points_per_flash", .nat 1)]

theorem largeBoxCall_any : AnyBoxes wholeEnv largeBoxCall 0 0 (1/200) (1/200) 4 2 2 (some 1) none [seamSample] [seamSample] where
  asked :=
    { proj := ⟨_, rfl⟩
      fixed := ⟨by decide +kernel, by decide +kernel⟩
      xBox := rfl
      yBox := rfl
      x := by decide +kernel
      y := by decide +kernel
      subdivide := Or.inl rfl
      given := by decide +kernel
      minEvents := Or.inl ⟨1, rfl, rfl⟩
      minGroups := Or.inr ⟨Or.inr rfl, rfl⟩ }
  xPos := by norm_num
  yPos := by norm_num
  tiles := by omega
  xTiles := by omega
  yTiles := by omega
  edges := arange_makesEdges
  parts := fun p q s => rectClip_ne_nil p q s
  order := fun l => List.Perm.refl l
  opens := fun _ _ => opens_same _
  some := ⟨seamSample, by simp, by simp [seamSample]⟩
  any := by
    intro d hd _
    rw [List.mem_singleton] at hd
    subst hd
    exact
      { hasData := by unfold HasData; decide +kernel
        consistent := by decide +kernel
        derived := ⟨by decide +kernel, by decide +kernel, by decide +kernel, by decide +kernel⟩
        flashes := by unfold UniqueIds; decide +kernel
        groups := by unfold UniqueIds; decide +kernel
        areas := by decide +kernel
        pixels := by unfold PixelExact placeOf; decide +kernel
        polygons := by decide +kernel }
  centred := fun _ _ _ _ => square_centred (by norm_num) (by norm_num) (by norm_num) _


example : padding (1/200) = 0 := by decide +kernel

theorem seamSample_event : EventOfFlash seamSample 5 ⟨100, 13, { x := 99/10000, y := 1/1000, energy := 2, flashOf := 5 }⟩ :=
  ⟨⟨13, 5, { nEvents := 1, area := 40 }⟩, by simp [seamSample], rfl, rfl⟩

/-- The image does not show the part of the footprint that is beyond the seam between two tiles. -/
theorem C168_full_false : ¬ C168_full := by
  classical
  intro hfull
  obtain ⟨runs, sh, h1, h2, h3⟩ := C168_succeeds [] largeBoxCall_any
  have hij : (1, 0) ∈ runs.map fun r => r.ij := by rw [h2]; decide
  obtain ⟨r, hr, hij⟩ := List.mem_map.mp hij
  obtain ⟨f, hf, hs⟩ := h3 r hr
  rw [hij] at hs
  have hx : f.x[0]? = some (1/80 : Rat) := by rw [hs.x]; decide +kernel
  have hy : f.y[0]? = some (1/400 : Rat) := by rw [hs.y]; decide +kernel
  have hnf : (f.name, f) ∈ r.written := by rw [hf]; exact List.mem_singleton.mpr rfl
  obtain ⟨fed, fa, te, ged, ga, mfa, hp, hv⟩ := hfull _ _ _ _ _ _ _ _ _ _ _ _ _ _ _ _ largeBoxCall_any (by
    intro d hd
    rw [List.mem_singleton] at hd
    subst hd
    intro f hf e he _
    simp only [seamSample, List.mem_singleton] at hf he
    subst hf he
    decide +kernel) h1 r hr _ hnf 0 0 _ _ hx hy
  obtain ⟨fed', fa', te', ged', ga', mfa', hp', hv'⟩ := C168_exact largeBoxCall_any h1 hr hnf hx hy
  have hcount : countedEvents (some 1) none seamSample = seamSample.events := by
    unfold countedEvents
    rw [List.filter_eq_self]
    intro e he
    apply decide_eq_true
    refine ⟨_, List.mem_filter.mpr ⟨List.mem_singleton.mpr rfl, decide_eq_true ⟨fun m h => by cases h; decide +kernel,
      fun m h => by cases h⟩⟩, ?_⟩
    simp only [seamSample, List.mem_singleton] at he
    subst he
    exact seamSample_event
  have hte : te = 2 * (partArea rectClip (wholeEnv.foot (99/10000, 1/1000)) (pixelAt (1/200) (1/200) (1/80) (1/400)) /
      |signedArea (wholeEnv.foot (99/10000, 1/1000))|) := by
    rw [hp.energy, List.map_singleton, hcount]
    simp only [seamSample, List.map_cons, List.map_nil, List.sum_cons, List.sum_nil, add_zero, placeOf]
    rfl
  have hte : te = 13/15 := by rw [hte]; decide +kernel
  have hte' : te' = 0 := by
    rw [hp'.energy]
    refine List.sum_eq_zero fun v hv => ?_
    obtain ⟨d, hd, rfl⟩ := List.mem_map.mp hv
    refine List.sum_eq_zero fun v hv => ?_
    obtain ⟨e, he, rfl⟩ := List.mem_map.mp hv
    obtain ⟨d, hd', rfl⟩ := List.mem_map.mp hd
    rw [List.mem_singleton] at hd'
    subst hd'
    have he' : e ∈ seamSample.events := (List.mem_filter.mp he).1
    simp only [seamSample, List.mem_singleton] at he'
    subst he'
    have hz : partArea (rangeClip wholeEnv.clip (1/200) (1/200) (padding (1/200)) (padding (1/200)) f.x f.y (1/80) (1/400))
        (wholeEnv.foot (placeOf ⟨100, 13, { x := 99/10000, y := 1/1000, energy := 2, flashOf := 5 }⟩))
        (pixelAt (1/200) (1/200) (1/80) (1/400)) = 0 := by
      rw [hs.x, hs.y]
      decide +kernel
    rw [hz, zero_div, mul_zero]
  have hname : "total_energy" ∈ f.fields.map Prod.fst := by rw [hs.names]; decide
  obtain ⟨⟨n, img⟩, hi, hn⟩ := List.mem_map.mp hname
  obtain rfl : n = "total_energy" := hn
  have e1 := hv _ img (atLeastStep (r.scale != .bool false) (152597 / 100000000000) te) hi (by simp [shown])
  have e2 := hv' _ img (atLeastStep (r.scale != .bool false) (152597 / 100000000000) te') hi (by simp [shown])
  rw [e1, hte, hte'] at e2
  revert e2
  cases (r.scale != .bool false) <;> decide +kernel

/-- The pixel west of the seam does show the flash. -/
example : partArea (rangeClip wholeEnv.clip (1/200) (1/200) (padding (1/200)) (padding (1/200)) (boxCentres 0 (1/200) 0 2)
    (boxCentres 0 (1/200) 0 1).reverse (3/400) (1/400)) (wholeEnv.foot (99/10000, 1/1000))
    (pixelAt (1/200) (1/200) (3/400) (1/400)) = 51/40000000 := by decide +kernel

example : ∀ e ∈ seamSample.events, 0 ≤ e.val.energy := by decide +kernel

end Verif.Props
