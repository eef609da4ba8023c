import Verif.Props.SessionFl

/-!
# C128: the images, exact arithmetic, and a case
-/

namespace Verif.Props

open Verif.Py Verif.Model Verif.Spec Verif.Proofs

/-! ## The images -/

/-- **C128**: from files to files, with all roundings.  The energy over all pixels of the image that is written from the
grids of 32 bit floats and read again is the energy of the events of the flashes that are asked for, within the relative
error of `C128_energy`, and at most half a step too low and one step too high for each cell with energy. -/
theorem C128_image {A : Arith} (hA : NumpyLike A) {n : Nat} {R k S : Rat} (hn : n ≤ 1000000) (hk : k ≤ 1 / 100)
    (query : List Pt → Pt → Nat → List Nat) {iclip : IPoly → IPoly → List IPoly}
    {τ : Nat → Rat → Rat} (hτ : ClipsWithin iclip τ) (τ0 : ∀ n ℓ, 0 ≤ ℓ → 0 ≤ τ n ℓ)
    (hne : ∀ p q s, s ∈ iclip p q → s ≠ []) {m : Nat} (hm : ∀ p q, (iclip p q).length ≤ m) {ε : Rat} (hε0 : 0 ≤ ε)
    (hε : ε < 1)
    {foot : Pt → Poly} {x y : List Rat} {dx dy : Rat} (basedate : Int) (hx : AxisOk x) (hy : AxisOk y)
    (hsz : 2 < x.length ∨ 2 < y.length) (ux : Spaced x dx) (uy : Spaced y dy) (hdx : 2 / clipperScale ≤ dx)
    (hdy : 2 / clipperScale ≤ dy)
    (hcell : ∀ i j, i + 1 < y.length → j + 1 < x.length → ShareOk n R k (cellRect x y i j))
    (loc : Rat → Rat → Int) {order : List Int → List Int} (ho : ∀ l, (order l).Perm l) (crit : Criteria) {size : Nat}
    (hs : 0 < size) (lcfa : List (Int × GFile))
    (hf : ∀ d ∈ lcfa, d.2.events ≠ [] → FileFl iclip τ n m R k ε S foot x y dx dy d.2)
    (points : Grid → List LmaParent → Grid) (label : String) (par : String → List LmaEvent → List LmaParent) :
    ∃ sent outgrids grids te,
      readFilesFl A (scaledClip iclip) query (fun pts => pts.map foot) (gridMesh x y) basedate loc order crit size
        lcfa = .ok sent ∧
      lutPipelineSetup = .ok outgrids ∧
      gridFrameFl A points (x.length - 1) (y.length - 1) outgrids (fun k => sent.map fun evs => (evs, par k evs)) =
        .ok grids ∧
      gridNamed label grids "total_energy" = some te ∧
      ∀ (s : ImageSetup) (g g' : Grids) (files : List ImageFile)
        (fed fcd flashArea energy ged gcd groupArea minArea : Nat → Nat → Nat → Rat),
        LutGrids s g fed fcd flashArea energy ged gcd groupArea minArea →
        g.nx = x.length - 1 → g.ny = y.length - 1 → 2 ≤ s.tEdges.length →
        writeImagery s none true g = .ok (files, g') →
        ∀ (overflow : Rat → Option Rat) (ns : Rat → Int) (series : TimeSeries),
        openGlmTimeSeries s.names (files.map (storeFile overflow true ns)) = .ok series →
        ∀ (t : Nat) (frame : Frame), series.frames[t]? = some frame →
        (∀ i j, i + 1 < x.length → j + 1 < y.length → energy i j t = te.val i j ∧
          Storable (152597 / 100000000000) (te.val i j)) →
        askedEnergy crit lcfa -
            ((1 + chunkError m k ε) * (1 + 1 / 2 ^ 24) ^ (chunkCount size lcfa + 1) - 1) * askedEnergy crit lcfa -
            152597 / 100000000000 / 2 * litCells x y te ≤
          imageTotal g.ny g.nx (frame.value "total_energy") ∧
        imageTotal g.ny g.nx (frame.value "total_energy") ≤
          askedEnergy crit lcfa +
            ((1 + chunkError m k ε) * (1 + 1 / 2 ^ 24) ^ (chunkCount size lcfa + 1) - 1) * askedEnergy crit lcfa +
            152597 / 100000000000 * litCells x y te := by
  obtain ⟨sent, outgrids, grids, te, h1, h2, h3, h4, h5⟩ := C128_energy hA hn hk query hτ τ0 hne hm hε0 hε basedate
    hx hy hsz ux uy hdx hdy hcell loc ho crit hs lcfa hf points label par
  refine ⟨sent, outgrids, grids, te, h1, h2, h3, h4, ?_⟩
  intro s g g' files fed fcd flashArea energy ged gcd groupArea minArea hg gx gy ht hw overflow ns series hs t frame ht'
    hte
  obtain ⟨i1, i2⟩ := C106_image s g g' files fed fcd flashArea energy ged gcd groupArea minArea hg hw ht overflow ns
    series hs t frame ht' x y gx gy te hte
  obtain ⟨b1, b2⟩ := abs_le.mp h5
  constructor <;> linarith

/-! ## Exact arithmetic -/

theorem exact_lut (t : Int) (loc : Rat → Rat → Int) (d : GFile) :
    getLuteventsFl Arith.exact t loc d = getLutevents t loc d := rfl

theorem exact_chunk {clip : Poly → Poly → List Poly} {query : List Pt → Pt → Nat → List Nat}
    {quads : List Pt → List Poly} {mesh : Mesh} {t basedate : Int} {loc : Rat → Rat → Int} {d : GFile}
    {rows : List LutRow} {evs : List LmaEvent} (hrows : getLutevents t loc d = .ok rows)
    (h : readChunkFl Arith.exact clip query quads mesh basedate rows = .ok evs) :
    ∃ o, fastFixedGridReadChunk clip query quads mesh t basedate loc d = .ok o ∧
      (o.toList.map FakeLma.children) = [evs].filter fun evs => evs.length ≥ 1 := by
  unfold readChunkFl at h
  rw [exact_areas] at h
  simp only [exact_slice] at h
  obtain ⟨⟨chopped, totals⟩, h1, h⟩ := bind_ok h
  obtain ⟨areas, h2, h⟩ := bind_ok h
  simp only [exact_split] at h
  obtain ⟨⟨q, props⟩, h3, h⟩ := bind_ok h
  obtain ⟨split, h4, h5⟩ := bind_ok h
  have h4' : replicateAndWeightNew rows (splitDatasetFromProps props) = .ok split := h4
  have h5' : fakeLmaEvents split basedate = .ok evs := h5
  have h6 : mimicLmaDatasetLut d split basedate = .ok ⟨evs, fakeLmaParents d basedate d.flashes, fakeLmaParents d basedate d.groups⟩ := by
    unfold mimicLmaDatasetLut
    rw [h5']
    rfl
  refine ⟨if evs.length ≥ 1 then some ⟨evs, fakeLmaParents d basedate d.flashes, fakeLmaParents d basedate d.groups⟩ else none, ?_, ?_⟩
  · unfold fastFixedGridReadChunk
    rw [hrows, ok_bind']
    simp only
    rw [h1, ok_bind', h2, ok_bind', h3, ok_bind', h4', ok_bind', h6]
    rfl
  · by_cases he : evs.length ≥ 1
    · rw [if_pos he]
      simp [he]
    · rw [if_neg he]
      simp [he]

theorem exact_flashes {clip : Poly → Poly → List Poly} {query : List Pt → Pt → Nat → List Nat}
    {quads : List Pt → List Poly} {mesh : Mesh} {basedate : Int} {loc : Rat → Rat → Int} {order : List Int → List Int}
    {c : Criteria} {size : Nat} {t : Int} {d : GFile} {sent : List (List LmaEvent)}
    (h : readFlashesFl Arith.exact clip query quads mesh basedate loc order c size t d = .ok sent) :
    ∃ fakes, readFlashesLut clip query quads mesh basedate loc order c size t d = .ok fakes ∧
      fakes.map FakeLma.children = sent := by
  unfold readFlashesFl at h
  obtain ⟨chunks, h1, h'⟩ := bind_ok h
  clear h
  obtain ⟨evss, h2, h⟩ := bind_ok h'
  clear h'
  cases h
  unfold readFlashesLut
  rw [h1, ok_bind']
  clear h1
  suffices ∃ os, chunks.mapM (fastFixedGridReadChunk clip query quads mesh t basedate loc) = .ok os ∧
      (os.filterMap id).map FakeLma.children = evss.filter fun evs => evs.length ≥ 1 by
    obtain ⟨os, o1, o2⟩ := this
    exact ⟨os.filterMap id, by rw [o1, ok_bind']; rfl, o2⟩
  have h3 := mapM_ok_forall₂ h2
  clear h2
  induction h3 with
  | nil => exact ⟨[], rfl, rfl⟩
  | cons hab _ ih =>
    rename_i ch evs chunks evss _
    obtain ⟨os, o1, o2⟩ := ih
    obtain ⟨rows, r1, r2⟩ := bind_ok hab
    obtain ⟨o, p1, p2⟩ := exact_chunk r1 r2
    refine ⟨o :: os, by rw [List.mapM_cons, p1, ok_bind', o1, ok_bind']; rfl, ?_⟩
    have : (o :: os).filterMap id = o.toList ++ os.filterMap id := by cases o <;> rfl
    rw [this, List.map_append, p2, o2, ← List.filter_append]
    rfl

theorem accumulateMinvarSingle_id : accumulateMinvarSingle id = accumulateMinvar := by
  funext g ds
  unfold accumulateMinvarSingle
  have : ds.map (castRow id) = ds := by
    conv_rhs => rw [← List.map_id ds]
    rfl
  rw [this]

/-- C128: in exact arithmetic the reading of files and the grids are those of which the other properties speak. -/
theorem C128_exact (clip : Poly → Poly → List Poly) (query : List Pt → Pt → Nat → List Nat)
    (quads : List Pt → List Poly) (mesh : Mesh) (basedate : Int) (loc : Rat → Rat → Int) (order : List Int → List Int)
    (c : Criteria) (size : Nat) (files : List (Int × GFile)) (sent : List (List LmaEvent))
    (h : readFilesFl Arith.exact clip query quads mesh basedate loc order c size files = .ok sent) :
    (∃ fakes, readFiles clip query quads mesh basedate loc order c size files = .ok fakes ∧
      fakes.map FakeLma.children = sent) ∧
    gridFrameFl Arith.exact = gridFrame := by
  constructor
  · unfold readFilesFl at h
    obtain ⟨evss, h1, h⟩ := bind_ok h
    cases h
    unfold readFiles
    suffices ∃ os, files.mapM (fun f => if f.2.events.length > 0 then
          readFlashesLut clip query quads mesh basedate loc order c size f.1 f.2 else pure []) = .ok os ∧
        os.flatten.map FakeLma.children = evss.flatten by
      obtain ⟨os, o1, o2⟩ := this
      exact ⟨os.flatten, by rw [o1, ok_bind']; rfl, o2⟩
    have h2 := mapM_ok_forall₂ h1
    clear h1 h
    induction h2 with
    | nil => exact ⟨[], rfl, rfl⟩
    | cons hab _ ih =>
      rename_i f evs files evss _
      obtain ⟨os, o1, o2⟩ := ih
      have : ∃ o, (if f.2.events.length > 0 then
          readFlashesLut clip query quads mesh basedate loc order c size f.1 f.2 else pure []) = Except.ok o ∧
          o.map FakeLma.children = evs := by
        split at hab
        · rename_i h0
          rw [if_pos h0]
          exact exact_flashes hab
        · rename_i h0
          rw [if_neg h0]
          cases hab
          exact ⟨[], rfl, rfl⟩
      obtain ⟨o, p1, p2⟩ := this
      refine ⟨o :: os, by rw [List.mapM_cons, p1, ok_bind', o1, ok_bind']; rfl, ?_⟩
      rw [List.flatten_cons, List.flatten_cons, List.map_append, p2, o2]
  · funext points nx ny outgrids frames
    unfold gridFrameFl gridFrame
    have : (fun a : Accum => a.receiveFl Arith.exact points) = fun a => a.receive points := by
      funext a g frame
      unfold Accum.receiveFl Accum.receive
      have e : Arith.exact.store = id := rfl
      rw [e, accumulateVarSingle_id, accumulateMinvarSingle_id]
      cases a <;> rfl
    have h' : ∀ a : Accum, a.receiveFl Arith.exact points = a.receive points := fun a => congrFun this a
    simp only [h']

/-! ## Pieces of the rounded intersection -/

/-- The pieces of the intersection with rounded corners are not much farther from the origin than the polygon, and have at
most sixteen times as many corners. -/
theorem roundClip_small {n : Nat} {R : Rat} {p q : Poly} (h : SmallPoly n R p) :
    ∀ s ∈ scaledClip roundClip p q, SmallPoly (16 * n) (R + 2 / clipperScale) s := by
  intro s hs
  have hpos := scale_pos
  unfold scaledClip at hs
  obtain ⟨s1, h1, rfl⟩ := List.mem_map.mp hs
  have hne1 := roundClip_ne_nil _ _ _ h1
  unfold roundClip at h1
  obtain ⟨s2, h2, rfl⟩ := List.mem_map.mp h1
  have hR : ∀ v : Rat, |v| ≤ R → |(toClipper v : Rat)| ≤ R * clipperScale + 1 := by
    intro v hv
    have a1 := toClipper_near v
    have a2 : |v * clipperScale| ≤ R * clipperScale := by
      rw [abs_mul, abs_of_pos hpos]
      exact mul_le_mul_of_nonneg_right hv hpos.le
    have a3 := abs_sub_abs_le_abs_sub (toClipper v : Rat) (v * clipperScale)
    linarith
  have hQ : SegClosed fun v : Pt => |v.1| ≤ R * clipperScale + 1 ∧ |v.2| ≤ R * clipperScale + 1 := by
    intro a b t t0 t1 ⟨ha, ha'⟩ ⟨hb, hb'⟩
    have key : ∀ u v : Rat, |u| ≤ R * clipperScale + 1 → |v| ≤ R * clipperScale + 1 →
        |u + t * (v - u)| ≤ R * clipperScale + 1 := by
      intro u v hu hv
      rw [abs_le] at *
      constructor <;> nlinarith
    exact ⟨key _ _ ha hb, key _ _ ha' hb'⟩
  have hin : ∀ v ∈ counterclockwise (ofInts (scaleToClipper p)),
      |v.1| ≤ R * clipperScale + 1 ∧ |v.2| ≤ R * clipperScale + 1 := by
    intro v hv
    rw [mem_counterclockwise] at hv
    unfold ofInts scaleToClipper at hv
    rw [List.map_map] at hv
    obtain ⟨u, hu, rfl⟩ := List.mem_map.mp hv
    exact ⟨hR _ (h.x u hu), hR _ (h.y u hu)⟩
  have hs2 : s2.length ≤ 16 * p.length ∧
      ∀ v ∈ s2, |v.1| ≤ R * clipperScale + 1 ∧ |v.2| ≤ R * clipperScale + 1 := by
    unfold convexClip at h2
    split at h2
    · split at h2
      · cases h2
      · rw [List.mem_singleton] at h2
        subst h2
        refine ⟨?_, fun v hv => (cutRect_mem hQ hin _ _ _ _ v hv).1⟩
        refine (cutRect_count _ _ _ _ _).trans ?_
        rw [counterclockwise_length]
        simp [ofInts, scaleToClipper]
    · cases h2
  have hr : ∀ v : Rat, |v| ≤ R * clipperScale + 1 → |fromClipper (round v)| ≤ R + 2 / clipperScale := by
    intro v hv
    have a1 := abs_sub_round v
    have a2 := abs_sub_abs_le_abs_sub (round v : Rat) v
    rw [abs_sub_comm] at a2
    unfold fromClipper
    rw [abs_div, abs_of_pos hpos, div_le_iff₀ hpos, add_mul, div_mul_cancel₀ _ hpos.ne']
    linarith
  refine ⟨by simpa [scaleFromClipper] using hne1, ?_, ?_, ?_⟩
  · simp only [scaleFromClipper, List.length_map]
    have := h.len
    omega
  · intro v hv
    simp only [scaleFromClipper, List.map_map, List.mem_map] at hv
    obtain ⟨u, hu, rfl⟩ := hv
    exact hr _ (hs2.2 u hu).1
  · intro v hv
    simp only [scaleFromClipper, List.map_map, List.mem_map] at hv
    obtain ⟨u, hu, rfl⟩ := hv
    exact hr _ (hs2.2 u hu).2

/-! ## A case -/

theorem slanted_clear (p : Pt) : ClearlyConvex (1 / clipperScale) (slanted p) := by
  right
  intro k hk j hj h1 h2
  unfold slanted clipperScale at *
  simp only [List.reverse_cons, List.reverse_nil, List.nil_append, List.cons_append, List.length_cons,
    List.length_nil] at *
  interval_cases k <;> interval_cases j <;>
    simp only [cross, List.getD_cons_zero, List.getD_cons_succ, zero_add, Nat.reduceAdd, Nat.reduceMod] at * <;>
    first
    | exact absurd rfl h1
    | exact absurd rfl h2
    | (ring_nf; norm_num)

theorem slanted_outline (p : Pt) : outlineLength (slanted p) = 6 := by
  unfold outlineLength slanted
  simp only [List.length_cons, List.length_nil, List.range_succ, List.range_zero, List.nil_append, List.cons_append,
    List.map_cons, List.map_nil, List.sum_cons, List.sum_nil, List.getD_cons_zero, List.getD_cons_succ, zero_add,
    Nat.reduceAdd, Nat.reduceMod]
  ring_nf
  norm_num

/-- The footprints of places on the grid. -/
theorem slanted_place {p : Pt} (h1 : 3/4 ≤ p.1) (h2 : p.1 ≤ 21/4) (h3 : 3/4 ≤ p.2) (h4 : p.2 ≤ 17/4) :
    PlaceFl roundClip (fun n ℓ => ℓ / 2 + 4 * n) 64 7 (1 / 10000000000) (1 / 10000000) slanted sampleX sampleY 1 1 p := by
  have hf := slanted_foot h1 h2 h3 h4
  have hsmall : SmallPoly 4 6 (slanted p) := by
    refine ⟨by simp [slanted], by simp [slanted], ?_, ?_⟩ <;>
    · intro v hv
      unfold slanted at hv
      simp only [List.mem_cons, List.not_mem_nil, or_false] at hv
      rcases hv with rfl | rfl | rfl | rfl <;> rw [abs_le] <;> constructor <;> simp only <;> linarith
  refine ⟨⟨slanted_clear p, hf.area, hf.onGrid, hf.narrow, ?_⟩, ⟨⟨hsmall.ne, by have := hsmall.len; omega,
    fun v hv => (hsmall.x v hv).trans (by norm_num), fun v hv => (hsmall.y v hv).trans (by norm_num)⟩, hf.area, ?_⟩,
    ?_, room_stable sample_axes.1 sample_axes.2.1 sample_spaced.1 sample_spaced.2
      (slanted_room h1 h2 h3 h4 (by unfold meanError ulp1; norm_num)) (by unfold meanError ulp1; norm_num)
      fun i j h => roundClip_beside h⟩
  · refine (roundClip_error _).trans ?_
    rw [slanted_outline, slanted_area]
    simp only [slanted, List.length_cons, List.length_nil]
    unfold clipperScale
    norm_num [abs_of_neg]
  · rw [slanted_area]
    unfold doubleAreaError
    norm_num [abs_of_neg]
  · intro i j _ _ s hs
    obtain ⟨a1, a2, a3, a4⟩ := roundClip_small hsmall s hs
    have : (6 : Rat) + 2 / clipperScale ≤ 7 := by unfold clipperScale; norm_num
    exact ⟨a1, a2, fun v hv => (a3 v hv).trans this, fun v hv => (a4 v hv).trans this⟩

/-- Two flashes in three groups, with four events in three pixels. -/
def sessionSample : GFile where
  flashes := [⟨5, 0, { area := 100, nGroups := 2, nEvents := 2 }⟩, ⟨3, 0, { area := 60, nGroups := 1, nEvents := 2 }⟩]
  groups := [⟨11, 5, { area := 30, nEvents := 1 }⟩, ⟨12, 3, { area := 60, nEvents := 2 }⟩, ⟨13, 5, { area := 70, nEvents := 1 }⟩]
  events := [⟨100, 13, { x := 2, y := 2, energy := 2, flashOf := 5 }⟩,
    ⟨101, 11, { x := 9/4, y := 17/8, energy := 3, flashOf := 5 }⟩,
    ⟨102, 12, { x := 3, y := 2, energy := 4, flashOf := 3 }⟩,
    ⟨103, 12, { x := 3, y := 3, energy := 5, flashOf := 3 }⟩]

theorem isDouble_of_eq {v : Rat} (h : double v = v) : IsDouble v := h ▸ double_isDouble v

theorem sessionSample_ok : FileFl roundClip (fun n ℓ => ℓ / 2 + 4 * n) 64 1 7 (1 / 10000000000) (1 / 10000000) 4 slanted
    sampleX sampleY 1 1 sessionSample := by
  refine ⟨by unfold HasData; decide +kernel, by decide +kernel,
    ⟨by decide +kernel, by decide +kernel, by decide +kernel, by decide +kernel⟩, by unfold UniqueIds; decide +kernel,
    by unfold UniqueIds; decide +kernel, ⟨?_, ?_, ?_, ?_, ?_⟩, by decide, ?_⟩
  · have h : ∀ e ∈ sessionSample.events, double e.val.x = e.val.x ∧ |e.val.x| ≤ 4 := by decide +kernel
    exact fun e he => ⟨isDouble_of_eq (h e he).1, (h e he).2⟩
  · have h : ∀ e ∈ sessionSample.events, double e.val.y = e.val.y ∧ |e.val.y| ≤ 4 := by decide +kernel
    exact fun e he => ⟨isDouble_of_eq (h e he).1, (h e he).2⟩
  · have h : ∀ e ∈ sessionSample.events, double e.val.energy = e.val.energy ∧ 0 ≤ e.val.energy := by decide +kernel
    exact fun e he => ⟨isDouble_of_eq (h e he).1, (h e he).2⟩
  · have h : ∀ e ∈ sessionSample.flashes, double e.val.area = e.val.area ∧ 0 ≤ e.val.area := by decide +kernel
    exact fun e he => ⟨isDouble_of_eq (h e he).1, (h e he).2⟩
  · have h : ∀ e ∈ sessionSample.groups, double e.val.area = e.val.area ∧ 0 ≤ e.val.area := by decide +kernel
    exact fun e he => ⟨isDouble_of_eq (h e he).1, (h e he).2⟩
  · refine ⟨2, 3, 2, 3, by decide +kernel, ?_⟩
    intro p h1 h2 h3 h4
    norm_num at h1 h2 h3 h4
    exact slanted_place (by linarith) (by linarith) (by linarith) (by linarith)

/-- Its table has three rows. -/
example : ∃ rows rows', getLutevents 7 sampleLoc sessionSample = .ok rows ∧ rows.length = 3 ∧
    getLuteventsFl leftArith 7 sampleLoc sessionSample = .ok rows' ∧ List.Forall₂ (RowClose 4) rows' rows := by
  have h : (getLutevents 7 sampleLoc sessionSample).toOption.map List.length = some 3 := by decide +kernel
  cases hr : getLutevents 7 sampleLoc sessionSample with
  | error e => rw [hr] at h; cases h
  | ok rows =>
    obtain ⟨rows', h1, h2⟩ := C128_table leftArith_ok sessionSample_ok.doubles (by decide) hr
    rw [hr] at h
    exact ⟨rows, rows', rfl, by simpa [Except.toOption] using h, h1, h2⟩

/-- An event in the cell (1, 0). -/
def thirdEvent : LmaEvent := ⟨5, 1, 1, 0, 1, 0, 1, 1/3, 1, 1, 1, 100, 30, 60⟩

/-- The grids of two frames with rounded values. -/
example : ∃ te : Grid, te.n0 = 2 ∧ te.n1 = 1 ∧ ∀ i j, te.val i j = addRounded roundSingle 0
    ((onCell i j [([thirdEvent], []), ([{ thirdEvent with power := 1/7 }], [])]).map LmaEvent.power) := by
  obtain ⟨outgrids, grids, fed, fcd, fa, te, ged, gcd, ga, mfa, -, -, -, h4, -, -, -, ⟨-, h8⟩, -⟩ :=
    C128_grids (A := leftArith) rfl (fun g _ => g) "" 2 1
      (fun _ => [([thirdEvent], []), ([{ thirdEvent with power := 1/7 }], [])]) (by
        intro _; unfold ChildrenOk
        decide +kernel)
  exact ⟨te, (h4 te (by simp)).1, (h4 te (by simp)).2, h8⟩

theorem sample_cells : ∀ i j, i + 1 < sampleY.length → j + 1 < sampleX.length →
    ShareOk 64 7 (1 / 10000000000) (cellRect sampleX sampleY i j) := by
  have h : ∀ i < 5, ∀ j < 6, ShareOk 64 7 (1 / 10000000000) (cellRect sampleX sampleY i j) := by decide +kernel
  have hx : sampleX.length = 7 := rfl
  have hy : sampleY.length = 6 := rfl
  exact fun i j hi hj => h i (by omega) j (by omega)

/-- All the energy of the file, 14, is in the grid, but for one part in a million. -/
example : ∃ sent outgrids grids te,
    readFilesFl leftArith (scaledClip roundClip) (fun _ _ _ => []) (fun pts => pts.map slanted)
      (gridMesh sampleX sampleY) 0 sampleLoc id {} 1 [(7, sessionSample)] = .ok sent ∧
    lutPipelineSetup = .ok outgrids ∧
    gridFrameFl leftArith (fun g _ => g) (sampleX.length - 1) (sampleY.length - 1) outgrids
      (fun _ => sent.map fun evs => (evs, [])) = .ok grids ∧
    gridNamed "" grids "total_energy" = some te ∧
    |gridTotal sampleX sampleY te - 14| ≤ 14 / 1000000 := by
  obtain ⟨a1, a2, -, -⟩ := sample_axes
  obtain ⟨a3, a4⟩ := sample_spaced
  obtain ⟨sent, outgrids, grids, te, h1, h2, h3, h4, h5⟩ := C128_energy leftArith_ok (n := 64) (R := 7)
    (k := 1 / 10000000000) (S := 4) (by norm_num) (by norm_num) (fun _ _ _ => []) roundClip_within
    (fun n ℓ h => by positivity) roundClip_ne_nil roundClip_one (ε := 1 / 10000000) (by norm_num) (by norm_num)
    (foot := slanted) 0 a1 a2 (Or.inl (by decide)) a3 a4 (by unfold clipperScale; norm_num)
    (by unfold clipperScale; norm_num) sample_cells sampleLoc (fun l => List.Perm.refl (id l)) {} (size := 1) (by norm_num)
    [(7, sessionSample)] (by
      intro d hd _
      obtain rfl := List.mem_singleton.mp hd
      exact sessionSample_ok) (fun g _ => g) "" (fun _ _ => [])
  refine ⟨sent, outgrids, grids, te, h1, h2, h3, h4, ?_⟩
  have e1 : askedEvents sessionSample {} = sessionSample.events := by
    unfold askedEvents
    rw [List.filter_eq_self]
    have hA : askedFor sessionSample {} = sessionSample.flashes := if_pos (by unfold NoCriteria; decide)
    rw [hA]
    decide +kernel
  have e2 : askedEnergy {} [(7, sessionSample)] = 14 := by
    simp only [askedEnergy, List.map_cons, List.map_nil, e1]
    decide +kernel
  have e3 : chunkCount 1 [(7, sessionSample)] = 3 := by decide +kernel
  rw [e2, e3] at h5
  refine h5.trans ?_
  unfold chunkError
  norm_num

end Verif.Props
