import Verif.Model.Guide
import Verif.Props.Coords
import Verif.Props.Program

/-!
# C109: images of the sectors match the product user guide
-/

namespace Verif.Props

open Verif.Py Verif.Model Verif.Spec Verif.Proofs

/-! ### Specification -/

/-- The pixel centres of an axis with `n` pixels of size `d`, symmetric about `c`. -/
def guideCentres (n : Nat) (d c : Rat) : List Rat := (List.range n).map fun k : Nat => c + (k - (n - 1 : Rat) / 2) * d

/-- The entries of the guide for `M` by `N` pixels of size `d` about a centre. -/
def guideSpec (M N : Nat) (d cx cy : Rat) : PugSpec := ⟨M, N, d, M * d, N * d, cx, cy⟩

/-- The coordinates of the image, north at the top, pass the comparison when they are read from the file. -/
def PassesFromFile (cast : Int → Int) (M N : Nat) (d cx cy : Rat) : Prop :=
  ∃ xs ys : List Rat, (guideCentres M d cx).map (throughFile cast xEncoding) = xs.map some ∧
    (guideCentres N d cy).reverse.map (throughFile cast yEncoding) = ys.map some ∧
    checkAgainstPug xs ys (guideSpec M N d cx cy) = true

/-! ### The comparison -/

theorem deltas_sum (x : List Rat) (a : Rat) (rest : List Rat) (h : x = a :: rest) :
    (List.zipWith (· - ·) rest x).sum = x.getLast (by rw [h]; simp) - a := by
  subst h
  induction rest generalizing a with
  | nil => simp
  | cons b rest ih =>
    rw [List.zipWith_cons_cons, List.sum_cons, ih b, List.getLast_cons (List.cons_ne_nil _ _)]
    ring

theorem deltas_length (a : Rat) (rest : List Rat) : (List.zipWith (· - ·) rest (a :: rest)).length = rest.length := by
  simp

/-- The comparison of an axis in terms of its extreme elements. -/
theorem checkAxis_iff {x : List Rat} (hx : 2 ≤ x.length) {lo hi : Rat} (hlo : lo ∈ x ∧ ∀ v ∈ x, lo ≤ v)
    (hhi : hi ∈ x ∧ ∀ v ∈ x, v ≤ hi)
    (hends : |x.getLast (by intro h; rw [h] at hx; simp at hx) - x.head (by intro h; rw [h] at hx; simp at hx)| = hi - lo)
    (n : Int) (d span ctr : Rat) :
    checkAxis x n d span ctr = true ↔ (x.length : Int) = n ∧
      |(hi - lo) / (x.length - 1 : Rat) - d| ≤ 1 / 100000 * |d| ∧
      |hi - lo + (hi - lo) / (x.length - 1 : Rat) - span| ≤ 1 / 100000 * |span| ∧
      |(lo + hi) / 2 - ctr| ≤ 1 / 100000000 + 1 / 100000 * |ctr| := by
  match x, hx, hlo, hhi, hends with
  | a :: rest, hx, hlo, hhi, hends =>
    have hr : 1 ≤ rest.length := by simpa using hx
    have e1 : rest.foldl min a = lo := by
      obtain ⟨p, q⟩ := foldl_min_spec rest a
      exact le_antisymm (q _ hlo.1) (hlo.2 _ p)
    have e2 : rest.foldl max a = hi := by
      have p := (foldl_max_spec rest a).1
      have q := (foldl_max_spec rest a).2
      exact le_antisymm (hhi.2 _ p) (q _ hhi.1)
    have hle : lo ≤ hi := hlo.2 _ hhi.1
    have hlen : (((a :: rest).length : Nat) : Rat) - 1 = (rest.length : Nat) := by simp
    have hpos : (0 : Rat) < (rest.length : Nat) := by exact_mod_cast hr
    have e3 : |(List.zipWith (· - ·) rest (a :: rest)).sum / ((List.zipWith (· - ·) rest (a :: rest)).length : Nat)| =
        (hi - lo) / (rest.length : Nat) := by
      rw [deltas_sum _ a rest rfl, deltas_length, abs_div, abs_of_pos hpos]
      rw [List.head_cons] at hends
      rw [hends]
    have e4 : (List.zipWith (· - ·) rest (a :: rest)).isEmpty = false := by
      cases rest with
      | nil => simp at hr
      | cons b r => rfl
    rw [hlen]
    unfold checkAxis
    simp only [e1, e2, e3, e4, assertClose, Bool.and_eq_true, decide_eq_true_eq, Bool.not_false, and_true,
      abs_of_nonneg (sub_nonneg.mpr hle), zero_add]
    have e5 : hi - (hi - lo + (hi - lo) / (rest.length : Nat) - (hi - lo) / (rest.length : Nat)) / 2 = (lo + hi) / 2 := by
      ring
    have e6 : lo + (hi - lo + (hi - lo) / (rest.length : Nat) - (hi - lo) / (rest.length : Nat)) / 2 = (lo + hi) / 2 := by
      ring
    rw [e5, e6]
    tauto

/-- The same for an axis whose coordinates never decrease, from the first to the last one or the other way round. -/
theorem checkAxis_mono (n : Nat) (f : Nat → Rat) (hn : 2 ≤ n) (hf : ∀ i j, i ≤ j → j < n → f i ≤ f j) (x : List Rat)
    (hx : x = (List.range n).map f ∨ x = ((List.range n).map f).reverse) (d span ctr : Rat) :
    checkAxis x n d span ctr = true ↔
      |(f (n - 1) - f 0) / (n - 1 : Rat) - d| ≤ 1 / 100000 * |d| ∧
      |f (n - 1) - f 0 + (f (n - 1) - f 0) / (n - 1 : Rat) - span| ≤ 1 / 100000 * |span| ∧
      |(f 0 + f (n - 1)) / 2 - ctr| ≤ 1 / 100000000 + 1 / 100000 * |ctr| := by
  have hmem : ∀ v, v ∈ x ↔ ∃ i < n, f i = v := by
    intro v
    rcases hx with h | h <;> rw [h] <;> simp
  have hlen : x.length = n := by rcases hx with h | h <;> rw [h] <;> simp
  have hx2 : 2 ≤ x.length := by omega
  have hne : x ≠ [] := by intro h; rw [h] at hx2; simp at hx2
  have hmono : f 0 ≤ f (n - 1) := hf _ _ (by omega) (by omega)
  have hends : |x.getLast hne - x.head hne| = f (n - 1) - f 0 := by
    have hh : ∀ (y : List Rat) (hy : y ≠ []), y = (List.range n).map f → y.head hy = f 0 ∧ y.getLast hy = f (n - 1) := by
      intro y hy he
      subst he
      constructor
      · rw [List.head_eq_getElem]; simp
      · rw [List.getLast_eq_getElem]; simp
    rcases hx with h | h
    · obtain ⟨p, q⟩ := hh x hne h
      rw [p, q, abs_of_nonneg (by linarith)]
    · have hr : x.reverse = (List.range n).map f := by rw [h, List.reverse_reverse]
      obtain ⟨p, q⟩ := hh x.reverse (by simpa using hne) hr
      rw [List.head_reverse] at p
      rw [List.getLast_reverse] at q
      rw [p, q, abs_of_nonpos (by linarith)]
      ring
  rw [checkAxis_iff hx2 (lo := f 0) (hi := f (n - 1))
    ⟨(hmem _).mpr ⟨0, by omega, rfl⟩, fun v hv => by
      obtain ⟨i, hi, rfl⟩ := (hmem v).mp hv
      exact hf _ _ (by omega) hi⟩
    ⟨(hmem _).mpr ⟨n - 1, by omega, rfl⟩, fun v hv => by
      obtain ⟨i, hi, rfl⟩ := (hmem v).mp hv
      exact hf _ _ (by omega) (by omega)⟩ hends, hlen]
  simp

theorem guide_last {n : Nat} (hn : 2 ≤ n) (d c : Rat) :
    c + (((n - 1 : Nat) : Rat) - (n - 1 : Rat) / 2) * d - (c + (((0 : Nat) : Rat) - (n - 1 : Rat) / 2) * d) = (n - 1) * d := by
  rw [Nat.cast_sub (by omega)]
  push_cast
  ring

/-- The centres of the guide pass, in both directions. -/
theorem guide_passes {n : Nat} (hn : 2 ≤ n) {d : Rat} (hd : 0 < d) (c : Rat) (x : List Rat)
    (hx : x = guideCentres n d c ∨ x = (guideCentres n d c).reverse) : checkAxis x n d (n * d) c = true := by
  rw [checkAxis_mono n _ hn ?_ x hx]
  · rw [guide_last hn]
    have h1 : (0 : Rat) < n - 1 := by
      have : (2 : Rat) ≤ n := by exact_mod_cast hn
      linarith
    have e1 : (n - 1 : Rat) * d / (n - 1) = d := by field_simp
    rw [e1]
    have e2 : (n - 1 : Rat) * d + d - n * d = 0 := by ring
    have e3 : (c + (((0 : Nat) : Rat) - (n - 1 : Rat) / 2) * d + (c + (((n - 1 : Nat) : Rat) - (n - 1 : Rat) / 2) * d)) / 2 - c = 0 := by
      rw [Nat.cast_sub (by omega)]
      push_cast
      ring
    rw [e2, e3]
    simp only [sub_self, abs_zero]
    refine ⟨by positivity, by positivity, by positivity⟩
  · intro i j hij hj
    have : (i : Rat) ≤ j := by exact_mod_cast hij
    have := mul_le_mul_of_nonneg_right this (le_of_lt hd)
    linarith

/-! ## C109 -/

/-- C109 before storage: the tiles that the program makes for a sector have together the coordinates of the guide, and
these pass the comparison, the rows from the south or from the north. -/
theorem C109_written_partial {σ ι : Type} (lib : Lmatools) (G : DateTime → DateTime → Gridder σ ι) (read : Text → GFile) (a : Args) (view : View) (nx ny : Nat)
    (cx cy : Rat) (runs : List (TileRun σ ι)) (shared : Dict)
    (hf : a.fixedGrid = true) (hp : a.goesPosition ≠ "none") (hs : a.goesSector ≠ "none")
    (hview : lib.grid a.goesPosition a.goesSector (nearestResolution a.dx) = .ok view)
    (hres : 0 < view.resolution) (hnx : view.pixelsEW = nx) (hny : view.pixelsNS = ny) (h2x : 2 ≤ nx) (h2y : 2 ≤ ny)
    (hc : view.center = some (cx, cy) ∨ view.center = none ∧ a.goesSector = "meso" ∧
      ∃ lon lat, a.ctrLon = some lon ∧ a.ctrLat = some lat ∧ lib.toFixedGrid view.nadirLon lon lat = (cx, cy))
    (hsub : 0 < a.subdivide) (hrun : mainProgram lib G read a = .ok (runs, shared))
    (edges : Rat × Rat → Rat → List Rat) (he : MakesEdges edges) :
    ∃ t : Target, targetGrid lib a = .ok t ∧ ∃ span, timeSpan a.filenames a.start a.stop = .ok span ∧ ∃ tiles : List Tile,
      List.Forall₂ (Served (G span.1 span.2) (a.filenames.map read) a t) tiles runs ∧
      ∃ tile : Nat → Nat → Tile, (∀ i < a.subdivide, ∀ j < a.subdivide, tile i j ∈ tiles ∧ (tile i j).ij = (i, j)) ∧
        ∀ i < a.subdivide, ∀ j < a.subdivide,
          let xs := (List.range a.subdivide).flatMap fun i => (tileCoords edges t.dx t.dy (tile i j)).1
          let ys := (List.range a.subdivide).flatMap fun j => (tileCoords edges t.dx t.dy (tile i j)).2
          xs = guideCentres nx view.resolution cx ∧ ys = guideCentres ny view.resolution cy ∧
          checkAgainstPug xs ys (guideSpec nx ny view.resolution cx cy) = true ∧
          checkAgainstPug xs ys.reverse (guideSpec nx ny view.resolution cx cy) = true := by
  obtain ⟨t, t1, -, t2, t3, t5, t6, -⟩ := C62_sector lib a view nx ny cx cy hf hp hs hview (le_of_lt hres) hnx hny hc
  obtain ⟨span, a0, tiles, -, a2, tile, a3, a4, a5⟩ := C83_fixed lib G read a t runs shared hf t1 hrun edges he nx ny
    (by rw [t2]; exact hres) (by rw [t3]; exact hres) hsub (by rw [t5]; ring) (by rw [t6]; ring)
  refine ⟨t, t1, span, a0, tiles, a2, tile, a3, fun i hi j hj => ?_⟩
  have ex : ((List.range a.subdivide).flatMap fun i => (tileCoords edges t.dx t.dy (tile i j)).1) =
      guideCentres nx view.resolution cx := by
    rw [a4 j hj, t5, t2]
    apply List.map_congr_left
    intro k _
    ring
  have ey : ((List.range a.subdivide).flatMap fun j => (tileCoords edges t.dx t.dy (tile i j)).2) =
      guideCentres ny view.resolution cy := by
    rw [a5 i hi, t6, t3]
    apply List.map_congr_left
    intro k _
    ring
  refine ⟨ex, ey, ?_, ?_⟩
  all_goals
    unfold checkAgainstPug guideSpec
    rw [ex, ey, Bool.and_eq_true]
  · exact ⟨guide_passes h2x hres cx _ (Or.inl rfl), guide_passes h2y hres cy _ (Or.inl rfl)⟩
  · exact ⟨guide_passes h2x hres cx _ (Or.inl rfl), guide_passes h2y hres cy _ (Or.inr rfl)⟩

theorem toy_sector_target {t : Target} (h : targetGrid toyLib { toyArgs with goesSector := "conus" } = .ok t) (n : Nat) :
    targetGrid toyLib { toyArgs with goesSector := "conus", subdivide := n } = .ok t := h

/-- The hypotheses of `C109_written_partial` are met: a run for a sector of 1000 by 600 pixels in nine tiles. -/
example : ∃ a runs shared, a.subdivide = 3 ∧ a.goesSector = "conus" ∧
    mainProgram toyLib (fun _ _ => toyGridder) (fun _ => sampleFile) a = .ok (runs, shared) ∧
    toyLib.grid a.goesPosition a.goesSector (nearestResolution a.dx) =
      .ok ⟨-75, 56/1000000, 1000, 600, some (-1/20, 1/20)⟩ := by
  obtain ⟨span, -, h1, -, -⟩ := toy_requested
  have hw : Works toyGridder (toyArgs.filenames.map fun _ => sampleFile) := works_twice toy_works
  obtain ⟨t, h2, -, d1, d2, -⟩ := C62_sector toyLib { toyArgs with goesSector := "conus" }
    ⟨-75, 56/1000000, 1000, 600, some (-1/20, 1/20)⟩ 1000 600 (-1/20) (1/20) rfl (by decide)
    (by decide) (by decide +kernel) (by norm_num) rfl rfl (Or.inl rfl)
  have hv : toyLib.grid toyArgs.goesPosition "conus" (nearestResolution toyArgs.dx) =
    .ok ⟨-75, 56/1000000, 1000, 600, some (-1/20, 1/20)⟩ := by decide +kernel
  have q8 : toyArgs.splitEvents = true := rfl
  have h2 := toy_sector_target h2 3
  generalize toyArgs = a at *
  obtain ⟨⟨runs, shared⟩, h⟩ := C82_partial toyLib (fun _ _ => toyGridder) (fun _ => sampleFile)
    { a with goesSector := "conus", subdivide := 3 } span t hw h1 h2
    ⟨by rw [d1]; norm_num, by rw [d2]; norm_num, Nat.succ_pos 2⟩ q8
  exact ⟨{ a with goesSector := "conus", subdivide := 3 }, runs, shared, rfl, rfl, h, hv⟩

/-! ### From the file -/

theorem guide_in_view {n : Nat} {d : Rat} (hd : 0 < d) (hv : n * d ≤ 32 / 100) {v : Rat}
    (hm : v ∈ guideCentres n d 0) : |v| ≤ 16 / 100 := by
  obtain ⟨k, hk, rfl⟩ := List.mem_map.mp hm
  have hk : (k : Rat) ≤ n - 1 := by
    have : k + 1 ≤ n := List.mem_range.mp hk
    have : ((k + 1 : Nat) : Rat) ≤ n := by exact_mod_cast this
    push_cast at this
    linarith
  have h0 : (0 : Rat) ≤ k := Nat.cast_nonneg k
  have h1 := mul_le_mul_of_nonneg_right hk (le_of_lt hd)
  have h2 := mul_nonneg h0 (le_of_lt hd)
  rw [abs_le]
  constructor <;> nlinarith

/-- What is read for an axis: a list that never decreases, each element at an odd multiple of 28 microradian next to
what was written. -/
theorem guide_read (cast : Int → Int) (e : CoordEncoding) (he : e = xEncoding ∨ e = yEncoding) {n : Nat}
    {d : Rat} (hd : 0 < d) (hv : n * d ≤ 32 / 100) :
    ∃ g : Nat → Rat, (guideCentres n d 0).map (throughFile cast e) = ((List.range n).map g).map some ∧
      (∀ i j, i ≤ j → j < n → g i ≤ g j) ∧
      ∀ k < n, (∃ m : Int, g k = (2 * m + 1) * (28 / 1000000)) ∧ |g k - (k - (n - 1 : Rat) / 2) * d| ≤ 28 / 1000000 := by
  have hc : ∀ k < n, ∃ w, throughFile cast e (0 + ((k : Rat) - (n - 1 : Rat) / 2) * d) = some w ∧
      |w - (k - (n - 1 : Rat) / 2) * d| ≤ 28 / 1000000 ∧ ∃ m : Int, w = (2 * m + 1) * (28 / 1000000) := by
    intro k hk
    obtain ⟨w, h1, h2, m, h3⟩ := throughFile_near cast e he (guide_in_view hd hv
      (List.mem_map.mpr ⟨k, List.mem_range.mpr hk, rfl⟩))
    refine ⟨w, h1, ?_, m, ?_⟩
    · rw [zero_add] at h2
      simp only [coordStep] at h2
      linarith
    · rw [h3]; simp only [coordStep]; ring
  have hg : ∀ k, ∃ w, k < n → throughFile cast e (0 + ((k : Rat) - (n - 1 : Rat) / 2) * d) = some w ∧
      |w - (k - (n - 1 : Rat) / 2) * d| ≤ 28 / 1000000 ∧ ∃ m : Int, w = (2 * m + 1) * (28 / 1000000) := by
    intro k
    by_cases hk : k < n
    · obtain ⟨w, h⟩ := hc k hk
      exact ⟨w, fun _ => h⟩
    · exact ⟨0, fun h => absurd h hk⟩
  choose g hg using hg
  have hmap : (guideCentres n d 0).map (throughFile cast e) = ((List.range n).map g).map some := by
    unfold guideCentres
    rw [List.map_map, List.map_map]
    apply List.map_congr_left
    intro k hk
    exact (hg k (List.mem_range.mp hk)).1
  refine ⟨g, hmap, ?_, fun k hk => ⟨(hg k hk).2.2, (hg k hk).2.1⟩⟩
  obtain ⟨m, h1, h2, -⟩ := C85_partial cast e he (guideCentres n d 0) (by
    unfold guideCentres
    rw [List.pairwise_map]
    refine List.pairwise_lt_range.imp ?_
    intro i j hij
    have : (i : Rat) ≤ j := by exact_mod_cast le_of_lt hij
    have := mul_le_mul_of_nonneg_right this (le_of_lt hd)
    linarith) fun v hm => guide_in_view hd hv hm
  have hm : m = (List.range n).map g := by
    rw [hmap] at h1
    exact (List.map_injective_iff.mpr (Option.some_injective _) h1).symm
  rw [hm, List.pairwise_map] at h2
  intro i j hij hj
  rcases eq_or_lt_of_le hij with rfl | hlt
  · exact le_refl _
  · have := List.pairwise_iff_getElem.mp h2 i j (by simp; omega) (by simp; omega) hlt
    simpa using this

/-- The coordinates that are read are those of the guide if these are at odd multiples of 28 microradian. -/
theorem guide_exact (cast : Int → Int) (e : CoordEncoding) (he : e = xEncoding ∨ e = yEncoding) {n : Nat}
    {d : Rat} (hd : 0 < d) (hv : n * d ≤ 32 / 100) (j m : Int) (hj : d = (2 * j + 1) * (56 / 1000000))
    (hm : (n : Int) = 2 * m) :
    (guideCentres n d 0).map (throughFile cast e) = (guideCentres n d 0).map some := by
  apply List.map_congr_left
  intro v hv'
  rw [C85_exact cast e he v (guide_in_view hd hv hv')]
  obtain ⟨k, hk, rfl⟩ := List.mem_map.mp hv'
  have hm' : (n : Rat) = 2 * m := by exact_mod_cast hm
  -- (2 (k - m) + 1) (2 j + 1) is odd
  refine ⟨2 * (k - m) * j + (k - m) + j, ?_⟩
  rw [hj, hm']
  push_cast
  ring

/-- C109 as read from the files, for sectors on the grid of the imager: if the size of the pixels is a multiple of 56
microradian and the first column and the first row are at odd multiples of 28 microradian, the coordinates pass. -/
theorem C109_lattice_partial (cast : Int → Int) (M N : Nat) (hM : 2 ≤ M) (hN : 2 ≤ N) (d cx cy : Rat) (j mx my : Int)
    (hd : 0 < d) (hj : d = j * (56 / 1000000)) (hx : cx - (M - 1) / 2 * d = (2 * mx + 1) * (28 / 1000000))
    (hy : cy - (N - 1) / 2 * d = (2 * my + 1) * (28 / 1000000))
    (hvx : |cx| + M * d / 2 ≤ 16 / 100) (hvy : |cy| + N * d / 2 ≤ 16 / 100) : PassesFromFile cast M N d cx cy := by
  have key : ∀ (e : CoordEncoding), e = xEncoding ∨ e = yEncoding → ∀ (n : Nat) (c : Rat) (m : Int),
      c - (n - 1) / 2 * d = (2 * m + 1) * (28 / 1000000) → |c| + n * d / 2 ≤ 16 / 100 →
      (guideCentres n d c).map (throughFile cast e) = (guideCentres n d c).map some := by
    intro e he n c m hm hv
    apply List.map_congr_left
    intro v hv'
    obtain ⟨k, hk, rfl⟩ := List.mem_map.mp hv'
    have hk : (k : Rat) ≤ n - 1 := by
      have : k + 1 ≤ n := List.mem_range.mp hk
      have : ((k + 1 : Nat) : Rat) ≤ n := by exact_mod_cast this
      push_cast at this
      linarith
    have h0 : (0 : Rat) ≤ k := Nat.cast_nonneg k
    have h1 := mul_le_mul_of_nonneg_right hk (le_of_lt hd)
    have h2 := mul_nonneg h0 (le_of_lt hd)
    rw [C85_exact cast e he _ ?_]
    · refine ⟨m + k * j, ?_⟩
      have : c + ((k : Rat) - (n - 1) / 2) * d = (c - (n - 1) / 2 * d) + k * d := by ring
      rw [this, hm, hj]
      push_cast
      ring
    · have h3 := le_abs_self c
      have h4 := neg_abs_le c
      rw [abs_le]
      constructor <;> nlinarith
  refine ⟨_, (guideCentres N d cy).reverse, key xEncoding (Or.inl rfl) M cx mx hx hvx, ?_, ?_⟩
  · rw [List.map_reverse, List.map_reverse, key yEncoding (Or.inr rfl) N cy my hy hvy]
  · unfold checkAgainstPug guideSpec
    rw [Bool.and_eq_true]
    exact ⟨guide_passes hM hd cx _ (Or.inl rfl), guide_passes hN hd cy _ (Or.inr rfl)⟩

/-- The sector of the contiguous United States seen from the east, with 2 km pixels. -/
example : PassesFromFile id 2500 1500 (56 / 1000000) (-31360 / 1000000) (86240 / 1000000) :=
  C109_lattice_partial id 2500 1500 (by norm_num) (by norm_num) _ _ _ 1 (-1810) 790 (by norm_num) (by norm_num) (by norm_num)
    (by norm_num) (by norm_num [abs_of_neg]) (by norm_num)

/-- C109 as read from the files, for the resolutions of the command line program and sectors about the nadir with an even
number of pixels: the coordinates pass for 2 and 10 km, and for no other resolution. -/
theorem C109_options_partial (cast : Int → Int) (r : Rat) (name : String) (hr : (r, name) ∈ reslnOptions) (M N : Nat) (hM : 1 ≤ M)
    (hN : 1 ≤ N) (hx : (2 * M : Nat) * (r * (28 / 1000000)) ≤ 32 / 100)
    (hy : (2 * N : Nat) * (r * (28 / 1000000)) ≤ 32 / 100) :
    PassesFromFile cast (2 * M) (2 * N) (r * (28 / 1000000)) 0 0 ↔ r = 2 ∨ r = 10 := by
  have h2M : 2 ≤ 2 * M := by omega
  have h2N : 2 ≤ 2 * N := by omega
  constructor
  · rintro ⟨xs, ys, h1, -, h3⟩
    have hrpos : 0 < r := by
      simp only [reslnOptions, List.mem_cons, Prod.mk.injEq, List.not_mem_nil, or_false] at hr
      rcases hr with ⟨h, -⟩ | ⟨h, -⟩ | ⟨h, -⟩ | ⟨h, -⟩ | ⟨h, -⟩ | ⟨h, -⟩ <;> rw [h] <;> norm_num
    have hd : 0 < r * (28 / 1000000) := by positivity
    obtain ⟨g, g1, g2, g3⟩ := guide_read cast xEncoding (Or.inl rfl) hd hx
    have hxs : xs = (List.range (2 * M)).map g := by
      rw [g1] at h1
      exact (List.map_injective_iff.mpr (Option.some_injective _) h1).symm
    have hc : checkAxis xs ((2 * M : Nat) : Int) (r * (28 / 1000000)) ((2 * M : Nat) * (r * (28 / 1000000))) 0 = true := by
      have := (Bool.and_eq_true _ _).mp h3
      exact this.1
    rw [checkAxis_mono (2 * M) g h2M g2 xs (Or.inl hxs)] at hc
    obtain ⟨c1, -, c3⟩ := hc
    obtain ⟨⟨m0, e0⟩, n0⟩ := g3 0 (by omega)
    obtain ⟨⟨m1, e1⟩, n1⟩ := g3 (2 * M - 1) (by omega)
    have hMr : (1 : Rat) ≤ M := by exact_mod_cast hM
    have hcast : ((2 * M : Nat) : Rat) = 2 * M := by push_cast; ring
    have hlast : ((2 * M - 1 : Nat) : Rat) = 2 * M - 1 := by
      rw [Nat.cast_sub (by omega)]; push_cast; ring
    rw [hcast] at c1 n0 n1 hx
    rw [hlast] at n1
    rw [Nat.cast_zero] at n0
    rw [sub_zero, abs_zero, mul_zero, add_zero] at c3
    have hL : (0 : Rat) < 2 * M - 1 := by linarith
    have c1' : |g (2 * M - 1) - g 0 - (2 * M - 1) * (r * (28 / 1000000))| ≤ 32 / 10000000 := by
      have e : g (2 * M - 1) - g 0 - (2 * M - 1) * (r * (28 / 1000000)) =
          ((g (2 * M - 1) - g 0) / (2 * M - 1) - r * (28 / 1000000)) * (2 * M - 1) := by
        field_simp
      rw [e, abs_mul, abs_of_pos hL]
      rw [abs_of_pos hd] at c1
      have h4 := mul_le_mul_of_nonneg_right c1 (le_of_lt hL)
      have h5 : (2 * M - 1 : Rat) * (r * (28 / 1000000)) ≤ 32 / 100 := by linarith
      linarith
    rw [e0, e1] at c1' c3
    rw [abs_le] at c1' c3
    -- an integer equation remains for each resolution
    simp only [reslnOptions, List.mem_cons, Prod.mk.injEq, List.not_mem_nil, or_false] at hr
    rcases hr with ⟨h, -⟩ | ⟨h, -⟩ | ⟨h, -⟩ | ⟨h, -⟩ | ⟨h, -⟩ | ⟨h, -⟩
    · exfalso
      rw [h] at c1'
      have a1 : (-1 : Rat) < ((4 * (m1 - m0) - (2 * M - 1) : Int) : Rat) := by push_cast; linarith [c1'.1]
      have a2 : ((4 * (m1 - m0) - (2 * M - 1) : Int) : Rat) < 1 := by push_cast; linarith [c1'.2]
      have a1 : -1 < 4 * (m1 - m0) - (2 * (M : Int) - 1) := by exact_mod_cast a1
      have a2 : 4 * (m1 - m0) - (2 * (M : Int) - 1) < 1 := by exact_mod_cast a2
      omega
    · exfalso
      rw [h] at c1'
      have a1 : (-1 : Rat) < ((2 * (m1 - m0) - (2 * M - 1) : Int) : Rat) := by push_cast; linarith [c1'.1]
      have a2 : ((2 * (m1 - m0) - (2 * M - 1) : Int) : Rat) < 1 := by push_cast; linarith [c1'.2]
      have a1 : -1 < 2 * (m1 - m0) - (2 * (M : Int) - 1) := by exact_mod_cast a1
      have a2 : 2 * (m1 - m0) - (2 * (M : Int) - 1) < 1 := by exact_mod_cast a2
      omega
    · left; exact h
    · exfalso
      rw [h] at c1'
      have a1 : (-1 : Rat) < ((2 * (m1 - m0) - 4 * (2 * M - 1) : Int) : Rat) := by push_cast; linarith [c1'.1]
      have a2 : ((2 * (m1 - m0) - 4 * (2 * M - 1) : Int) : Rat) < 1 := by push_cast; linarith [c1'.2]
      have a3 : (-1 : Rat) < ((m0 + m1 + 1 : Int) : Rat) := by push_cast; linarith [c3.1]
      have a4 : ((m0 + m1 + 1 : Int) : Rat) < 1 := by push_cast; linarith [c3.2]
      have a1 : -1 < 2 * (m1 - m0) - 4 * (2 * (M : Int) - 1) := by exact_mod_cast a1
      have a2 : 2 * (m1 - m0) - 4 * (2 * (M : Int) - 1) < 1 := by exact_mod_cast a2
      have a3 : -1 < m0 + m1 + 1 := by exact_mod_cast a3
      have a4 : m0 + m1 + 1 < 1 := by exact_mod_cast a4
      omega
    · exfalso
      rw [h] at c1'
      have a1 : (-1 : Rat) < ((2 * (m1 - m0) - 8 * (2 * M - 1) : Int) : Rat) := by push_cast; linarith [c1'.1]
      have a2 : ((2 * (m1 - m0) - 8 * (2 * M - 1) : Int) : Rat) < 1 := by push_cast; linarith [c1'.2]
      have a3 : (-1 : Rat) < ((m0 + m1 + 1 : Int) : Rat) := by push_cast; linarith [c3.1]
      have a4 : ((m0 + m1 + 1 : Int) : Rat) < 1 := by push_cast; linarith [c3.2]
      have a1 : -1 < 2 * (m1 - m0) - 8 * (2 * (M : Int) - 1) := by exact_mod_cast a1
      have a2 : 2 * (m1 - m0) - 8 * (2 * (M : Int) - 1) < 1 := by exact_mod_cast a2
      have a3 : -1 < m0 + m1 + 1 := by exact_mod_cast a3
      have a4 : m0 + m1 + 1 < 1 := by exact_mod_cast a4
      omega
    · right; exact h
  · intro h
    obtain ⟨j, hj⟩ : ∃ j : Int, r * (28 / 1000000) = (2 * j + 1) * (56 / 1000000) := by
      rcases h with h | h
      · exact ⟨0, by rw [h]; norm_num⟩
      · exact ⟨2, by rw [h]; norm_num⟩
    have hd : 0 < r * (28 / 1000000) := by rcases h with h | h <;> rw [h] <;> norm_num
    refine ⟨_, (guideCentres (2 * N) (r * (28 / 1000000)) 0).reverse,
      guide_exact cast xEncoding (Or.inl rfl) hd hx j M hj (by push_cast; ring), ?_, ?_⟩
    · rw [List.map_reverse, List.map_reverse,
        guide_exact cast yEncoding (Or.inr rfl) hd hy j N hj (by push_cast; ring)]
    · unfold checkAgainstPug guideSpec
      rw [Bool.and_eq_true]
      exact ⟨guide_passes h2M hd 0 _ (Or.inl rfl), guide_passes h2N hd 0 _ (Or.inr rfl)⟩

/-- Why 4 and 8 km fail: all columns are read 28 microradian too far west and all rows as much too far north. -/
theorem C109_shift (cast : Int → Int) (k : Int) (hv : |2 * (k : Rat) * (28 / 1000000)| ≤ 16 / 100) (hk : k % 2 = 1) :
    throughFile cast xEncoding (2 * (k : Rat) * (28 / 1000000)) = some (2 * (k : Rat) * (28 / 1000000) - 28 / 1000000) ∧
    throughFile cast yEncoding (2 * (k : Rat) * (28 / 1000000)) = some (2 * (k : Rat) * (28 / 1000000) + 28 / 1000000) := by
  have half : ∀ n : Int, npAround ((n : Rat) + 1 / 2) = if n % 2 = 0 then n else n + 1 := by
    intro n
    have hf : ⌊(n : Rat) + 1 / 2⌋ = n := by
      rw [Int.floor_intCast_add]
      norm_num
    unfold npAround
    simp only [hf]
    rw [if_neg (by linarith), if_neg (by linarith)]
  constructor
  · rw [throughFile_x cast hv]
    have e : (2 * (k : Rat) * (28 / 1000000) + 151844 / 1000000) / coordStep = ((k + 2711 : Int) : Rat) + 1 / 2 := by
      simp only [coordStep]; push_cast; ring
    rw [e, half, if_pos (by omega)]
    simp only [coordStep]
    push_cast
    congr 1
    ring
  · rw [throughFile_y cast hv]
    have e : (151844 / 1000000 - 2 * (k : Rat) * (28 / 1000000)) / coordStep = ((2711 - k : Int) : Rat) + 1 / 2 := by
      simp only [coordStep]; push_cast; ring
    rw [e, half, if_pos (by omega)]
    simp only [coordStep]
    push_cast
    congr 1
    ring

/-- C109: the coordinates in the files of every sector, for every resolution of the program, are those of the guide. -/
def C109_full : Prop := ∀ (cast : Int → Int) (r : Rat) (name : String) (M N : Nat) (cx cy : Rat),
  (r, name) ∈ reslnOptions → 2 ≤ M → 2 ≤ N → |cx| + M * (r * (28 / 1000000)) / 2 ≤ 16 / 100 →
  |cy| + N * (r * (28 / 1000000)) / 2 ≤ 16 / 100 → PassesFromFile cast M N (r * (28 / 1000000)) cx cy

/-- C109 fails, for the full disk with 4 km pixels. -/
theorem C109_full_false : ¬ C109_full := by
  intro h
  have h1 := h id 4 "4.0km" (2 * 1356) (2 * 1356) 0 0 (by decide +kernel) (by norm_num) (by norm_num) (by norm_num) (by norm_num)
  have := (C109_options_partial id 4 "4.0km" (by decide +kernel) 1356 1356 (by norm_num) (by norm_num) (by norm_num)
    (by norm_num)).mp h1
  norm_num at this

/-- The full disk with 2 km pixels. -/
example : PassesFromFile id 5424 5424 (56 / 1000000) 0 0 := by
  have := (C109_options_partial id 2 "2.0km" (by decide +kernel) 2712 2712 (by norm_num) (by norm_num) (by norm_num)
    (by norm_num)).mpr (Or.inl rfl)
  rwa [show 2 * 2712 = 5424 from rfl, show (2 : Rat) * (28 / 1000000) = 56 / 1000000 by norm_num] at this

example : guideCentres 4 2 10 = [7, 9, 11, 13] ∧ checkAgainstPug [7, 9, 11, 13] [3, 1, -1, -3] (guideSpec 4 4 2 10 0) = true ∧
    checkAgainstPug [7, 9, 11, 13] [3, 1, -1, -4] (guideSpec 4 4 2 10 0) = false := by decide +kernel

end Verif.Props
