import Verif.Model.Plot
import Verif.Props.Names
import Verif.Props.Dataset
import Mathlib.Tactic.Ring
import Mathlib.Tactic.Linarith
import Mathlib.Tactic.FieldSimp
import Mathlib.Tactic.Positivity
import Mathlib.Tactic.IntervalCases

/-!
# C99-C103: plots

* C99: what a plot shows is where it belongs.
* C100: plotting leaves the data as it is.
* C101: the plotting program makes one image for each time.
* C102: the plot of a flash shows that flash.
* C103: the bounds of the events.
-/

namespace Verif.Props

open Verif.Py Verif.Model Verif.Spec Verif.Proofs

/-! ## Minimum and maximum -/

theorem foldl_min_le (l : List Rat) (a : Rat) : l.foldl min a ≤ a ∧ (∀ b ∈ l, l.foldl min a ≤ b) ∧
    (l.foldl min a = a ∨ l.foldl min a ∈ l) := by
  induction l generalizing a with
  | nil => simp
  | cons b l ih =>
    obtain ⟨h1, h2, h3⟩ := ih (min a b)
    simp only [List.foldl_cons, List.mem_cons, forall_eq_or_imp]
    refine ⟨h1.trans (min_le_left _ _), ⟨h1.trans (min_le_right _ _), h2⟩, ?_⟩
    rcases h3 with h3 | h3
    · rw [h3]
      rcases min_choice a b with h | h
      · exact Or.inl h
      · exact Or.inr (Or.inl h)
    · exact Or.inr (Or.inr h3)

theorem foldl_max_ge (l : List Rat) (a : Rat) : a ≤ l.foldl max a ∧ (∀ b ∈ l, b ≤ l.foldl max a) ∧
    (l.foldl max a = a ∨ l.foldl max a ∈ l) := by
  induction l generalizing a with
  | nil => simp
  | cons b l ih =>
    obtain ⟨h1, h2, h3⟩ := ih (max a b)
    simp only [List.foldl_cons, List.mem_cons, forall_eq_or_imp]
    refine ⟨(le_max_left _ _).trans h1, ⟨(le_max_right _ _).trans h1, h2⟩, ?_⟩
    rcases h3 with h3 | h3
    · rw [h3]
      rcases max_choice a b with h | h
      · exact Or.inl h
      · exact Or.inr (Or.inl h)
    · exact Or.inr (Or.inr h3)

theorem arrayMin_ok {l : List Rat} (h : l ≠ []) : ∃ v, arrayMin l = .ok v ∧ v ∈ l ∧ ∀ w ∈ l, v ≤ w := by
  cases l with
  | nil => exact absurd rfl h
  | cons a l =>
    obtain ⟨h1, h2, h3⟩ := foldl_min_le l a
    refine ⟨_, rfl, ?_, ?_⟩
    · rcases h3 with h3 | h3
      · rw [h3]; exact List.mem_cons_self
      · exact List.mem_cons_of_mem _ h3
    · intro w hw
      rcases List.mem_cons.mp hw with rfl | hw
      · exact h1
      · exact h2 w hw

theorem arrayMax_ok {l : List Rat} (h : l ≠ []) : ∃ v, arrayMax l = .ok v ∧ v ∈ l ∧ ∀ w ∈ l, w ≤ v := by
  cases l with
  | nil => exact absurd rfl h
  | cons a l =>
    obtain ⟨h1, h2, h3⟩ := foldl_max_ge l a
    refine ⟨_, rfl, ?_, ?_⟩
    · rcases h3 with h3 | h3
      · rw [h3]; exact List.mem_cons_self
      · exact List.mem_cons_of_mem _ h3
    · intro w hw
      rcases List.mem_cons.mp hw with rfl | hw
      · exact h1
      · exact h2 w hw

theorem mem_pixels {n m : Nat} {p : Pixel} : p ∈ pixels n m ↔ p.1 < n ∧ p.2 < m := by
  unfold pixels
  simp only [List.mem_flatMap, List.mem_range, List.mem_map]
  constructor
  · rintro ⟨i, hi, j, hj, rfl⟩
    exact ⟨hi, hj⟩
  · rintro ⟨h1, h2⟩
    exact ⟨p.1, h1, p.2, h2, rfl⟩

/-! ## Memory -/

theorem copy_series (m : Memory) (r : Ref) : (m.copy r).1.series = m.series := rfl

theorem copy_read (m : Memory) (r : Ref) : (m.copy r).1.read (m.copy r).2 = m.read r := by
  show (match (m.temps ++ [m.read r])[m.temps.length]? with | some v => v | none => fun _ => none) = _
  simp

theorem compute_series (m : Memory) (dask : Bool) (r : Ref) : (m.compute dask r).1.series = m.series := by
  unfold Memory.compute; split <;> rfl

theorem compute_read (m : Memory) (dask : Bool) (r : Ref) :
    (m.compute dask r).1.read (m.compute dask r).2 = m.read r := by
  unfold Memory.compute
  split
  · exact copy_read m r
  · rfl

/-- Filling a copy changes no frame, and the copy is the image with zeros for missing values. -/
theorem fill_copy (m : Memory) (r : Ref) :
    ((m.copy r).1.fillMissing (m.copy r).2).series = m.series ∧
    ((m.copy r).1.fillMissing (m.copy r).2).read (m.copy r).2 = fun p => some ((m.read r p).getD 0) := by
  unfold Memory.fillMissing
  rw [copy_read]
  refine ⟨rfl, ?_⟩
  show (match ((m.temps ++ [m.read r]).set m.temps.length _)[m.temps.length]? with
    | some v => v | none => fun _ => none) = _
  simp

/-! ## The panels of `plot_glm_grid` -/

/-- The time `t` is that of frame `k` and of no other. -/
def OnlyFrame (s : TimeSeries) (t : Int) (k : Nat) (fr : Frame) : Prop :=
  s.frames[k]? = some fr ∧ fr.time = t ∧ ∀ k' fr', s.frames[k']? = some fr' → fr'.time = t → k' = k

theorem filter_eq_singleton {k n : Nat} {P : Nat → Bool} (hk : k < n) (h : ∀ j < n, P j = true ↔ j = k) :
    (List.range n).filter P = [k] := by
  have h1 : (List.range n).filter P = (List.range n).filter (· == k) := by
    apply List.filter_congr
    intro j hj
    rw [List.mem_range] at hj
    rw [Bool.eq_iff_iff, h j hj]
    simp
  rw [h1, List.filter_beq]
  rw [List.count_eq_one_of_mem List.nodup_range (List.mem_range.mpr hk)]
  rfl

theorem selTime_ok {s : TimeSeries} {f : String} {t : Int} {k : Nat} {fr : Frame} (hf : f ∈ s.vars)
    (h : OnlyFrame s t k fr) : selTime s f t = .ok (.view k f) := by
  obtain ⟨h1, h2, h3⟩ := h
  unfold selTime
  rw [if_neg (not_not.mpr hf)]
  have hk : k < s.frames.length := by
    by_contra hc
    rw [List.getElem?_eq_none (by omega)] at h1
    cases h1
  rw [filter_eq_singleton hk]
  intro j hj
  rw [decide_eq_true_eq, List.getElem?_map]
  constructor
  · intro he
    cases hfr : s.frames[j]? with
    | none => rw [hfr] at he; cases he
    | some fr' =>
      rw [hfr] at he
      exact h3 j fr' hfr (Option.some.inj he)
  · rintro rfl
    rw [h1, ← h2]
    rfl

theorem plotLimits_ok {x y : List Rat} (hx : x ≠ []) (hy : y ≠ []) (height : Rat) :
    ∃ l r b t, plotLimits x y height = .ok (l, r, b, t) ∧
      (l ∈ x.map (· * height) ∧ ∀ w ∈ x.map (· * height), l ≤ w) ∧
      (r ∈ x.map (· * height) ∧ ∀ w ∈ x.map (· * height), w ≤ r) ∧
      (b ∈ y.map (· * height) ∧ ∀ w ∈ y.map (· * height), b ≤ w) ∧
      (t ∈ y.map (· * height) ∧ ∀ w ∈ y.map (· * height), w ≤ t) := by
  obtain ⟨l, l1, l2⟩ := arrayMin_ok (l := x.map (· * height)) (by simpa using hx)
  obtain ⟨r, r1, r2⟩ := arrayMax_ok (l := x.map (· * height)) (by simpa using hx)
  obtain ⟨b, b1, b2⟩ := arrayMin_ok (l := y.map (· * height)) (by simpa using hy)
  obtain ⟨t, t1, t2⟩ := arrayMax_ok (l := y.map (· * height)) (by simpa using hy)
  refine ⟨l, r, b, t, ?_, l2, r2, b2, t2⟩
  unfold plotLimits
  rw [l1, r1, b1, t1]
  rfl

/-- What a panel of field `f` at frame `fr` should be. -/
structure PanelOf (x y : List Rat) (height : Rat) (fr : Frame) (n : Nat) (label : String) (f : String)
    (p : Panel) : Prop where
  number : p.number = n
  title : p.title = label
  image : ∀ q, p.image q = some ((fr.value f q).getD 0)
  left : p.left ∈ x.map (· * height) ∧ ∀ w ∈ x.map (· * height), p.left ≤ w
  right : p.right ∈ x.map (· * height) ∧ ∀ w ∈ x.map (· * height), w ≤ p.right
  bottom : p.bottom ∈ y.map (· * height) ∧ ∀ w ∈ y.map (· * height), p.bottom ≤ w
  top : p.top ∈ y.map (· * height) ∧ ∀ w ∈ y.map (· * height), w ≤ p.top
  maximum : (∃ i < y.length, ∃ j < x.length, p.maximum = (fr.value f (i, j)).getD 0) ∧
    ∀ i < y.length, ∀ j < x.length, (fr.value f (i, j)).getD 0 ≤ p.maximum

theorem gridPanel_ok (dask : Bool) {x y : List Rat} (hx : x ≠ []) (hy : y ≠ []) (height : Rat) {m : Memory} {t : Int}
    {k : Nat} {fr : Frame} (h : OnlyFrame m.series t k fr) {f label : String} (hf : f ∈ m.series.vars)
    (hd : displayParams.lookup f = some label) {subplots : Nat × Nat} {fi : Nat}
    (h1 : fi < subplots.1 * subplots.2) (h2 : fi < 12) :
    ∃ m' p, plotGridPanel dask x y height t subplots m fi f = .ok (m', p) ∧ m'.series = m.series ∧
      PanelOf x y height fr (fi + 1) label f p := by
  obtain ⟨l, r, b, tt, hlim, g1, g2, g3, g4⟩ := plotLimits_ok hx hy height
  have hread : m.read (.view k f) = fr.value f := by
    show (match m.series.frames[k]? with | some fr => fr.value f | none => fun _ => none) = _
    rw [h.1]
  set m1 := (m.compute dask (.view k f)).1 with hm1
  set r1 := (m.compute dask (.view k f)).2 with hr1
  set m2 := (m1.copy r1).1
  set r2 := (m1.copy r1).2
  obtain ⟨s1, s2⟩ := fill_copy m2 r2
  have hm2 : m2.read r2 = fr.value f := by rw [copy_read, compute_read, hread]
  have hser : m2.series = m.series := compute_series m dask _
  rw [hm2] at s2
  obtain ⟨mx, x1, x2, x3⟩ := arrayMax_ok (l := (pixels y.length x.length).map fun p =>
      ((((m2.copy r2).1.fillMissing (m2.copy r2).2).read (m2.copy r2).2) p).getD 0) (by
    have hx' := List.length_pos_iff.mpr hx
    have hy' := List.length_pos_iff.mpr hy
    have : (0, 0) ∈ pixels y.length x.length := mem_pixels.mpr ⟨hy', hx'⟩
    intro hc
    rw [List.map_eq_nil_iff] at hc
    rw [hc] at this
    cases this)
  refine ⟨(m2.copy r2).1.fillMissing (m2.copy r2).2,
    ⟨fi + 1, label, ((m2.copy r2).1.fillMissing (m2.copy r2).2).read (m2.copy r2).2, l, r, b, tt, mx⟩, ?_,
    by rw [s1, hser], ?_⟩
  · unfold plotGridPanel
    simp only [hlim, bind, Except.bind, hd, selTime_ok hf h]
    rw [if_neg (by omega), x1]
    simp only
    rw [if_neg (by omega)]
    rfl
  · rw [s2] at x2 x3 ⊢
    refine ⟨rfl, rfl, fun q => rfl, g1, g2, g3, g4, ?_, ?_⟩
    · obtain ⟨q, hq, rfl⟩ := List.mem_map.mp x2
      obtain ⟨q1, q2⟩ := mem_pixels.mp hq
      exact ⟨q.1, q1, q.2, q2, rfl⟩
    · intro i hi j hj
      exact x3 _ (List.mem_map.mpr ⟨(i, j), mem_pixels.mpr ⟨hi, hj⟩, rfl⟩)

/-- Numbered panels: `R n f p` for the `n`-th field and panel, counted from `n`. -/
def Numbered (R : Nat → String → Panel → Prop) : Nat → List String → List Panel → Prop
  | _, [], ps => ps = []
  | n, f :: fs, ps => ∃ p rest, ps = p :: rest ∧ R n f p ∧ Numbered R (n + 1) fs rest

theorem plotPanels_ok {panel : Memory → Nat → String → Except Err (Memory × Panel)} {s : TimeSeries}
    {R : Nat → String → Panel → Prop} (fields : List String) (fi : Nat)
    (h : ∀ m n f, m.series = s → fi ≤ n → n < fi + fields.length → f ∈ fields →
      ∃ m' p, panel m n f = .ok (m', p) ∧ m'.series = s ∧ R (n + 1) f p) (m : Memory) (hm : m.series = s) :
    ∃ m' ps, plotPanels panel m fi fields = .ok (m', ps) ∧ m'.series = s ∧ Numbered R (fi + 1) fields ps := by
  induction fields generalizing m fi with
  | nil => exact ⟨m, [], rfl, hm, rfl⟩
  | cons f fields ih =>
    obtain ⟨m1, p, h1, h2, h3⟩ := h m fi f hm le_rfl (by simp) List.mem_cons_self
    obtain ⟨m2, ps, i1, i2, i3⟩ := ih (fi + 1) (fun m n g hm hn hn' hg =>
      h m n g hm (by omega) (by simp only [List.length_cons]; omega) (List.mem_cons_of_mem _ hg)) m1 h2
    refine ⟨m2, p :: ps, ?_, i2, p, ps, rfl, h3, i3⟩
    simp only [plotPanels, h1, bind, Except.bind, i1]
    rfl

/-- Coordinates at even steps. -/
def Evenly (x : List Rat) (x0 d : Rat) : Prop := ∀ j < x.length, x[j]? = some (x0 + j * d)

theorem evenly_bounds {x : List Rat} {x0 d : Rat} (h : Evenly x x0 d) (hx : x ≠ []) {height v : Rat}
    (hd : 0 ≤ d * height) (hv : v ∈ x.map (· * height)) (hmin : ∀ w ∈ x.map (· * height), v ≤ w) :
    v = x0 * height := by
  have h0 : 0 < x.length := List.length_pos_iff.mpr hx
  apply le_antisymm
  · apply hmin
    refine List.mem_map.mpr ⟨x0, ?_, rfl⟩
    have := h 0 h0
    simp only [Nat.cast_zero, zero_mul, add_zero] at this
    exact List.mem_of_getElem? this
  · obtain ⟨w, hw, rfl⟩ := List.mem_map.mp hv
    obtain ⟨j, hj, rfl⟩ := List.mem_iff_getElem.mp hw
    have := h j hj
    rw [List.getElem?_eq_getElem hj] at this
    rw [Option.some.inj this]
    have : 0 ≤ (j : Rat) * (d * height) := by positivity
    linarith

theorem evenly_bounds' {x : List Rat} {x0 d : Rat} (h : Evenly x x0 d) (hx : x ≠ []) {height v : Rat}
    (hd : 0 ≤ d * height) (hv : v ∈ x.map (· * height)) (hmax : ∀ w ∈ x.map (· * height), w ≤ v) :
    v = (x0 + (x.length - 1 : Nat) * d) * height := by
  have h0 : 0 < x.length := List.length_pos_iff.mpr hx
  apply le_antisymm
  · obtain ⟨w, hw, rfl⟩ := List.mem_map.mp hv
    obtain ⟨j, hj, rfl⟩ := List.mem_iff_getElem.mp hw
    have := h j hj
    rw [List.getElem?_eq_getElem hj] at this
    rw [Option.some.inj this]
    have hj' : (j : Rat) ≤ (x.length - 1 : Nat) := by exact_mod_cast Nat.le_sub_one_of_lt hj
    have := mul_le_mul_of_nonneg_right hj' hd
    linarith
  · apply hmax
    refine List.mem_map.mpr ⟨_, ?_, rfl⟩
    exact List.mem_of_getElem? (h (x.length - 1) (by omega))

/-- Column `j` of `n` columns over the range of the `n` coordinates: the coordinate is in it, and how far it is from the
middle. -/
theorem column_box {a D : Rat} (hD : 0 ≤ D) {n j : Nat} (hj : j < n) :
    a + (n - 1 : Nat) * D * j / n ≤ a + j * D ∧ a + j * D ≤ a + (n - 1 : Nat) * D * (j + 1) / n ∧
    (a + (n - 1 : Nat) * D * j / n + (a + (n - 1 : Nat) * D * (j + 1) / n)) / 2 - (a + j * D) =
      D * (1 / 2 - (j + 1 / 2) / n) := by
  have hn : (0 : Rat) < n := by exact_mod_cast Nat.lt_of_le_of_lt (Nat.zero_le _) hj
  have hc : ((n - 1 : Nat) : Rat) = n - 1 := by rw [Nat.cast_sub (by omega)]; simp
  rw [hc]
  have hj' : (j : Rat) + 1 ≤ n := by exact_mod_cast hj
  have hj0 : (0 : Rat) ≤ j := Nat.cast_nonneg _
  refine ⟨?_, ?_, ?_⟩
  · have : (n - 1) * D * j / n ≤ j * D := by
      rw [div_le_iff₀ hn]
      nlinarith [mul_nonneg hD hj0]
    linarith
  · have : j * D ≤ (n - 1) * D * (j + 1) / n := by
      rw [le_div_iff₀ hn]
      nlinarith [mul_nonneg hD (sub_nonneg.mpr hj')]
    linarith
  · field_simp
    ring

/-- A panel draws every pixel over its own place: the box of the pixel contains the coordinates, and its middle is
off by less than half a step. -/
def PixelsInPlace (x y : List Rat) (height dx dy : Rat) (p : Panel) : Prop :=
  ∀ i j xj yi, x[j]? = some xj → y[i]? = some yi →
    ((pixelBox p y.length x.length i j).1 ≤ xj * height ∧ xj * height ≤ (pixelBox p y.length x.length i j).2.1 ∧
     (pixelBox p y.length x.length i j).2.2.1 ≤ yi * height ∧
     yi * height ≤ (pixelBox p y.length x.length i j).2.2.2) ∧
    ((pixelBox p y.length x.length i j).1 + (pixelBox p y.length x.length i j).2.1) / 2 - xj * height =
      dx * height * (1 / 2 - (j + 1 / 2) / x.length) ∧
    ((pixelBox p y.length x.length i j).2.2.1 + (pixelBox p y.length x.length i j).2.2.2) / 2 - yi * height =
      - (dy * height * (1 / 2 - (i + 1 / 2) / y.length))

theorem panel_in_place {x y : List Rat} {height x0 y0 dx dy : Rat} (hx : x ≠ []) (hy : y ≠ []) (hh : 0 < height)
    (hdx : 0 < dx) (hdy : 0 < dy) (ex : Evenly x x0 dx) (ey : Evenly y y0 (-dy)) {fr : Frame} {n : Nat}
    {label f : String} {p : Panel} (h : PanelOf x y height fr n label f p) :
    PixelsInPlace x y height dx dy p := by
  have hl : p.left = x0 * height := evenly_bounds ex hx (by positivity) h.left.1 h.left.2
  have hr : p.right = (x0 + (x.length - 1 : Nat) * dx) * height :=
    evenly_bounds' ex hx (by positivity) h.right.1 h.right.2
  -- the rows, upside down
  have hneg : ∀ {v}, v ∈ y.map (· * height) → -v ∈ (y.map (-·)).map (· * height) := by
    intro v hv
    obtain ⟨w, hw, rfl⟩ := List.mem_map.mp hv
    exact List.mem_map.mpr ⟨-w, List.mem_map.mpr ⟨w, hw, rfl⟩, by ring⟩
  have hneg' : ∀ {P : Rat → Prop}, (∀ w ∈ y.map (· * height), P (-w)) →
      ∀ w ∈ (y.map (-·)).map (· * height), P w := by
    intro P hP w hw
    obtain ⟨u, hu, rfl⟩ := List.mem_map.mp hw
    obtain ⟨v, hv, rfl⟩ := List.mem_map.mp hu
    have := hP (v * height) (List.mem_map.mpr ⟨v, hv, rfl⟩)
    rwa [← neg_mul] at this
  have ey' : Evenly (y.map (-·)) (-y0) dy := by
    intro j hj
    rw [List.length_map] at hj
    rw [List.getElem?_map, ey j hj]
    simp only [Option.map_some, Option.some.injEq]
    ring
  have ht : -p.top = -y0 * height :=
    evenly_bounds ey' (by simpa using hy) (by positivity) (hneg h.top.1)
      (hneg' (P := fun w => -p.top ≤ w) fun w hw => neg_le_neg (h.top.2 w hw))
  have hb : -p.bottom = (-y0 + ((y.map (-·)).length - 1 : Nat) * dy) * height :=
    evenly_bounds' ey' (by simpa using hy) (by positivity) (hneg h.bottom.1)
      (hneg' (P := fun w => w ≤ -p.bottom) fun w hw => neg_le_neg (h.bottom.2 w hw))
  rw [List.length_map] at hb
  have ht' : p.top = y0 * height := by linarith
  have hb' : p.bottom = (y0 - (y.length - 1 : Nat) * dy) * height := by linarith
  intro i j xj yi hxj hyi
  have hj : j < x.length := by
    by_contra hc; rw [List.getElem?_eq_none (by omega)] at hxj; cases hxj
  have hi : i < y.length := by
    by_contra hc; rw [List.getElem?_eq_none (by omega)] at hyi; cases hyi
  rw [ex j hj] at hxj
  rw [ey i hi] at hyi
  obtain rfl := Option.some.inj hxj
  obtain rfl := Option.some.inj hyi
  obtain ⟨c1, c2, c3⟩ := column_box (a := x0 * height) (D := dx * height) (by positivity) hj
  obtain ⟨d1, d2, d3⟩ := column_box (a := -(y0 * height)) (D := dy * height) (by positivity) hi
  unfold pixelBox
  simp only
  rw [hl, hr, ht', hb']
  have e1 : ∀ q : Rat, ((x0 + (x.length - 1 : Nat) * dx) * height - x0 * height) * q / x.length =
      (x.length - 1 : Nat) * (dx * height) * q / x.length := by intro q; ring
  have e2 : ∀ q : Rat, (y0 * height - (y0 - (y.length - 1 : Nat) * dy) * height) * q / y.length =
      (y.length - 1 : Nat) * (dy * height) * q / y.length := by intro q; ring
  rw [e1, e1, e2, e2]
  refine ⟨⟨?_, ?_, ?_, ?_⟩, ?_, ?_⟩
  · linarith
  · linarith
  · linarith
  · linarith
  · rw [← c3]; ring
  · rw [← d3]; ring

/-! ## C99 -/

/-- **C99**: one panel for each field, in order; each has the name of its field, the value of every pixel at that time
(zero if it is missing) drawn over the place of the pixel, and the largest value. -/
theorem C99_plot (dask : Bool) (x y : List Rat) (height x0 y0 dx dy : Rat) (m : Memory) (t : Int) (k : Nat)
    (fr : Frame) (fields : List String) (subplots : Nat × Nat)
    (hx : x ≠ []) (hy : y ≠ []) (hh : 0 < height) (hdx : 0 < dx) (hdy : 0 < dy)
    (ex : Evenly x x0 dx) (ey : Evenly y y0 (-dy)) (ht : OnlyFrame m.series t k fr) (hne : fields ≠ [])
    (hf : ∀ f ∈ fields, f ∈ m.series.vars ∧ (displayParams.lookup f).isSome)
    (hn : fields.length ≤ subplots.1 * subplots.2) (h12 : fields.length ≤ 12) :
    ∃ m' ps, plotGlmGrid dask x y height m t fields subplots = .ok (m', ps) ∧
      Numbered (fun n f p => p.number = n ∧ displayParams.lookup f = some p.title ∧
        (∀ i j, p.image (i, j) = some ((fr.value f (i, j)).getD 0)) ∧ PixelsInPlace x y height dx dy p ∧
        (∃ i < y.length, ∃ j < x.length, p.maximum = (fr.value f (i, j)).getD 0) ∧
        ∀ i < y.length, ∀ j < x.length, (fr.value f (i, j)).getD 0 ≤ p.maximum) 1 fields ps := by
  obtain ⟨m', ps, h1, -, h3⟩ := plotPanels_ok (panel := plotGridPanel dask x y height t subplots) (s := m.series)
    (R := fun n f p => p.number = n ∧ displayParams.lookup f = some p.title ∧
        (∀ i j, p.image (i, j) = some ((fr.value f (i, j)).getD 0)) ∧ PixelsInPlace x y height dx dy p ∧
        (∃ i < y.length, ∃ j < x.length, p.maximum = (fr.value f (i, j)).getD 0) ∧
        ∀ i < y.length, ∀ j < x.length, (fr.value f (i, j)).getD 0 ≤ p.maximum) fields 0 (by
      intro m1 n f hm1 _ hn' hfm
      obtain ⟨hv, hl⟩ := hf f hfm
      obtain ⟨label, hlabel⟩ := Option.isSome_iff_exists.mp hl
      obtain ⟨m2, p, g1, g2, g3⟩ := gridPanel_ok dask hx hy height (m := m1) (by rw [hm1]; exact ht)
        (by rw [hm1]; exact hv) hlabel (subplots := subplots) (fi := n) (by omega) (by omega)
      exact ⟨m2, p, g1, by rw [g2, hm1], g3.number, by rw [hlabel, g3.title], fun i j => g3.image _,
        panel_in_place hx hy hh hdx hdy ex ey g3, g3.maximum⟩) m rfl
  obtain ⟨l, r, b, tt, hlim, -⟩ := plotLimits_ok hx hy height
  refine ⟨m', ps, ?_, h3⟩
  unfold plotGlmGrid
  rw [hlim]
  simp only [bind, Except.bind, h1, if_neg hne]
  rfl

/-- The title of each panel is the name of its field in words, with its unit.  (`event_density` has the title of
`group_extent_density`.) -/
theorem C99_labels : ∀ q ∈ [("flash_centroid_density", "count"), ("flash_extent_density", "count"),
      ("group_centroid_density", "count"), ("group_extent_density", "count"), ("total_energy", "nJ"),
      ("average_flash_area", "km$^2$"), ("average_group_area", "km$^2$"), ("minimum_flash_area", "km$^2$")],
    ∃ label, displayParams.lookup q.1 = some label ∧
      label.toList.map Char.toLower =
        (("GOES-16 GLM " ++ q.1 ++ " (" ++ q.2 ++ ")").toList.map fun c => if c = '_' then ' ' else c.toLower) := by
  intro q hq
  simp only [List.mem_cons, List.not_mem_nil, or_false] at hq
  rcases hq with rfl | rfl | rfl | rfl | rfl | rfl | rfl | rfl <;> exact ⟨_, rfl, by decide +kernel⟩

/-! ## C100 -/

/-- A plot function leaves the dataset as it is. -/
def LeavesData (plot : Memory → Except Err (Memory × List Panel)) : Prop :=
  ∀ m m' ps, plot m = .ok (m', ps) → m'.series = m.series

/-- C100: both plot functions leave the dataset as it is, whatever its data are. -/
def C100_full : Prop := ∀ (dask : Bool) (x y : List Rat) (height : Rat) (t : Int) (fields : List String)
  (subplots : Nat × Nat),
  LeavesData (fun m => plotGlmGrid dask x y height m t fields subplots) ∧
  LeavesData (fun m => plotGlm dask x y height m t fields subplots)

theorem plotPanels_series {panel : Memory → Nat → String → Except Err (Memory × Panel)}
    (h : ∀ m n f m' p, panel m n f = .ok (m', p) → m'.series = m.series) (fields : List String) (fi : Nat)
    (m m' : Memory) (ps : List Panel) (hp : plotPanels panel m fi fields = .ok (m', ps)) :
    m'.series = m.series := by
  induction fields generalizing m fi ps with
  | nil => cases hp; rfl
  | cons f fields ih =>
    simp only [plotPanels, bind, Except.bind] at hp
    cases h1 : panel m fi f with
    | error e => rw [h1] at hp; cases hp
    | ok r =>
      obtain ⟨m1, p⟩ := r
      rw [h1] at hp
      simp only at hp
      cases h2 : plotPanels panel m1 (fi + 1) fields with
      | error e => rw [h2] at hp; cases hp
      | ok r =>
        obtain ⟨m2, ps2⟩ := r
        rw [h2] at hp
        cases hp
        rw [ih _ _ _ h2, h _ _ _ _ _ h1]

/-- C100, the function of the package. -/
theorem C100_partial (dask : Bool) (x y : List Rat) (height : Rat) (t : Int) (fields : List String)
    (subplots : Nat × Nat) : LeavesData fun m => plotGlmGrid dask x y height m t fields subplots := by
  intro m m' ps h
  simp only [plotGlmGrid, bind, Except.bind] at h
  cases hl : plotLimits x y height with
  | error e => rw [hl] at h; cases h
  | ok lim =>
    rw [hl] at h
    simp only at h
    cases hp : plotPanels (plotGridPanel dask x y height t subplots) m 0 fields with
    | error e => rw [hp] at h; cases h
    | ok r =>
      rw [hp] at h
      simp only at h
      split at h
      · cases h
      · cases h
        refine plotPanels_series ?_ fields 0 m m' ps hp
        intro m n f m' p hpp
        simp only [plotGridPanel, bind, Except.bind, hl] at hpp
        split at hpp
        · cases hpp
        · split at hpp
          · cases hpp
          · cases hs : selTime m.series f t with
            | error e => rw [hs] at hpp; cases hpp
            | ok sel =>
              rw [hs] at hpp
              simp only at hpp
              split at hpp
              · cases hpp
              · split at hpp
                · cases hpp
                · cases hpp
                  rw [(fill_copy _ _).1, copy_series, compute_series]

/-- What is left of a dataset after `plot_glm` of the examples: at that time, the missing values of the fields that
were plotted are zeros. -/
def zeroed (s : TimeSeries) (t : Int) (fields : List String) : TimeSeries :=
  { s with frames := s.frames.map fun fr =>
      { fr with value := fun f p =>
          if fr.time = t ∧ f ∈ fields then some ((fr.value f p).getD 0) else fr.value f p } }

theorem examplePanel_series {x y : List Rat} {height : Rat} {t : Int} {subplots : Nat × Nat} {m m' : Memory} {n : Nat}
    {f : String} {p : Panel} (h : plotExamplePanel false x y height t subplots m n f = .ok (m', p)) :
    m'.series = zeroed m.series t [f] := by
  simp only [plotExamplePanel, bind, Except.bind] at h
  cases hl : plotLimits x y height with
  | error e => rw [hl] at h; cases h
  | ok lim =>
    rw [hl] at h
    simp only at h
    split at h
    · cases h
    · split at h
      · cases h
      · cases hs : selTime m.series f t with
        | error e => rw [hs] at h; cases h
        | ok sel =>
          rw [hs] at h
          simp only [Bool.false_eq_true, if_false] at h
          split at h
          · cases h
          · cases h
            -- the frame that was selected
            unfold selTime at hs
            split at hs
            · cases hs
            · split at hs
              · cases hs
              · rename_i k hk
                cases hs
                unfold zeroed Memory.compute Memory.fillMissing Memory.write Memory.read
                simp only [Bool.false_eq_true, if_false]
                congr 1
                have hmem : ∀ j, (s : Frame) → m.series.frames[j]? = some s → (s.time = t ↔ j = k) := by
                  intro j s hj
                  have : j ∈ (List.range m.series.frames.length).filter
                      (fun k => (m.series.frames.map Frame.time)[k]? = some t) ↔ j ∈ [k] := by rw [hk]
                  have hlt : j < m.series.frames.length := by
                    by_contra hc; rw [List.getElem?_eq_none (by omega)] at hj; cases hj
                  rw [List.mem_filter, List.mem_range, List.getElem?_map, hj, List.mem_singleton] at this
                  simp only [Option.map_some, Option.some.injEq, decide_eq_true_eq] at this
                  exact ⟨fun h => this.mp ⟨hlt, h⟩, fun h => (this.mpr h).2⟩
                apply List.ext_getElem?
                intro j
                rw [List.getElem?_modify, List.getElem?_map]
                cases hj : m.series.frames[j]? with
                | none => rfl
                | some fr =>
                  have := hmem j fr hj
                  by_cases hkj : k = j
                  · subst hkj
                    simp only [Option.map_eq_map, Option.map_some, if_true, Option.some.injEq, setField]
                    have ht := this.mpr rfl
                    congr 1
                    funext g q
                    by_cases hg : g = f
                    · subst hg
                      simp [ht, hj]
                    · simp [hg]
                  · have ht : ¬ fr.time = t := fun hc => hkj (this.mp hc).symm
                    simp [hkj, ht]
              · cases hs

theorem zeroed_nil (s : TimeSeries) (t : Int) : zeroed s t [] = s := by
  unfold zeroed; simp

theorem zeroed_zeroed (s : TimeSeries) (t : Int) (fs gs : List String) :
    zeroed (zeroed s t fs) t gs = zeroed s t (fs ++ gs) := by
  unfold zeroed
  simp only [List.map_map]
  congr 1
  apply List.map_congr_left
  intro fr _
  simp only [Function.comp]
  congr 1
  funext f p
  by_cases ht : fr.time = t <;> by_cases h1 : f ∈ fs <;> by_cases h2 : f ∈ gs <;> simp [ht, h1, h2]

/-- C100, the function of the examples, for data in memory: exactly which values change. -/
theorem C100_exact (x y : List Rat) (height : Rat) (t : Int) (fields : List String) (subplots : Nat × Nat)
    (m m' : Memory) (ps : List Panel) (h : plotGlm false x y height m t fields subplots = .ok (m', ps)) :
    m'.series = zeroed m.series t fields := by
  have hp : ∀ (fields : List String) (fi : Nat) (m : Memory) (ps : List Panel),
      plotPanels (plotExamplePanel false x y height t subplots) m fi fields = .ok (m', ps) →
      m'.series = zeroed m.series t fields := by
    intro fields
    induction fields with
    | nil => intro fi m ps h; cases h; exact (zeroed_nil _ _).symm
    | cons f fields ih =>
      intro fi m ps h
      simp only [plotPanels, bind, Except.bind] at h
      cases h1 : plotExamplePanel false x y height t subplots m fi f with
      | error e => rw [h1] at h; cases h
      | ok r =>
        obtain ⟨m1, p⟩ := r
        rw [h1] at h
        simp only at h
        cases h2 : plotPanels (plotExamplePanel false x y height t subplots) m1 (fi + 1) fields with
        | error e => rw [h2] at h; cases h
        | ok r =>
          obtain ⟨m2, ps2⟩ := r
          rw [h2] at h
          cases h
          rw [ih _ _ _ h2, examplePanel_series h1, zeroed_zeroed]
          rfl
  simp only [plotGlm, bind, Except.bind] at h
  cases hl : plotLimits x y height with
  | error e => rw [hl] at h; cases h
  | ok lim =>
    rw [hl] at h
    simp only at h
    cases h2 : plotPanels (plotExamplePanel false x y height t subplots) m 0 fields with
    | error e => rw [h2] at h; cases h
    | ok r =>
      rw [h2] at h
      simp only at h
      split at h
      · cases h
      · cases h
        exact hp _ _ _ _ h2

/-- A dataset with one frame of one row of two pixels, the second without lightning. -/
def plotSample : TimeSeries :=
  ⟨["average_flash_area"], [⟨60, fun _ p => if p = (0, 0) then some 100 else none⟩], 60, 120⟩

/-- C100 does not hold: `plot_glm` of the examples writes zeros into the dataset. -/
theorem C100_full_false : ¬ C100_full := by
  intro h
  have h1 := (h false [0, 1] [0] 1 60 ["average_flash_area"] (1, 1)).2 ⟨plotSample, []⟩
  have hok : (plotGlm false [0, 1] [0] 1 ⟨plotSample, []⟩ 60 ["average_flash_area"] (1, 1)).toOption.isSome = true := by
    decide +kernel
  cases hp : plotGlm false [0, 1] [0] 1 ⟨plotSample, []⟩ 60 ["average_flash_area"] (1, 1) with
  | error e => rw [hp] at hok; cases hok
  | ok r =>
    obtain ⟨m', ps⟩ := r
    have h2 := h1 m' ps hp
    rw [C100_exact _ _ _ _ _ _ _ _ _ hp] at h2
    have h3 : (zeroed plotSample 60 ["average_flash_area"]).frames.map (fun fr => fr.value "average_flash_area" (0, 1)) =
        plotSample.frames.map (fun fr => fr.value "average_flash_area" (0, 1)) := by rw [h2]
    revert h3
    decide +kernel

/-! ### C99 and C100 on an example -/

example : ∃ m' ps, plotGlmGrid true [0, 1] [0] 1 ⟨plotSample, []⟩ 60 ["average_flash_area"] (1, 1) = .ok (m', ps) ∧
    m'.series = plotSample ∧ ps.length = 1 := by
  obtain ⟨m', ps, h1, h2⟩ := C99_plot true [0, 1] [0] 1 0 0 1 1 ⟨plotSample, []⟩ 60 0
    ⟨60, fun _ p => if p = (0, 0) then some 100 else none⟩ ["average_flash_area"] (1, 1) (by simp) (by simp)
    (by norm_num) (by norm_num) (by norm_num)
    (by intro j hj; simp only [List.length_cons, List.length_nil] at hj; interval_cases j <;> simp)
    (by intro j hj; simp only [List.length_cons, List.length_nil] at hj; interval_cases j; simp)
    ⟨rfl, rfl, fun k' fr' hk' _ => by
      cases k' with
      | zero => rfl
      | succ k' => simp [plotSample] at hk'⟩ (by simp)
    (by intro f hf; rw [List.mem_singleton] at hf; subst hf; decide +kernel) (by simp) (by simp)
  obtain ⟨p, rest, rfl, -, rfl⟩ := h2
  exact ⟨m', _, h1, C100_partial true _ _ _ _ _ _ _ _ _ h1, rfl⟩

/-! ## C101 -/

/-- Every time of the series has an image that shows it. -/
def AllShown (disk : Disk) (times : List Int) : Prop := ∀ t ∈ times, ∃ path, (path, t) ∈ disk.files

/-- C101: the plotting program makes an image for each time of the files that it is given. -/
def C101_full : Prop := ∀ (calendar : Int → DateTime) (x y : List Rat) (height : Rat) (vars : List String)
  (files : List ImageData) (outdir : Text) (disk : Disk) (series : TimeSeries),
  openGlmTimeSeries vars files = .ok series → (∀ f ∈ fieldsSixPanel, f ∈ vars) →
  ∃ disk', plotProgram calendar x y height vars files outdir disk = .ok disk' ∧
    AllShown disk' (series.frames.map Frame.time)

theorem plotExample_dask (x y : List Rat) (height : Rat) (m : Memory) (t : Int) (f : String) (fields : List String)
    (subplots : Nat × Nat) (r : Memory × List Panel) :
    plotGlm true x y height m t (f :: fields) subplots ≠ .ok r := by
  intro h
  simp only [plotGlm, plotPanels, plotExamplePanel, bind, Except.bind] at h
  cases hl : plotLimits x y height with
  | error e => rw [hl] at h; cases h
  | ok lim =>
    rw [hl] at h
    simp only at h
    split at h
    · cases h
    · rename_i hh
      split at hh
      · cases hh
      · rename_i hh'
        split at hh'
        · cases hh'
        · split at hh'
          · cases hh'
          · cases hs : selTime m.series f t with
            | error e => rw [hs] at hh'; cases hh'
            | ok sel => rw [hs] at hh'; cases hh'

/-- C101, what happens: the program never gets to an image. -/
theorem C101_never (calendar : Int → DateTime) (x y : List Rat) (height : Rat) (vars : List String)
    (files : List ImageData) (outdir : Text) (disk disk' : Disk) (series : TimeSeries)
    (h : openGlmTimeSeries vars files = .ok series) (hne : series.frames ≠ []) :
    plotProgram calendar x y height vars files outdir disk ≠ .ok disk' := by
  intro hp
  unfold plotProgram at hp
  rw [h] at hp
  simp only [bind, Except.bind, plotFiles] at hp
  have hlen : ((series.frames.map Frame.time).mergeSort (· ≤ ·)) ≠ [] := by
    intro hc
    have := List.length_mergeSort (le := fun a b : Int => decide (a ≤ b)) (series.frames.map Frame.time)
    rw [hc] at this
    simp only [List.length_nil, List.length_map] at this
    exact hne (List.length_eq_zero_iff.mp this.symm)
  cases hl : (series.frames.map Frame.time).mergeSort (· ≤ ·) with
  | nil => exact hlen hl
  | cons t ts =>
    rw [hl] at hp
    simp only [List.foldlM_cons, plotFileStep, bind, Except.bind] at hp
    cases hg : plotGlm true x y height ⟨series, []⟩ t fieldsSixPanel (2, 3) with
    | ok r => exact plotExample_dask _ _ _ _ _ _ _ _ _ hg
    | error e => rw [hg] at hp; cases hp

/-- C101 does not hold. -/
theorem C101_full_false : ¬ C101_full := by
  intro h
  obtain ⟨disk', h1, -⟩ := h (fun _ => ⟨2020, 1, 1, 0, 0, 0, 0⟩) [0] [0] 1 fieldsSixPanel [⟨0, 60, fun _ _ => none⟩]
    "out".toList ⟨[], []⟩ _ rfl (fun f hf => hf)
  exact C101_never _ _ _ _ _ _ _ _ _ _ rfl (by simp [genFileTimes]) h1

/-! ### Names of images -/

/-- The same minute of the same day. -/
def SameMinute (a b : DateTime) : Prop :=
  a.year = b.year ∧ a.month = b.month ∧ a.day = b.day ∧ a.hour = b.hour ∧ a.minute = b.minute

theorem cleanPath_append (a b : Text) : cleanPath (a ++ b) = cleanPath a ++ cleanPath b := by
  simp [cleanPath]

theorem cleanPath_id {a : Text} (h1 : ' ' ∉ a) (h2 : ':' ∉ a) : cleanPath a = a := by
  unfold cleanPath
  have : a.map (fun c => if c = ' ' then '_' else c) = a := by
    conv_rhs => rw [← List.map_id a]
    apply List.map_congr_left
    intro c hc
    rw [if_neg]
    · rfl
    · rintro rfl; exact h1 hc
  rw [this, List.filter_eq_self]
  intro c hc
  rw [decide_eq_true_eq]
  rintro rfl
  exact h2 hc

theorem cleanPath_clean (a : Text) : ' ' ∉ cleanPath a ∧ ':' ∉ cleanPath a := by
  unfold cleanPath
  constructor
  · intro h
    obtain ⟨h1, -⟩ := List.mem_filter.mp h
    obtain ⟨c, -, h2⟩ := List.mem_map.mp h1
    split at h2
    · revert h2; decide
    · rename_i h3; exact h3 h2
  · intro h
    have := (List.mem_filter.mp h).2
    revert this; decide

theorem digit_plain (n : Nat) : digit n ≠ ' ' ∧ digit n ≠ ':' ∧ digit n ≠ '/' := by
  have h := digit_toNat n
  have : n % 10 < 10 := Nat.mod_lt _ (by norm_num)
  refine ⟨?_, ?_, ?_⟩ <;> intro hc <;> rw [hc] at h <;> revert h
  · show 32 = _ → _; omega
  · show 58 = _ → _; omega
  · show 47 = _ → _; omega

/-- The name of an image without its directory. -/
def imageName (t : DateTime) : Text :=
  "satellite.GOES-16.".toList ++ strftimeYear t.year ++ two t.month ++ two t.day ++ two t.hour ++ two t.minute ++
    ".GLM_fed_afa_toe_ged_aga_gcd.png".toList

theorem imageName_plain (t : DateTime) (hy : 1000 ≤ t.year) :
    ' ' ∉ imageName t ∧ ':' ∉ imageName t ∧ '/' ∉ imageName t := by
  unfold imageName strftimeYear
  rw [if_pos hy]
  have hp : ∀ c ∈ [' ', ':', '/'], ∀ n, c ≠ digit n := by
    intro c hc n
    obtain ⟨d1, d2, d3⟩ := digit_plain n
    simp only [List.mem_cons, List.not_mem_nil, or_false] at hc
    rcases hc with rfl | rfl | rfl
    · exact d1.symm
    · exact d2.symm
    · exact d3.symm
  refine ⟨?_, ?_, ?_⟩ <;> simp only [two, four, List.mem_append, List.mem_cons, List.not_mem_nil, or_false, not_or] <;>
    (repeat' constructor) <;> first | decide | (apply hp; simp)

theorem imageName_length (t : DateTime) (hy : 1000 ≤ t.year) : (imageName t).length = 62 := by
  unfold imageName strftimeYear
  rw [if_pos hy]
  rfl

/-- The part of the path before the name. -/
theorem dayDirectory_eq (outdir : Text) (t : DateTime) :
    ∃ p, dayDirectory outdir t = p ++ two t.day := by
  unfold dayDirectory joinPath
  split
  · exact ⟨outdir ++ ("20".toList ++ two t.year ++ '/' :: monthName t.month ++ ['/']), by simp⟩
  · exact ⟨outdir ++ '/' :: ("20".toList ++ two t.year ++ '/' :: monthName t.month ++ ['/']), by simp⟩

theorem imagePath_eq (outdir : Text) (t : DateTime) (hy : 1000 ≤ t.year) :
    imagePath outdir t = cleanPath (dayDirectory outdir t) ++ '/' :: imageName t := by
  have hj : joinPath (dayDirectory outdir t) (imageName t) = dayDirectory outdir t ++ '/' :: imageName t := by
    obtain ⟨p, hp⟩ := dayDirectory_eq outdir t
    unfold joinPath
    rw [if_neg]
    rw [hp]
    rintro (h | h)
    · simp [two] at h
    · have : (p ++ two t.day).getLast? = some (digit t.day) := by
        have : p ++ two t.day = (p ++ [digit (t.day / 10)]) ++ [digit t.day] := by simp [two]
        rw [this, List.getLast?_concat]
      rw [this] at h
      exact (digit_plain _).2.2 (Option.some.inj h)
  show cleanPath (joinPath (dayDirectory outdir t) (imageName t)) = _
  obtain ⟨n1, n2, n3⟩ := imageName_plain t hy
  rw [hj, cleanPath_append]
  congr 1
  apply cleanPath_id
  · intro h; rcases List.mem_cons.mp h with h | h
    · revert h; decide
    · exact n1 h
  · intro h; rcases List.mem_cons.mp h with h | h
    · revert h; decide
    · exact n2 h

theorem two_inj {a b : Nat} (ha : a < 100) (hb : b < 100) (h : two a = two b) : a = b := by
  simp only [two, List.cons.injEq, and_true] at h
  have h1 := digit_inj h.1
  have h2 := digit_inj h.2
  omega

theorem four_inj {a b : Nat} (ha : a < 10000) (hb : b < 10000) (h : four a = four b) : a = b := by
  simp only [four, List.cons.injEq, and_true] at h
  have h1 := digit_inj h.1
  have h2 := digit_inj h.2.1
  have h3 := digit_inj h.2.2.1
  have h4 := digit_inj h.2.2.2
  omega

theorem daysIn_lt (y m : Nat) : daysIn y m < 100 := by
  unfold daysIn
  split_ifs <;> first | omega | skip
  all_goals (split <;> omega)

/-- Two images have the same path exactly if they are of the same minute. -/
theorem imagePath_inj (outdir : Text) (a b : DateTime) (ha : ValidTime a) (hb : ValidTime b) (ya : 1000 ≤ a.year)
    (yb : 1000 ≤ b.year) : imagePath outdir a = imagePath outdir b ↔ SameMinute a b := by
  constructor
  · intro h
    rw [imagePath_eq outdir a ya, imagePath_eq outdir b yb] at h
    have h2 := (List.append_inj' h (by simp only [List.length_cons, imageName_length a ya, imageName_length b yb])).2
    have h3 := (List.cons.inj h2).2
    unfold imageName strftimeYear at h3
    rw [if_pos ya, if_pos yb] at h3
    simp only [List.append_assoc] at h3
    have h4 := List.append_cancel_left h3
    obtain ⟨e1, h5⟩ := List.append_inj h4 rfl
    obtain ⟨e2, h6⟩ := List.append_inj h5 rfl
    obtain ⟨e3, h7⟩ := List.append_inj h6 rfl
    obtain ⟨e4, h8⟩ := List.append_inj h7 rfl
    obtain ⟨e5, -⟩ := List.append_inj h8 rfl
    have d1 := daysIn_lt a.year a.month
    have d2 := daysIn_lt b.year b.month
    have := ha.year; have := hb.year; have := ha.month; have := hb.month; have := ha.day; have := hb.day
    have := ha.hour; have := hb.hour; have := ha.minute; have := hb.minute
    exact ⟨four_inj (by omega) (by omega) e1, two_inj (by omega) (by omega) e2, two_inj (by omega) (by omega) e3,
      two_inj (by omega) (by omega) e4, two_inj (by omega) (by omega) e5⟩
  · rintro ⟨h1, h2, h3, h4, h5⟩
    unfold imagePath dayDirectory
    rw [h1, h2, h3, h4, h5]

theorem dropWhile_false_append {a b : Text} {P : Char → Bool} (h : ∀ c ∈ a, P c = true) :
    (a ++ b).dropWhile P = b.dropWhile P := by
  induction a with
  | nil => rfl
  | cons c a ih =>
    rw [List.cons_append, List.dropWhile_cons, if_pos (h c List.mem_cons_self)]
    exact ih fun d hd => h d (List.mem_cons_of_mem _ hd)

theorem dirname_append {a b : Text} {c : Char} (hc : c ≠ '/') (hb : '/' ∉ b) :
    dirname ((a ++ [c]) ++ '/' :: b) = a ++ [c] := by
  unfold dirname
  have h1 : ((((a ++ [c]) ++ '/' :: b).reverse.dropWhile (· ≠ '/')).reverse) = a ++ [c] ++ ['/'] := by
    have : ((a ++ [c]) ++ '/' :: b).reverse = b.reverse ++ ('/' :: c :: a.reverse) := by simp
    rw [this, dropWhile_false_append]
    · rw [List.dropWhile_cons, if_neg (by simp)]
      simp
    · intro d hd
      rw [decide_eq_true_eq]
      rintro rfl
      exact hb (List.mem_reverse.mp hd)
  simp only [h1]
  rw [if_neg]
  · have : (a ++ [c] ++ ['/']).reverse = '/' :: c :: a.reverse := by simp
    rw [this, List.dropWhile_cons, if_pos (by simp), List.dropWhile_cons, if_neg (by simpa using hc)]
    simp
  · simp [hc]

theorem dirname_image (outdir : Text) (t : DateTime) (hy : 1000 ≤ t.year) :
    dirname (imagePath outdir t) = cleanPath (dayDirectory outdir t) := by
  rw [imagePath_eq outdir t hy]
  obtain ⟨p, hp⟩ := dayDirectory_eq outdir t
  have h2 : cleanPath (dayDirectory outdir t) = (cleanPath p ++ [digit (t.day / 10)]) ++ [digit t.day] := by
    rw [hp, cleanPath_append, cleanPath_id (a := two t.day)]
    · simp [two]
    · simp only [two, List.mem_cons, List.not_mem_nil, or_false, not_or]
      exact ⟨(digit_plain _).1.symm, (digit_plain _).1.symm⟩
    · simp only [two, List.mem_cons, List.not_mem_nil, or_false, not_or]
      exact ⟨(digit_plain _).2.1.symm, (digit_plain _).2.1.symm⟩
  rw [h2]
  exact dirname_append (digit_plain _).2.2 (imageName_plain t hy).2.2

theorem monthName_plain (m : Nat) : ' ' ∉ monthName m ∧ ':' ∉ monthName m := by
  unfold monthName
  rcases Nat.lt_or_ge (m - 1) 12 with h | h
  · interval_cases (m - 1) <;> decide
  · have : (m - 1) ≥ ["Jan", "Feb", "Mar", "Apr", "May", "Jun", "Jul", "Aug", "Sep", "Oct", "Nov", "Dec"].length := h
    rw [List.getD_eq_getElem?_getD, List.getElem?_eq_none this]
    decide

theorem day_plain (t : DateTime) :
    ' ' ∉ "20".toList ++ two t.year ++ '/' :: monthName t.month ++ '/' :: two t.day ∧
    ':' ∉ "20".toList ++ two t.year ++ '/' :: monthName t.month ++ '/' :: two t.day := by
  obtain ⟨m1, m2⟩ := monthName_plain t.month
  have d := digit_plain
  constructor <;>
    simp only [two, List.mem_append, List.mem_cons, List.not_mem_nil, or_false, not_or] <;>
    refine ⟨⟨⟨by decide, ?_, ?_⟩, by decide, by assumption⟩, by decide, ?_, ?_⟩
  · exact (d _).1.symm
  · exact (d _).1.symm
  · exact (d _).1.symm
  · exact (d _).1.symm
  · exact (d _).2.1.symm
  · exact (d _).2.1.symm
  · exact (d _).2.1.symm
  · exact (d _).2.1.symm

theorem dayDirectory_plain {outdir : Text} (c : Char) (hc : c = ' ' ∨ c = ':') (t : DateTime) :
    c ∈ dayDirectory outdir t ↔ c ∈ outdir := by
  obtain ⟨p1, p2⟩ := day_plain t
  have hp : c ∉ "20".toList ++ two t.year ++ '/' :: monthName t.month ++ '/' :: two t.day := by
    rcases hc with rfl | rfl
    · exact p1
    · exact p2
  have hs : c ≠ '/' := by rcases hc with rfl | rfl <;> decide
  unfold dayDirectory joinPath
  generalize "20".toList ++ two t.year ++ '/' :: monthName t.month ++ '/' :: two t.day = q at hp ⊢
  split
  · simp [hp]
  · simp [hp, hs]

/-- An image of the last time in each minute, and nothing else that is new. -/
theorem plotFiles_sorted {calendar : Int → DateTime} {plot : Int → Except Err Unit} {outdir : Text}
    (h1 : ' ' ∉ outdir) (h2 : ':' ∉ outdir) (times : List Int) (hs : times.Pairwise (· ≤ ·))
    (hv : ∀ t ∈ times, 1000 ≤ (calendar t).year ∧ plot t = .ok ()) (disk : Disk) :
    ∃ disk', times.foldlM (plotFileStep calendar plot outdir) disk = .ok disk' ∧ ∀ path t,
      (path, t) ∈ disk'.files ↔
        ((path, t) ∈ disk.files ∧ ∀ s ∈ times, imagePath outdir (calendar s) ≠ path) ∨
        (t ∈ times ∧ imagePath outdir (calendar t) = path ∧
          ∀ s ∈ times, imagePath outdir (calendar s) = path → s ≤ t) := by
  induction times generalizing disk with
  | nil => exact ⟨disk, rfl, by simp⟩
  | cons a times ih =>
    obtain ⟨ha, hs'⟩ := List.pairwise_cons.mp hs
    obtain ⟨hy, hplot⟩ := hv a List.mem_cons_self
    set dir := dayDirectory outdir (calendar a) with hdir
    set dirs := if dir ∈ disk.dirs then disk.dirs else dir :: disk.dirs with hdirs
    set path0 := imagePath outdir (calendar a) with hpath0
    have hmem : dirname path0 ∈ dirs := by
      rw [hpath0, dirname_image _ _ hy, cleanPath_id]
      · rw [hdirs]
        split
        · assumption
        · exact List.mem_cons_self
      · rw [dayDirectory_plain ' ' (Or.inl rfl)]; exact h1
      · rw [dayDirectory_plain ':' (Or.inr rfl)]; exact h2
    have hstep : plotFileStep calendar plot outdir disk a =
        .ok ⟨dirs, (path0, a) :: disk.files.filter fun f => f.1 ≠ path0⟩ := by
      unfold plotFileStep
      rw [hplot]
      simp only [bind, Except.bind]
      rw [if_pos hmem]
      rfl
    obtain ⟨disk', i1, i2⟩ := ih hs' (fun t ht => hv t (List.mem_cons_of_mem _ ht))
      ⟨dirs, (path0, a) :: disk.files.filter fun f => f.1 ≠ path0⟩
    refine ⟨disk', ?_, ?_⟩
    · rw [List.foldlM_cons, hstep]
      exact i1
    · intro path t
      rw [i2]
      simp only [List.mem_cons, Prod.mk.injEq, List.mem_filter, decide_eq_true_eq, forall_eq_or_imp]
      constructor
      · rintro (⟨⟨rfl, rfl⟩ | ⟨hf, hne⟩, hno⟩ | ⟨ht, hp, hl⟩)
        · exact Or.inr ⟨Or.inl rfl, rfl, fun _ => le_rfl, fun s hs hc => absurd hc (hno s hs)⟩
        · exact Or.inl ⟨hf, Ne.symm hne, hno⟩
        · exact Or.inr ⟨Or.inr ht, hp, fun _ => ha t ht, hl⟩
      · rintro (⟨hf, hne, hno⟩ | ⟨ht, hp, hl0, hl⟩)
        · exact Or.inl ⟨Or.inr ⟨hf, Ne.symm hne⟩, hno⟩
        · by_cases hin : t ∈ times
          · exact Or.inr ⟨hin, hp, hl⟩
          · obtain rfl := ht.resolve_right hin
            refine Or.inl ⟨Or.inl ⟨hp.symm, rfl⟩, ?_⟩
            intro s hs hc
            have : s = t := le_antisymm (hl s hs hc) (ha s hs)
            exact hin (this ▸ hs)

/-- **C101**, exactly which images the loop of the program makes if the plots succeed: one for each minute, of the last
time in it; other images stay. -/
theorem C101_exact (calendar : Int → DateTime) (plot : Int → Except Err Unit) (outdir : Text) (times : List Int)
    (disk : Disk) (h1 : ' ' ∉ outdir) (h2 : ':' ∉ outdir)
    (hv : ∀ t ∈ times, 1000 ≤ (calendar t).year ∧ plot t = .ok ()) :
    ∃ disk', plotFiles calendar plot outdir times disk = .ok disk' ∧ ∀ path t,
      (path, t) ∈ disk'.files ↔
        ((path, t) ∈ disk.files ∧ ∀ s ∈ times, imagePath outdir (calendar s) ≠ path) ∨
        (t ∈ times ∧ imagePath outdir (calendar t) = path ∧
          ∀ s ∈ times, imagePath outdir (calendar s) = path → s ≤ t) := by
  have hm : ∀ t, t ∈ times.mergeSort (· ≤ ·) ↔ t ∈ times := fun t => List.mem_mergeSort
  have hp : (times.mergeSort (· ≤ ·)).Pairwise (· ≤ ·) := by
    have := List.pairwise_mergeSort (le := fun a b : Int => decide (a ≤ b))
      (fun a b c => by simp only [decide_eq_true_eq]; exact le_trans)
      (fun a b => by simp only [Bool.or_eq_true, decide_eq_true_eq]; exact le_total a b) times
    simpa using this
  obtain ⟨disk', i1, i2⟩ := plotFiles_sorted h1 h2 (times.mergeSort (· ≤ ·)) hp
    (fun t ht => hv t ((hm t).mp ht)) disk
  refine ⟨disk', i1, fun path t => ?_⟩
  rw [i2]
  simp only [hm]

/-- C101, if the plots succeed, no two times are in the same minute and the output directory has neither blanks nor
colons. -/
theorem C101_partial (calendar : Int → DateTime) (plot : Int → Except Err Unit) (outdir : Text) (times : List Int)
    (disk : Disk) (h1 : ' ' ∉ outdir) (h2 : ':' ∉ outdir) (hplot : ∀ t ∈ times, plot t = .ok ())
    (hv : ∀ t ∈ times, ValidTime (calendar t) ∧ 1000 ≤ (calendar t).year)
    (hd : ∀ s ∈ times, ∀ t ∈ times, SameMinute (calendar s) (calendar t) → s = t) :
    ∃ disk', plotFiles calendar plot outdir times disk = .ok disk' ∧ AllShown disk' times := by
  obtain ⟨disk', i1, i2⟩ := C101_exact calendar plot outdir times disk h1 h2
    (fun t ht => ⟨(hv t ht).2, hplot t ht⟩)
  refine ⟨disk', i1, fun t ht => ⟨_, (i2 _ t).mpr (Or.inr ⟨ht, rfl, ?_⟩)⟩⟩
  intro s hs hc
  rw [imagePath_inj _ _ _ (hv s hs).1 (hv t ht).1 (hv s hs).2 (hv t ht).2] at hc
  exact (hd s hs t ht hc).le

/-- C101: of two times in the same minute, the earlier one has no image (that was not there before). -/
theorem C101_same_minute (calendar : Int → DateTime) (plot : Int → Except Err Unit) (outdir : Text) (times : List Int)
    (dirs : List Text) (h1 : ' ' ∉ outdir) (h2 : ':' ∉ outdir) (hplot : ∀ t ∈ times, plot t = .ok ())
    (hv : ∀ t ∈ times, 1000 ≤ (calendar t).year) (s t : Int) (hs : s ∈ times) (ht : t ∈ times) (hlt : s < t)
    (hm : SameMinute (calendar s) (calendar t)) :
    ∃ disk', plotFiles calendar plot outdir times ⟨dirs, []⟩ = .ok disk' ∧ ∀ path, (path, s) ∉ disk'.files := by
  obtain ⟨disk', i1, i2⟩ := C101_exact calendar plot outdir times ⟨dirs, []⟩ h1 h2
    (fun t ht => ⟨hv t ht, hplot t ht⟩)
  refine ⟨disk', i1, fun path hp => ?_⟩
  rcases (i2 path s).mp hp with ⟨hc, -⟩ | ⟨-, hp, hl⟩
  · cases hc
  · have : imagePath outdir (calendar t) = path := by
      rw [← hp]
      obtain ⟨e1, e2, e3, e4, e5⟩ := hm
      unfold imagePath dayDirectory
      rw [e1, e2, e3, e4, e5]
    exact absurd (hl t ht this) (by omega)

/-- C101: with a blank or a colon in the output directory there is no image at all, unless the directory without them
exists. -/
theorem C101_blank (calendar : Int → DateTime) (plot : Int → Except Err Unit) (outdir : Text) (times : List Int)
    (disk : Disk) (h : ' ' ∈ outdir ∨ ':' ∈ outdir) (hne : times ≠ []) (hplot : ∀ t ∈ times, plot t = .ok ())
    (hv : ∀ t ∈ times, 1000 ≤ (calendar t).year)
    (hno : ∀ t ∈ times, cleanPath (dayDirectory outdir (calendar t)) ∉ disk.dirs) :
    plotFiles calendar plot outdir times disk = .error .fileNotFoundError := by
  have hm : ∀ t, t ∈ times.mergeSort (· ≤ ·) ↔ t ∈ times := fun t => List.mem_mergeSort
  unfold plotFiles
  cases hl : times.mergeSort (· ≤ ·) with
  | nil =>
    exfalso
    cases times with
    | nil => exact hne rfl
    | cons a times =>
      have := (hm a).mpr List.mem_cons_self
      rw [hl] at this
      cases this
  | cons a rest =>
    have ha : a ∈ times := (hm a).mp (by rw [hl]; exact List.mem_cons_self)
    rw [List.foldlM_cons]
    have : plotFileStep calendar plot outdir disk a = .error .fileNotFoundError := by
      unfold plotFileStep
      rw [hplot a ha]
      simp only [bind, Except.bind]
      rw [if_neg]
      rw [dirname_image _ _ (hv a ha)]
      have hne : cleanPath (dayDirectory outdir (calendar a)) ≠ dayDirectory outdir (calendar a) := by
        intro hc
        obtain ⟨c1, c2⟩ := cleanPath_clean (dayDirectory outdir (calendar a))
        rw [hc] at c1 c2
        rcases h with h | h
        · exact c1 ((dayDirectory_plain ' ' (Or.inl rfl) _).mpr h)
        · exact c2 ((dayDirectory_plain ':' (Or.inr rfl) _).mpr h)
      split
      · exact hno a ha
      · rw [List.mem_cons, not_or]
        exact ⟨hne, hno a ha⟩
    rw [this]
    rfl

/-- Times as seconds of one hour. -/
def hourCalendar (t : Int) : DateTime := ⟨2020, 7, 4, 12, (t / 60).toNat % 60, (t % 60).toNat, 0⟩

theorem hourCalendar_valid (t : Int) : ValidTime (hourCalendar t) ∧ 1000 ≤ (hourCalendar t).year := by
  refine ⟨⟨?_, ?_, ?_, ?_, ?_, ?_, ?_⟩, ?_⟩ <;> simp only [hourCalendar, daysIn] <;> first | decide | omega

/-- Times in different minutes. -/
example : ∃ disk', plotFiles hourCalendar (fun _ => .ok ()) "out".toList [70, 0] ⟨[], []⟩ = .ok disk' ∧
    AllShown disk' [70, 0] :=
  C101_partial _ _ _ _ _ (by decide) (by decide) (fun _ _ => rfl) (fun t _ => hourCalendar_valid t) (by
    intro s hs t ht hm
    have := hm.2.2.2.2
    simp only [List.mem_cons, List.not_mem_nil, or_false] at hs ht
    rcases hs with rfl | rfl <;> rcases ht with rfl | rfl <;> first | rfl | (revert this; decide +kernel))

/-- Times 20 seconds apart, as from the files of the instrument. -/
example : ∃ disk', plotFiles hourCalendar (fun _ => .ok ()) "out".toList [70, 0, 20] ⟨[], []⟩ = .ok disk' ∧
    ∀ path, (path, 0) ∉ disk'.files :=
  C101_same_minute _ _ _ _ _ (by decide) (by decide) (fun _ _ => rfl) (fun t _ => (hourCalendar_valid t).2) 0 20
    (by decide) (by decide) (by decide) (by unfold SameMinute; decide +kernel)

example : imagePath "out".toList (hourCalendar 70) =
    "out/2020/Jul/04/satellite.GOES-16.202007041201.GLM_fed_afa_toe_ged_aga_gcd.png".toList := by decide +kernel

example : plotFiles hourCalendar (fun _ => .ok ()) "my plots".toList [70, 0, 20] ⟨[], []⟩ = .error .fileNotFoundError :=
  C101_blank _ _ _ _ _ (by decide) (by decide) (fun _ _ => rfl) (fun t _ => (hourCalendar_valid t).2) (fun _ _ => by simp)

/-! ## C102 -/

/-- **C102**: the plot of a flash shows its place, its groups and the events of its groups, each once, with their
energies; the title has its id and its times. -/
theorem C102_flash (d : GFile) (h : HasData d) (hf : UniqueIds d.flashes) (hg : UniqueIds d.groups) (f : Row GVal)
    (hm : f ∈ d.flashes) :
    ∃ p, plotFlash d f.id = .ok p ∧ p.id = f.id ∧ p.start = firstTime f ∧ p.stop = lastTime f ∧
      p.flashes = [(f.val.lon, f.val.lat)] ∧
      p.groups = (d.groups.filter fun g => g.pid = f.id).map (fun g => (g.val.lon, g.val.lat, g.val.energy)) ∧
      p.events.Perm ((d.events.filter fun e => EventOfFlash d f.id e).map
        fun e => (e.val.lon, e.val.lat, e.val.energy)) := by
  have hfl : rowsInOrder [f.id] d.flashes = [f] := by
    unfold rowsInOrder
    rw [List.flatMap_cons, List.flatMap_nil, List.append_nil]
    have hu : ∀ (l : List (Row GVal)), (l.map Row.id).Nodup → f ∈ l → l.filter (fun r => r.id = f.id) = [f] := by
      intro l
      induction l with
      | nil => intro _ h; cases h
      | cons a l ih =>
        intro hn hmem
        rw [List.map_cons, List.nodup_cons] at hn
        rcases List.mem_cons.mp hmem with rfl | hmem
        · rw [List.filter_cons, if_pos (by simp)]
          congr 1
          rw [List.filter_eq_nil_iff]
          intro r hr hc
          rw [decide_eq_true_eq] at hc
          exact hn.1 (List.mem_map.mpr ⟨r, hr, hc⟩)
        · rw [List.filter_cons, if_neg]
          · exact ih hn.2 hmem
          · rw [decide_eq_true_eq]
            intro hc
            exact hn.1 (List.mem_map.mpr ⟨f, hmem, hc.symm⟩)
    exact hu _ hf hm
  have hgr : childrenInOrder [f.id] d.groups = d.groups.filter fun g => g.pid = f.id := by
    unfold childrenInOrder
    rw [List.flatMap_cons, List.flatMap_nil, List.append_nil]
  unfold plotFlash
  rw [getFlashes_ok h]
  simp only [bind, Except.bind, keptFlashes, hfl, hgr]
  refine ⟨_, rfl, rfl, rfl, rfl, rfl, rfl, ?_⟩
  apply List.Perm.map
  refine (childrenInOrder_perm ?_ _).trans (List.Perm.of_eq ?_)
  · exact hg.sublist (List.filter_sublist.map Row.id)
  · apply List.filter_congr
    intro e _
    rw [decide_eq_decide, List.mem_map]
    constructor
    · rintro ⟨g, hg, hg2⟩
      obtain ⟨m1, m2⟩ := List.mem_filter.mp hg
      exact ⟨g, m1, hg2, of_decide_eq_true m2⟩
    · rintro ⟨g, m1, hg2, m2⟩
      exact ⟨g, List.mem_filter.mpr ⟨m1, decide_eq_true m2⟩, hg2⟩

/-- C102: an id that no flash has is an IndexError. -/
theorem C102_missing (d : GFile) (h : HasData d) (i : Int) (hi : ∀ f ∈ d.flashes, f.id ≠ i) :
    plotFlash d i = .error .indexError := by
  have hfl : rowsInOrder [i] d.flashes = [] := by
    unfold rowsInOrder
    rw [List.flatMap_cons, List.flatMap_nil, List.append_nil, List.filter_eq_nil_iff]
    intro r hr
    simpa using hi r hr
  unfold plotFlash
  rw [getFlashes_ok h]
  simp only [bind, Except.bind, keptFlashes, hfl]

example : ∃ p, plotFlash sampleFile 5 = .ok p ∧ p.groups.length = 2 ∧ p.events.length = 2 := by
  obtain ⟨p, h1, -, -, -, -, h2, h3⟩ := C102_flash sampleFile sampleFile_ok.1 sampleFile_ok.2.2.1 sampleFile_ok.2.2.2
    ⟨5, 0, { lon := -75, lat := 0, area := 100 }⟩ (by decide +kernel)
  exact ⟨p, h1, by rw [h2]; decide +kernel, by rw [h3.length_eq]; decide +kernel⟩

/-! ## C103 -/

/-- **C103**: the bounds contain every event, and no smaller bounds do. -/
theorem C103_bounds (d : GFile) (hne : d.events ≠ []) :
    ∃ lon0 lon1 lat0 lat1, fovBounds d = .ok ((lon0, lon1), (lat0, lat1)) ∧
      (∀ e ∈ d.events, lon0 ≤ e.val.lon ∧ e.val.lon ≤ lon1 ∧ lat0 ≤ e.val.lat ∧ e.val.lat ≤ lat1) ∧
      ∀ a b c c', (∀ e ∈ d.events, a ≤ e.val.lon ∧ e.val.lon ≤ b ∧ c ≤ e.val.lat ∧ e.val.lat ≤ c') →
        a ≤ lon0 ∧ lon1 ≤ b ∧ c ≤ lat0 ∧ lat1 ≤ c' := by
  obtain ⟨lat0, p1, m1, b1⟩ := arrayMin_ok (l := d.events.map fun e => e.val.lat) (by simpa using hne)
  obtain ⟨lat1, p2, m2, b2⟩ := arrayMax_ok (l := d.events.map fun e => e.val.lat) (by simpa using hne)
  obtain ⟨lon0, p3, m3, b3⟩ := arrayMin_ok (l := d.events.map fun e => e.val.lon) (by simpa using hne)
  obtain ⟨lon1, p4, m4, b4⟩ := arrayMax_ok (l := d.events.map fun e => e.val.lon) (by simpa using hne)
  refine ⟨lon0, lon1, lat0, lat1, ?_, ?_, ?_⟩
  · unfold fovBounds
    rw [p1, p2, p3, p4]
    rfl
  · intro e he
    exact ⟨b3 _ (List.mem_map.mpr ⟨e, he, rfl⟩), b4 _ (List.mem_map.mpr ⟨e, he, rfl⟩),
      b1 _ (List.mem_map.mpr ⟨e, he, rfl⟩), b2 _ (List.mem_map.mpr ⟨e, he, rfl⟩)⟩
  · intro a b c c' hall
    obtain ⟨e1, h1, rfl⟩ := List.mem_map.mp m1
    obtain ⟨e2, h2, rfl⟩ := List.mem_map.mp m2
    obtain ⟨e3, h3, rfl⟩ := List.mem_map.mp m3
    obtain ⟨e4, h4, rfl⟩ := List.mem_map.mp m4
    exact ⟨(hall e3 h3).1, (hall e4 h4).2.1, (hall e1 h1).2.2.1, (hall e2 h2).2.2.2⟩

/-- C103: without events there are no bounds. -/
theorem C103_none (d : GFile) (hne : d.events = []) : fovBounds d = .error .valueError := by
  unfold fovBounds
  rw [hne]
  rfl

example : fovBounds sampleFile = .ok ((-80, 100), (0, 0)) := by decide +kernel

end Verif.Props
