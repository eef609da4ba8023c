import Verif.Props.Ids
import Verif.Props.Session
import Verif.Props.SearchFl

/-!
# C150: one entry of the event lookup table for each pixel
-/

namespace Verif.Props

open Verif.Py Verif.Model Verif.Spec Verif.Proofs

/-- 28.001 microradians; the interval of the table is 28 microradians, the pixels are 224 apart or more. -/
def interval : Rat := 28001 / 1000000000

/-- Two places that are at least an interval apart, from west to east or from south to north. -/
def Apart (p q : Pt) : Prop := interval ≤ |p.1 - q.1| ∨ interval ≤ |p.2 - q.2|

/-- The events of a file are at pixels: in the field of view, and at places that are either the same or an interval
apart. -/
structure AtPixels (d : GFile) : Prop where
  view : ∀ e ∈ d.events, inView (placeOf e).1 ∧ inView (placeOf e).2
  apart : ∀ e ∈ d.events, ∀ e' ∈ d.events, placeOf e ≠ placeOf e' → Apart (placeOf e) (placeOf e')

/-- Places an interval apart have different ids. -/
theorem C150_apart {p q : Pt} (hp : inView p.1 ∧ inView p.2) (hq : inView q.1 ∧ inView q.2) (h : Apart p q) :
    defaultLocD p.1 p.2 ≠ defaultLocD q.1 q.2 := by
  intro e
  obtain ⟨h1, h2⟩ := (C124_same hp.1 hp.2 hq.1 hq.2).1 e
  have hi : (28 / 1000000 : Rat) + idMargin < interval := by unfold idMargin interval; norm_num
  rcases h with h | h
  · exact absurd (h1.trans_lt hi) (not_lt.mpr h)
  · exact absurd (h2.trans_lt hi) (not_lt.mpr h)

/-- The table puts only events at one place together: the assumption on places of C93 and of all that follows from
it holds for every file whose events are at pixels. -/
theorem C150_exact {d : GFile} (h : AtPixels d) : PixelExact defaultLocD d := by
  intro e he e' he' hid
  by_contra hne
  exact C150_apart (h.view e he) (h.view e' he') (h.apart e he e' he' hne) hid

/-- One entry for each pixel, at the place of the pixel, with the energy of the events there. -/
theorem C150_pixels {t : Int} {d : GFile} {rows : List LutRow}
    (h : getLutevents t defaultLocD d = .ok rows) (hd : AtPixels d) :
    (rows.map fun r => (r.x, r.y)).Nodup ∧
    (∀ p : Pt, p ∈ rows.map (fun r => (r.x, r.y)) ↔ ∃ e ∈ d.events, placeOf e = p) ∧
    ∀ r ∈ rows, r.energy = ((d.events.filter fun e => placeOf e = (r.x, r.y)).map fun e => e.val.energy).sum ∧
      r.count = (d.events.filter fun e => placeOf e = (r.x, r.y)).length := by
  have hp := C150_exact hd
  refine ⟨row_places_nodup h hp, ?_, ?_⟩
  · intro p
    constructor
    · intro hm
      obtain ⟨r, hr, rfl⟩ := List.mem_map.mp hm
      obtain ⟨e, he⟩ := event_of_row h hr
      exact ⟨e, (List.mem_filter.mp he).1, row_place h hp hr he⟩
    · rintro ⟨e, he, rfl⟩
      obtain ⟨r, hr, hre⟩ := row_of_event h he
      exact List.mem_map.mpr ⟨r, hr, (row_place h hp hr hre).symm⟩
  · intro r hr
    have hs := ((C17_conservation h).2.2.1 r hr).2
    have hev : (d.events.filter fun e => placeOf e = (r.x, r.y)) = eventsAt defaultLocD d r.id := by
      unfold eventsAt
      apply List.filter_congr
      intro e he
      rw [decide_eq_decide]
      constructor
      · intro hpl
        obtain ⟨e', he'⟩ := event_of_row h hr
        have h1 := row_place h hp hr he'
        have h2 := of_decide_eq_true (List.mem_filter.mp he').2
        have h3 : placeOf e = placeOf e' := hpl.trans h1.symm
        rw [← h2]
        exact congrArg₂ defaultLocD (congrArg Prod.fst h3) (congrArg Prod.snd h3)
      · intro hl
        exact row_place h hp hr (List.mem_filter.mpr ⟨he, decide_eq_true hl⟩)
    rw [hev]
    exact ⟨hs.energy, hs.count⟩

/-- With the positions computed in double precision: the sums `Sx` and `Sy`, added up in any order, divided by the number of
events.  At most a thousand events at the pixel: off by at most 4 parts in 10^14 of a radian. -/
theorem C150_position {d : GFile} (hd : AtPixels d) {e : Row GVal} (he : e ∈ d.events)
    (hn : (d.events.filter fun e' => placeOf e' = placeOf e).length ≤ 1000) {Sx Sy : Rat}
    (hx : AddsUp ((d.events.filter fun e' => defaultLocD e'.val.x e'.val.y = defaultLocD e.val.x e.val.y).map
      fun e' => double e'.val.x) Sx)
    (hy : AddsUp ((d.events.filter fun e' => defaultLocD e'.val.x e'.val.y = defaultLocD e.val.x e.val.y).map
      fun e' => double e'.val.y) Sy) :
    |double (Sx / (d.events.filter fun e' => placeOf e' = placeOf e).length) - e.val.x| ≤ 4 / 10 ^ 14 ∧
    |double (Sy / (d.events.filter fun e' => placeOf e' = placeOf e).length) - e.val.y| ≤ 4 / 10 ^ 14 := by
  have hev : (d.events.filter fun e' => defaultLocD e'.val.x e'.val.y = defaultLocD e.val.x e.val.y) =
      d.events.filter fun e' => placeOf e' = placeOf e := by
    apply List.filter_congr
    intro e' he'
    rw [decide_eq_decide]
    constructor
    · exact fun h => C150_exact hd e' he' e he h
    · intro h
      exact congrArg₂ defaultLocD (congrArg Prod.fst h) (congrArg Prod.snd h)
  rw [hev] at hx hy
  have hne : (d.events.filter fun e' => placeOf e' = placeOf e) ≠ [] :=
    List.ne_nil_of_mem (List.mem_filter.mpr ⟨he, by simp⟩)
  have hpl : ∀ e' ∈ d.events.filter (fun e' => placeOf e' = placeOf e), placeOf e' = placeOf e :=
    fun e' h => of_decide_eq_true (List.mem_filter.mp h).2
  generalize (d.events.filter fun e' => placeOf e' = placeOf e) = l at *
  have hlen : (0 : Rat) < l.length := by exact_mod_cast List.length_pos_iff.mpr hne
  have key : ∀ (F : Row GVal → Rat) (S : Rat), (∀ e' ∈ l, F e' = F e) → |F e| ≤ 1349 / 10000 →
      AddsUp (l.map fun e' => double (F e')) S → |double (S / l.length) - F e| ≤ 4 / 10 ^ 14 := by
    intro F S hF hv hS
    have h1 := meanFl_near (n := 1000) (R := 1349 / 10000) (l := l.map F) (S := S) (by norm_num) (by simpa using hne)
      (by simpa using hn) (by
        intro v hv'
        obtain ⟨e', he', rfl⟩ := List.mem_map.mp hv'
        rw [hF e' he']; exact hv) (by rw [List.map_map]; exact hS)
    have h2 : (l.map F).sum / l.length = F e := by
      rw [List.map_congr_left hF, List.map_const', List.sum_replicate, nsmul_eq_mul]
      field_simp
    rw [List.length_map, h2] at h1
    refine h1.trans ?_
    unfold meanError ulp1
    norm_num
  exact ⟨key (fun e => e.val.x) Sx (fun e' h => congrArg Prod.fst (hpl e' h)) (hd.view e he).1 hx,
    key (fun e => e.val.y) Sy (fun e' h => congrArg Prod.snd (hpl e' h)) (hd.view e he).2 hy⟩

/-- C93 with the ids of the program, for files whose events are at pixels: what is left to assume of a file is that its
footprints fit the grid. -/
theorem C150_grids (clip : Poly → Poly → List Poly) (query : List Pt → Pt → Nat → List Nat)
    (foot : Pt → Poly) (x y : List Rat) (basedate : Int)
    (order : List Int → List Int) (c : Criteria) (n : Nat) (files : List (Int × GFile))
    (points : Grid → List LmaParent → Grid) (label : String) (par : String → FakeLma → List LmaParent)
    (hx : AxisOk x) (hy : AxisOk y) (hsz : 2 < x.length ∨ 2 < y.length)
    (hclip : ∀ p q s, s ∈ clip p q → s ≠ []) (ho : ∀ l, (order l).Perm l) (hn : 0 < n)
    (h : ∀ d ∈ files, d.2.events ≠ [] → FileFit clip query foot x y order c n d.2)
    (hp : ∀ d ∈ files, AtPixels d.2) :
    ∃ fakes outgrids grids fed fa te ged ga mfa,
      readFiles clip query (fun pts => pts.map foot) (gridMesh x y) basedate defaultLocD order c n files =
        .ok fakes ∧ lutPipelineSetup = .ok outgrids ∧
      gridFrame points (x.length - 1) (y.length - 1) outgrids
        (fun k => fakes.map fun f => (f.children, par k f)) = .ok grids ∧
      gridNamed label grids "flash_extent_density" = some fed ∧
      gridNamed label grids "average_flash_area" = some fa ∧
      gridNamed label grids "total_energy" = some te ∧
      gridNamed label grids "group_extent_density" = some ged ∧
      gridNamed label grids "average_group_area" = some ga ∧
      gridNamed label grids "minimum_flash_area" = some mfa ∧
      (∀ g ∈ [fed, fa, te, ged, ga, mfa], g.n0 = x.length - 1 ∧ g.n1 = y.length - 1) ∧
      ∀ i j, i + 1 < x.length → j + 1 < y.length →
        CellsOfFiles clip foot x y c files i j (fed.val i j) (fa.val i j) (te.val i j) (ged.val i j)
          (ga.val i j) (mfa.val i j) :=
  C93_partial clip query foot x y basedate defaultLocD order c n files points label par hx hy hsz hclip ho hn
    fun d hd hne => { toFileFit := h d hd hne, pixels := C150_exact (hp d hd) }

/-- Events at two neighbouring pixels near the centre of the image, one of them seen by two flashes. -/
def smallPixels : GFile where
  flashes := [⟨5, 0, { area := 100, nGroups := 1, nEvents := 2 }⟩, ⟨3, 0, { area := 60, nGroups := 1, nEvents := 1 }⟩]
  groups := [⟨11, 5, { nEvents := 2, area := 40 }⟩, ⟨12, 3, { nEvents := 1, area := 50 }⟩]
  events := [⟨100, 11, { x := 1 / 100, y := -(1 / 50), energy := 2, flashOf := 5 }⟩,
    ⟨101, 11, { x := 1 / 100 + 224 / 1000000, y := -(1 / 50), energy := 3, flashOf := 5 }⟩,
    ⟨102, 12, { x := 1 / 100, y := -(1 / 50), energy := 4, flashOf := 3 }⟩]

theorem smallPixels_at : AtPixels smallPixels := by
  refine ⟨?_, ?_⟩
  · unfold inView placeOf; decide +kernel
  · unfold Apart placeOf interval; decide +kernel

/-- A file that meets the hypotheses of the theorems on the table, and its table. -/
example : AtPixels smallPixels ∧
    (getLutevents 7 defaultLocD smallPixels).map (fun l => l.map fun r => (r.x, r.y, r.energy, r.count)) =
      .ok [(1 / 100, -(1 / 50), 6, 2), (1 / 100 + 224 / 1000000, -(1 / 50), 3, 1)] := by
  exact ⟨smallPixels_at, by decide +kernel⟩

/-- A grid of boxes of 112 microradians around the two pixels. -/
def smallX : List Rat := (List.range 9).map fun k => 1 / 100 + 112 / 1000000 * ((k : Rat) - 3)
def smallY : List Rat := (List.range 9).map fun k => -(1 / 50) + 112 / 1000000 * ((k : Rat) - 4)

theorem small_axes : AxisOk smallX ∧ AxisOk smallY ∧ Spaced smallX (112 / 1000000) ∧ Spaced smallY (112 / 1000000) := by
  have h : AxisOk smallX ∧ AxisOk smallY ∧ Uniform smallX (112 / 1000000) ∧ Uniform smallY (112 / 1000000) := by
    unfold AxisOk Increasing Uniform smallX smallY
    exact ⟨⟨by decide +kernel, by decide⟩, ⟨by decide +kernel, by decide⟩, by decide +kernel, by decide +kernel⟩
  exact ⟨h.1, h.2.1, h.2.2.1.spaced h.1, h.2.2.2.spaced h.2.1⟩

/-- The file meets the hypotheses of `C150_grids`, with pixels of 224 microradians. -/
example (n : Nat) (c : Criteria) (hn : 0 < n) : FileFit rectClip (fun _ _ _ => [])
    (fun p => rect (p.1 - 112 / 1000000) (p.1 + 112 / 1000000) (p.2 - 112 / 1000000) (p.2 + 112 / 1000000))
    smallX smallY id c n smallPixels ∧ AtPixels smallPixels := by
  obtain ⟨a1, a2, a3, a4⟩ := small_axes
  refine ⟨fileFit_rect _ (fun l => List.Perm.refl _) hn a1 a2 (Or.inl (by decide)) a3 a4
    (by norm_num) (by norm_num) (by norm_num) (by norm_num) ?_ (by decide +kernel) ?_ ?_ ?_ (by decide +kernel)
    (by decide +kernel), smallPixels_at⟩
  · unfold HasData; decide +kernel
  · exact ⟨by decide +kernel, by decide +kernel, by decide +kernel, by decide +kernel⟩
  · unfold UniqueIds; decide +kernel
  · unfold UniqueIds; decide +kernel

/-- Two places in the field of view that are an interval apart. -/
example : (inView (1 / 10) ∧ inView 0) ∧ (inView (1 / 10) ∧ inView (28001 / 1000000000)) ∧
    Apart (1 / 10, 0) (1 / 10, 28001 / 1000000000) := by
  unfold inView Apart interval; decide +kernel

/-- The events at the first pixel, which are not the same double as the position that is computed from three of them. -/
example : AddsUp [double (1 / 10), double (1 / 10), double (1 / 10)] (double (double (double (1 / 10) + double (1 / 10)) + double (1 / 10))) ∧
    double (double (double (double (1 / 10) + double (1 / 10)) + double (1 / 10)) / 3) ≠ double (1 / 10) :=
  ⟨.add (a := [double (1 / 10), double (1 / 10)]) (b := [double (1 / 10)]) (by simp) (by simp) (List.Perm.refl _)
    (.add (a := [double (1 / 10)]) (b := [double (1 / 10)]) (by simp) (by simp) (List.Perm.refl _) (.one _) (.one _)) (.one _),
    by decide +kernel⟩

/-- What the theorems do not say, because it is not so: events at less than an interval may get two entries. -/
example : defaultLocD 0 0 ≠ defaultLocD (20 / 1000000) 0 := by decide +kernel

end Verif.Props
