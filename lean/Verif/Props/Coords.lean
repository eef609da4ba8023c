import Verif.Model.Coords
import Verif.Props.Imagery
import Mathlib.Tactic.Linarith
import Mathlib.Tactic.Ring
import Mathlib.Tactic.FieldSimp
import Mathlib.Tactic.NormNum
import Mathlib.Tactic.FinCases
import Mathlib.Tactic.IntervalCases

/-!
# C85: coordinates of written imagery
-/

namespace Verif.Props

open Verif.Py Verif.Model Verif.Proofs

/-- One step of the stored coordinates: 56 microradian, 2 km at the subsatellite point. -/
def coordStep : Rat := 56 / 1000000

/-- What is read for a coordinate that was written. -/
def throughFile (cast : Int → Int) (e : CoordEncoding) (v : Rat) : Option Rat :=
  coordDecode e (coordEncode cast e v)

/-- C85: the coordinates of every image in the field of view, whatever its spacing, are read back
without gaps and in the same strict order: different columns (rows) keep different coordinates. -/
def C85_full : Prop := ∀ (cast : Int → Int) (l : List Rat), l.Pairwise (· < ·) →
  (∀ v ∈ l, |v| ≤ 16 / 100) →
  (∃ m : List Rat, l.map (throughFile cast xEncoding) = m.map some ∧ m.Pairwise (· < ·)) ∧
  ∃ m : List Rat, l.map (throughFile cast yEncoding) = m.map some ∧ m.Pairwise (· < ·)

theorem npAround_mono {p q : Rat} (h : p ≤ q) : npAround p ≤ npAround q := by
  by_contra hc
  have h1 : npAround q + 1 ≤ npAround p := by omega
  have h2 : ((npAround q : Int) : Rat) + 1 ≤ (npAround p : Int) := by exact_mod_cast h1
  have a := npAround_bounds p
  have b := npAround_bounds q
  have e : p = q := by linarith [a.1, b.2]
  rw [e] at h1
  omega

/-- The count for a coordinate in view: in range, and not the fill value. -/
theorem count_range {v : Rat} (hv : |v| ≤ 16 / 100) :
    (-146 ≤ npAround ((v - xEncoding.addOffset) / xEncoding.scaleFactor) ∧
      npAround ((v - xEncoding.addOffset) / xEncoding.scaleFactor) ≤ 5569) ∧
    (-146 ≤ npAround ((v - yEncoding.addOffset) / yEncoding.scaleFactor) ∧
      npAround ((v - yEncoding.addOffset) / yEncoding.scaleFactor) ≤ 5569) := by
  obtain ⟨h1, h2⟩ := abs_le.mp hv
  refine ⟨⟨npAround_mono_int.1 ?_, npAround_mono_int.2 ?_⟩, npAround_mono_int.1 ?_, npAround_mono_int.2 ?_⟩ <;>
    simp only [xEncoding, yEncoding] <;> push_cast <;> linarith

theorem throughFile_x (cast : Int → Int) {v : Rat} (hv : |v| ≤ 16 / 100) :
    throughFile cast xEncoding v =
      some (npAround ((v + 151844 / 1000000) / coordStep) * coordStep - 151844 / 1000000) := by
  have h := (count_range hv).1
  have e : (v - xEncoding.addOffset) / xEncoding.scaleFactor = (v + 151844 / 1000000) / coordStep := by
    simp only [xEncoding, coordStep]; ring
  rw [e] at h
  unfold throughFile coordEncode coordDecode
  simp only [e]
  have hr : -32768 ≤ npAround ((v + 151844 / 1000000) / coordStep) ∧ npAround ((v + 151844 / 1000000) / coordStep) < 32768 :=
    ⟨by omega, by omega⟩
  rw [if_pos hr, if_neg (by simp only [xEncoding]; omega)]
  simp only [xEncoding, coordStep]
  congr 1
  ring

theorem throughFile_y (cast : Int → Int) {v : Rat} (hv : |v| ≤ 16 / 100) :
    throughFile cast yEncoding v =
      some (151844 / 1000000 - npAround ((151844 / 1000000 - v) / coordStep) * coordStep) := by
  have h := (count_range hv).2
  have e : (v - yEncoding.addOffset) / yEncoding.scaleFactor = (151844 / 1000000 - v) / coordStep := by
    simp only [yEncoding, coordStep]; ring
  rw [e] at h
  unfold throughFile coordEncode coordDecode
  simp only [e]
  have hr : -32768 ≤ npAround ((151844 / 1000000 - v) / coordStep) ∧ npAround ((151844 / 1000000 - v) / coordStep) < 32768 :=
    ⟨by omega, by omega⟩
  rw [if_pos hr, if_neg (by simp only [yEncoding]; omega)]
  simp only [yEncoding, coordStep]
  congr 1
  ring

/-- Both axes are alike: what is read is a point of the lattice of half steps nearest to the coordinate. -/
theorem throughFile_near (cast : Int → Int) (e : CoordEncoding) (he : e = xEncoding ∨ e = yEncoding) {v : Rat}
    (hv : |v| ≤ 16 / 100) :
    ∃ w, throughFile cast e v = some w ∧ |w - v| ≤ coordStep / 2 ∧ ∃ k : Int, w = (k + 1 / 2) * coordStep := by
  rcases he with rfl | rfl
  · refine ⟨_, throughFile_x cast hv, ?_, npAround ((v + 151844 / 1000000) / coordStep) - 2712, ?_⟩
    · have h := npAround_bounds ((v + 151844 / 1000000) / coordStep)
      generalize npAround ((v + 151844 / 1000000) / coordStep) = n at h
      rw [abs_le]
      simp only [coordStep] at *
      constructor <;> linarith [h.1, h.2]
    · push_cast; simp only [coordStep]; ring
  · refine ⟨_, throughFile_y cast hv, ?_, 2711 - npAround ((151844 / 1000000 - v) / coordStep), ?_⟩
    · have h := npAround_bounds ((151844 / 1000000 - v) / coordStep)
      generalize npAround ((151844 / 1000000 - v) / coordStep) = n at h
      rw [abs_le]
      simp only [coordStep] at *
      constructor <;> linarith [h.1, h.2]
    · push_cast; simp only [coordStep]; ring

/-- C85, the part that holds for every image: no coordinate is missing, each is off by half a step of
the stored coordinates at most, and their order is never reversed. -/
theorem C85_partial (cast : Int → Int) (e : CoordEncoding) (he : e = xEncoding ∨ e = yEncoding) (l : List Rat)
    (hl : l.Pairwise (· ≤ ·)) (hv : ∀ v ∈ l, |v| ≤ 16 / 100) :
    ∃ m : List Rat, l.map (throughFile cast e) = m.map some ∧ m.Pairwise (· ≤ ·) ∧
      List.Forall₂ (fun v w => |w - v| ≤ 28 / 1000000) l m := by
  obtain ⟨g, hg, mono⟩ : ∃ g : Rat → Rat, (∀ v, |v| ≤ 16 / 100 → throughFile cast e v = some (g v)) ∧
      ∀ v w, v ≤ w → g v ≤ g w := by
    rcases he with rfl | rfl
    · refine ⟨_, fun v h => throughFile_x cast h, fun v w h => ?_⟩
      have : npAround ((v + 151844 / 1000000) / coordStep) ≤ npAround ((w + 151844 / 1000000) / coordStep) :=
        npAround_mono (by simp only [coordStep]; linarith)
      have h2 : ((npAround ((v + 151844 / 1000000) / coordStep) : Int) : Rat) ≤
        (npAround ((w + 151844 / 1000000) / coordStep) : Int) := by exact_mod_cast this
      have h3 := mul_le_mul_of_nonneg_right h2 (by norm_num [coordStep] : (0 : Rat) ≤ coordStep)
      linarith
    · refine ⟨_, fun v h => throughFile_y cast h, fun v w h => ?_⟩
      have : npAround ((151844 / 1000000 - w) / coordStep) ≤ npAround ((151844 / 1000000 - v) / coordStep) :=
        npAround_mono (by simp only [coordStep]; linarith)
      have h2 : ((npAround ((151844 / 1000000 - w) / coordStep) : Int) : Rat) ≤
        (npAround ((151844 / 1000000 - v) / coordStep) : Int) := by exact_mod_cast this
      have h3 := mul_le_mul_of_nonneg_right h2 (by norm_num [coordStep] : (0 : Rat) ≤ coordStep)
      linarith
  refine ⟨l.map g, ?_, ?_, ?_⟩
  · rw [List.map_map]
    exact List.map_congr_left fun v h => hg v (hv v h)
  · rw [List.pairwise_map]
    exact hl.imp fun h => mono _ _ h
  · rw [List.forall₂_map_right_iff, List.forall₂_same]
    intro v h
    obtain ⟨w, h1, h2, -⟩ := throughFile_near cast e he (hv v h)
    rw [hg v (hv v h)] at h1
    cases h1
    simp only [coordStep] at h2
    linarith

/-- C85 for coarse grids: with more than 56 microradian between neighbours all coordinates stay
different. -/
theorem C85_coarse (cast : Int → Int) (e : CoordEncoding) (he : e = xEncoding ∨ e = yEncoding) (l : List Rat)
    (hl : l.Pairwise fun v w => v + 56 / 1000000 < w) (hv : ∀ v ∈ l, |v| ≤ 16 / 100) :
    ∃ m : List Rat, l.map (throughFile cast e) = m.map some ∧ m.Pairwise (· < ·) := by
  obtain ⟨m, h1, h2, h3⟩ := C85_partial cast e he l (hl.imp fun h => by linarith) hv
  refine ⟨m, h1, ?_⟩
  rw [List.pairwise_iff_getElem] at hl ⊢
  intro i j hi hj hij
  have li : i < l.length := by rw [h3.length_eq]; exact hi
  have lj : j < l.length := by rw [h3.length_eq]; exact hj
  have a := abs_le.mp ((List.forall₂_iff_get.mp h3).2 i li hi)
  have b := abs_le.mp ((List.forall₂_iff_get.mp h3).2 j lj hj)
  have c := hl i j li lj hij
  simp only [List.get_eq_getElem] at a b
  linarith [a.2, b.1]

/-- The hypotheses are met by a grid with 3 km spacing. -/
example : ∃ m : List Rat, [-84 / 1000000, 0, 84 / 1000000, 168 / 1000000].map (throughFile id xEncoding) =
    m.map some ∧ m.Pairwise (· < ·) :=
  C85_coarse id xEncoding (Or.inl rfl) _ (by norm_num) (by intro v hv; fin_cases hv <;> norm_num [abs_le])

/-- C85 for the grid of the imager: coordinates at odd multiples of 28 microradian are read back as
they are. -/
theorem C85_exact (cast : Int → Int) (e : CoordEncoding) (he : e = xEncoding ∨ e = yEncoding) (v : Rat)
    (hv : |v| ≤ 16 / 100) :
    throughFile cast e v = some v ↔ ∃ k : Int, v = (2 * k + 1) * (28 / 1000000) := by
  obtain ⟨w, h1, h2, k, h3⟩ := throughFile_near cast e he hv
  constructor
  · intro h
    rw [h] at h1
    cases h1
    exact ⟨k, by rw [h3]; simp only [coordStep]; ring⟩
  · rintro ⟨j, hj⟩
    rw [h1]
    have : k = j := by
      rw [h3, hj] at h2
      obtain ⟨a, b⟩ := abs_le.mp h2
      simp only [coordStep] at a b
      have a' : (-1 : Rat) < (k - j : Int) := by push_cast; linarith
      have b' : ((k - j : Int) : Rat) < 1 := by push_cast; linarith
      have a'' : -1 < k - j := by exact_mod_cast a'
      have b'' : k - j < 1 := by exact_mod_cast b'
      omega
    rw [h3, hj, this]
    congr 1
    simp only [coordStep]
    ring

/-- What happens to finer grids: as soon as the grid is long enough, neighbours get the same coordinate.
With the spacing of 1 km (28 microradian), five cells are enough. -/
theorem C85_fine (cast : Int → Int) (e : CoordEncoding) (he : e = xEncoding ∨ e = yEncoding) (lo d : Rat) (n : Nat)
    (hd : 0 < d) (hn : 2 * coordStep ≤ n * (coordStep - d)) (hv : ∀ i ≤ n, |lo + i * d| ≤ 16 / 100) :
    ∃ i < n, throughFile cast e (lo + i * d) = throughFile cast e (lo + (i + 1) * d) := by
  by_contra hc
  push Not at hc
  have key : ∀ i ≤ n, ∃ w0 w, throughFile cast e lo = some w0 ∧ throughFile cast e (lo + i * d) = some w ∧
      w0 + i * coordStep ≤ w := by
    intro i hi
    induction i with
    | zero =>
      obtain ⟨w, h1, -, -⟩ := throughFile_near cast e he (hv 0 (by omega))
      have : lo + ((0 : Nat) : Rat) * d = lo := by push_cast; ring
      rw [this] at h1
      refine ⟨w, w, h1, ?_, ?_⟩
      · rw [this]; exact h1
      · push_cast; linarith
    | succ i ih =>
      obtain ⟨w0, w, a1, a2, a3⟩ := ih (by omega)
      obtain ⟨w', b1, -, k', b2⟩ := throughFile_near cast e he (hv (i + 1) hi)
      obtain ⟨w'', c1, -, k, c2⟩ := throughFile_near cast e he (hv i (by omega))
      rw [a2] at c1
      cases c1
      refine ⟨w0, w', a1, b1, ?_⟩
      have h1 := hc i (by omega)
      have h2 : lo + ((i + 1 : Nat) : Rat) * d = lo + (i + 1) * d := by push_cast; ring
      rw [h2] at b1
      rw [a2, b1] at h1
      have hne : k ≠ k' := by
        rintro rfl
        exact h1 (by rw [b2, c2])
      have hle : w ≤ w' := by
        obtain ⟨m, m1, m2, -⟩ := C85_partial cast e he [lo + i * d, lo + (i + 1) * d]
          (by simp; linarith) (by
            intro v hvm
            simp only [List.mem_cons, List.not_mem_nil, or_false] at hvm
            rcases hvm with rfl | rfl
            · exact hv i (by omega)
            · rw [← h2]; exact hv (i + 1) hi)
        simp only [List.map_cons, List.map_nil, a2, b1] at m1
        match m, m1, m2 with
        | [p, q], m1, m2 =>
          simp at m1 m2
          rw [m1.1, m1.2]
          exact m2
      have hk : k + 1 ≤ k' := by
        by_contra hcc
        have h3 : k' + 1 ≤ k := by omega
        have h4 : ((k' : Int) : Rat) + 1 ≤ k := by exact_mod_cast h3
        rw [b2, c2] at hle
        simp only [coordStep] at hle
        linarith
      have hk' : (k : Rat) + 1 ≤ k' := by exact_mod_cast hk
      have hw : w + coordStep ≤ w' := by
        rw [b2, c2]
        simp only [coordStep]
        linarith
      push_cast
      linarith
  obtain ⟨w0, w, a1, a2, a3⟩ := key n le_rfl
  obtain ⟨w0', b1, b2, -⟩ := throughFile_near cast e he (hv 0 (by omega))
  obtain ⟨w', c1, c2, -⟩ := throughFile_near cast e he (hv n le_rfl)
  rw [show lo + ((0 : Nat) : Rat) * d = lo by push_cast; ring] at b1 b2
  rw [a1] at b1
  rw [a2] at c1
  cases b1
  cases c1
  have p := (abs_le.mp b2).1
  have q := (abs_le.mp c2).2
  simp only [coordStep] at *
  linarith

example : ∃ i < 4, throughFile id yEncoding (1 / 10 + (i : Nat) * (28 / 1000000)) =
    throughFile id yEncoding (1 / 10 + ((i : Nat) + 1) * (28 / 1000000)) :=
  C85_fine id yEncoding (Or.inr rfl) (1 / 10) (28 / 1000000) 4 (by norm_num) (by norm_num [coordStep])
    (by intro i hi; interval_cases i <;> norm_num [abs_le])

/-- On the step itself, but half a step off the grid of the imager, coordinates coincide as well: of
three neighbours two are read as equal, although 56 microradian apart. -/
theorem C85_half (cast : Int → Int) (k : Int) (hv : ∀ i : Nat, i ≤ 2 → |((k + i : Rat)) * coordStep| ≤ 16 / 100) :
    ∃ i : Nat, i < 2 ∧ throughFile cast xEncoding ((k + i : Rat) * coordStep) =
      throughFile cast xEncoding ((k + (i + 1) : Rat) * coordStep) := by
  have e : ∀ n : Int, npAround ((n * coordStep + 151844 / 1000000) / coordStep) =
      if n % 2 = 0 then n + 2712 else n + 2711 := by
    intro n
    have : ((n : Rat) * coordStep + 151844 / 1000000) / coordStep = (n + 2711 : Int) + 1 / 2 := by
      simp only [coordStep]; push_cast; ring
    rw [this]
    have hf : ⌊((n + 2711 : Int) : Rat) + 1 / 2⌋ = n + 2711 := by
      rw [Int.floor_intCast_add]
      norm_num
    unfold npAround
    simp only [hf]
    rw [if_neg (by linarith), if_neg (by linarith)]
    split_ifs <;> omega
  rcases (Int.emod_two_eq_zero_or_one k).symm with hk | hk
  · refine ⟨1, by omega, ?_⟩
    have h1 := hv 1 (by omega)
    have h2 := hv 2 (by omega)
    push_cast at h1 h2 ⊢
    rw [show (k : Rat) + (1 + 1) = k + 2 by ring]
    rw [throughFile_x cast h1, throughFile_x cast h2]
    have a := e (k + 1)
    have b := e (k + 2)
    push_cast at a b
    rw [a, b, if_pos (by omega), if_neg (by omega)]
    push_cast
    congr 1
    ring
  · refine ⟨0, by omega, ?_⟩
    have h1 := hv 0 (by omega)
    have h2 := hv 1 (by omega)
    push_cast at h1 h2 ⊢
    rw [zero_add]
    rw [throughFile_x cast h1, throughFile_x cast h2]
    have a := e k
    have b := e (k + 1)
    push_cast at a b
    rw [add_zero, a, b, if_pos (by omega), if_neg (by omega)]
    push_cast
    congr 1
    ring

example : throughFile id xEncoding 0 = throughFile id xEncoding (56 / 1000000) := by decide +kernel

/-- C85 is violated: a grid with 1 km spacing (28 microradian, one of the resolutions of the command line
program). -/
theorem C85_full_false : ¬ C85_full := by
  intro h
  obtain ⟨⟨m, h1, h2⟩, -⟩ := h id [14 / 1000000, 42 / 1000000, 70 / 1000000]
    (by norm_num) (by intro v hv; fin_cases hv <;> norm_num [abs_le])
  have e : throughFile id xEncoding (14 / 1000000) = throughFile id xEncoding (42 / 1000000) := by
    decide +kernel
  rw [List.map_cons, List.map_cons, e] at h1
  rcases m with _ | ⟨a, _ | ⟨b, m⟩⟩
  · cases h1
  · simp at h1
  · obtain ⟨p, q⟩ := List.cons.inj (h1.trans (show _ = some a :: some b :: m.map some from rfl))
    have : a = b := Option.some.inj (p.symm.trans (List.cons.inj q).1)
    simp [this] at h2

/-- The coordinates of the files written by `write_goes_imagery` for a grid whose cells are those of the
imager (edges at multiples of 56 microradian) are read back as they were. -/
theorem C85_image (cast : Int → Int) (s : ImageSetup) (pad : Option (PySlice × PySlice)) (sc : Bool) (g g' : Grids)
    (files : List ImageFile) (h : writeImagery s pad sc g = .ok (files, g')) (f : ImageFile) (hf : f ∈ files)
    (i0 j0 : Int) (nx ny : Nat)
    (hx : s.xedge = (List.range (nx + 1)).map fun k : Nat => ((i0 + k : Int) : Rat) * (56 / 1000000))
    (hy : s.yedge = (List.range (ny + 1)).map fun k : Nat => ((j0 + k : Int) : Rat) * (56 / 1000000))
    (hvx : ∀ e ∈ s.xedge, |e| ≤ 16 / 100) (hvy : ∀ e ∈ s.yedge, |e| ≤ 16 / 100) :
    readCoords cast f = (f.x.map some, f.y.map some) := by
  obtain ⟨k, hk, he⟩ := List.getElem_of_mem hf
  obtain ⟨-, -, -, -, h5⟩ := writeImagery_ok h
  obtain ⟨-, -, -, b3, b4, -⟩ := h5 k f (by rw [List.getElem?_eq_getElem hk, he])
  have key : ∀ (i0 : Int) (n : Nat) (edges : List Rat) (e : CoordEncoding), e = xEncoding ∨ e = yEncoding →
      edges = (List.range (n + 1)).map (fun k : Nat => ((i0 + k : Int) : Rat) * (56 / 1000000)) →
      (∀ v ∈ edges, |v| ≤ 16 / 100) → ∀ v ∈ cellCentres edges, throughFile cast e v = some v := by
    intro i0 n edges e hen hed hv v hm
    obtain ⟨i, hi, rfl⟩ := List.getElem_of_mem hm
    rw [cellCentres_length] at hi
    have l : edges.length = n + 1 := by rw [hed]; simp
    have e1 : edges[i]'(by omega) = ((i0 + i : Int) : Rat) * (56 / 1000000) := by simp [hed]
    have e2 : edges[i + 1]'(by omega) = ((i0 + (i + 1 : Nat) : Int) : Rat) * (56 / 1000000) := by simp [hed]
    have ev : (cellCentres edges)[i]'(by rw [cellCentres_length]; omega) =
        (edges[i]'(by omega) + edges[i + 1]'(by omega)) / 2 := by
      simp only [cellCentres, List.getElem_zipWith, List.getElem_dropLast, List.getElem_tail]
    have a := abs_le.mp (hv _ (List.getElem_mem (show i < edges.length by omega)))
    have b := abs_le.mp (hv _ (List.getElem_mem (show i + 1 < edges.length by omega)))
    rw [C85_exact cast e hen]
    · refine ⟨i0 + i, ?_⟩
      rw [ev, e1, e2]
      push_cast
      ring
    · rw [ev, abs_le]
      constructor <;> linarith [a.1, a.2, b.1, b.2]
  have hsub : ∀ (sl : PySlice) (l : List Rat) (v : Rat), v ∈ sl.apply l → v ∈ l := by
    intro sl l v hm
    unfold PySlice.apply at hm
    exact List.mem_of_mem_drop (List.mem_of_mem_take hm)
  unfold readCoords
  refine Prod.ext ?_ ?_
  · apply List.map_congr_left
    intro v hm
    rw [b3] at hm
    exact key i0 nx s.xedge xEncoding (Or.inl rfl) hx hvx v (hsub _ _ _ hm)
  · apply List.map_congr_left
    intro v hm
    rw [b4, List.mem_reverse] at hm
    exact key j0 ny s.yedge yEncoding (Or.inr rfl) hy hvy v (hsub _ _ _ hm)

/-- Two images of three by two cells around the subsatellite point, in the steps of the imager. -/
def imagerSetup : ImageSetup :=
  { indexSetup with
    xedge := [-112 / 1000000, -56 / 1000000, 0, 56 / 1000000]
    yedge := [0, 56 / 1000000, 112 / 1000000] }

example : (writeImagery imagerSetup none false indexGrids).toOption.map (fun o => o.1.map (readCoords id)) =
    some (List.replicate 2 ([some (-84 / 1000000), some (-28 / 1000000), some (28 / 1000000)],
      [some (84 / 1000000), some (28 / 1000000)])) := by decide +kernel

/-- The hypotheses are met by these images. -/
example (files : List ImageFile) (g' : Grids) (h : writeImagery imagerSetup none false indexGrids = .ok (files, g'))
    (f : ImageFile) (hf : f ∈ files) : readCoords id f = (f.x.map some, f.y.map some) :=
  C85_image id imagerSetup none false indexGrids g' files h f hf (-2) 0 3 2 (by decide +kernel)
    (by decide +kernel) (by intro v hv; fin_cases hv <;> norm_num [abs_le])
    (by intro v hv; fin_cases hv <;> norm_num [abs_le])

end Verif.Props
