import Verif.Model.SampleEnergyFl
import Verif.Props.SampleEnergy
import Verif.Props.SessionFlCases
import Verif.Props.OpenOptions

/-!
# C133 in floating point: the energy of files and of their image
-/

namespace Verif.Props

open Verif.Py Verif.Model Verif.Spec Verif.Proofs

/-- The relative error of the energy of `n` files that are read one after another. -/
def filesError (n : Nat) : Rat := (1 + 1 / 2 ^ 26) * (1 + 1 / 2 ^ 53) ^ n - 1

/-- A file whose energies are double precision numbers, and not too many. -/
structure DoubleEnergies (d : GFile) : Prop where
  energy : ∀ e ∈ d.events, IsDouble e.val.energy ∧ 0 ≤ e.val.energy
  size : d.events.length ≤ 2 ^ 26

/-- One step of the sum. -/
theorem energy_step {v u s s' K : Rat} (hu : 0 ≤ u) (hs : 0 ≤ s) (hK : 1 + 1 / 2 ^ 26 ≤ K)
    (hv : |v - u| ≤ (K - 1) * u) (hs' : |s' - s| ≤ 1 / 2 ^ 26 * s) :
    |double (v + s') - (u + s)| ≤ (K * (1 + 1 / 2 ^ 53) - 1) * (u + s) := by
  have h1 := double_near (v + s')
  have hb : |v + s'| ≤ K * (u + s) := by
    have a1 := abs_le.mp hv
    have a2 := abs_le.mp hs'
    have a3 : 1 / 2 ^ 26 * s ≤ (K - 1) * s := mul_le_mul_of_nonneg_right (by linarith) hs
    rw [abs_le]
    constructor <;> nlinarith
  have h2 : |double (v + s') - (v + s')| ≤ 1 / 2 ^ 53 * (K * (u + s)) :=
    h1.trans (mul_le_mul_of_nonneg_left hb (by norm_num))
  have a3 : 1 / 2 ^ 26 * s ≤ (K - 1) * s := mul_le_mul_of_nonneg_right (by linarith) hs
  have h3 : |double (v + s') - (u + s)| ≤ |double (v + s') - (v + s')| + (|v - u| + |s' - s|) := by
    have e : double (v + s') - (u + s) = (double (v + s') - (v + s')) + ((v - u) + (s' - s)) := by ring
    rw [e]
    exact (abs_add_le _ _).trans (by gcongr; exact abs_add_le _ _)
  refine h3.trans ?_
  have e : (K * (1 + 1 / 2 ^ 53) - 1) * (u + s) = 1 / 2 ^ 53 * (K * (u + s)) + ((K - 1) * u + (K - 1) * s) := by ring
  rw [e]
  exact add_le_add h2 (add_le_add hv (hs'.trans a3))

theorem regionEnergy_nonneg (nav : Rat → Rat → Rat × Rat) (lon lat : Rat × Rat) {d : GFile} (h : DoubleEnergies d) :
    0 ≤ regionEnergy nav lon lat d := by
  classical
  unfold regionEnergy
  apply List.sum_nonneg
  intro v hv
  obtain ⟨e, he, rfl⟩ := List.mem_map.mp hv
  exact (h.energy e (List.mem_filter.mp he).1).2

/-- C133 in floating point: what `total_energy_in_L2` returns is the energy of the events of the flashes in the region, up to the
roundings of its sums. -/
theorem C133_rounded_partial {A : Arith} (hA : NumpyLike A) (order : List Int → List Int) (nav : Rat → Rat → Rat × Rat)
    (lon lat : Rat × Rat) (files : List GFile) (ho : ∀ l, (order l).Perm l) (h : ∀ d ∈ files, GoodFile d)
    (hd : ∀ d ∈ files, DoubleEnergies d) :
    ∃ energy, totalEnergyInL2Fl A order nav lon lat files = .ok energy ∧
      |energy - (files.map (regionEnergy nav lon lat)).sum| ≤
        filesError files.length * (files.map (regionEnergy nav lon lat)).sum := by
  classical
  have key : ∀ (files : List GFile) (v u : Rat) (n : Nat), (∀ d ∈ files, GoodFile d) → (∀ d ∈ files, DoubleEnergies d) →
      0 ≤ u → |v - u| ≤ filesError n * u → ∃ energy, files.foldlM (fun energy sf => do
        let glm ← openDataset order nav true true sf
        let flashesSubset ← subsetFlashes order glm { lon := some lon, lat := some lat } true
        pure (A.fl (energy + A.sum (flashesSubset.events.map fun e => e.val.energy)))) v = (.ok energy : Except Err Rat) ∧
      |energy - (u + (files.map (regionEnergy nav lon lat)).sum)| ≤
        filesError (n + files.length) * (u + (files.map (regionEnergy nav lon lat)).sum) := by
    intro files
    induction files with
    | nil =>
      intro v u n _ _ _ hv
      refine ⟨v, rfl, ?_⟩
      simpa using hv
    | cons d files ih =>
      intro v u n hf hdd hu hv
      have hdf := hdd d List.mem_cons_self
      obtain ⟨d', o1, o2, o3, o4, o5, o6⟩ := opened_region (order := order) nav lon lat (hf d List.mem_cons_self)
      obtain ⟨w, w1, w2⟩ := subset_energy ho (c := { lon := some lon, lat := some lat })
        (by unfold NoCriteria; simp) o2 o3 o4 o5
      -- the events of the selected flashes are events of the file
      have hsub : ∀ e ∈ w.events, ∃ f ∈ d.events, f.val.energy = e.val.energy := by
        intro e he
        obtain ⟨w', e1, e2, e3, e4⟩ := C13_subset_flashes ho { lon := some lon, lat := some lat } o2 o3 o4 o5
        rw [w1] at e1
        cases e1
        have hm : e ∈ d'.events := (List.mem_filter.mp (e4.mem_iff.mp he)).1
        obtain ⟨f, hf', hs⟩ := (openDataset_from o1).2.2 e hm
        exact ⟨f, hf', hs.energy⟩
      have hlen : w.events.length ≤ 2 ^ 26 := by
        obtain ⟨w', e1, e2, e3, e4⟩ := C13_subset_flashes ho { lon := some lon, lat := some lat } o2 o3 o4 o5
        rw [w1] at e1
        cases e1
        obtain ⟨c1, c2, -, -, c4, -⟩ := C12_derived_variables order nav true (hf d List.mem_cons_self).data
          (hf d List.mem_cons_self).consistent (hf d List.mem_cons_self).groups
        rw [o1] at c2
        cases c2
        rw [e4.length_eq]
        refine (List.length_filter_le _ _).trans ?_
        rw [← c4.length_eq]
        exact hdf.size
      have hdbl : ∀ x ∈ w.events.map fun e => e.val.energy, IsDouble x ∧ 0 ≤ x := by
        intro x hx
        obtain ⟨e, he, rfl⟩ := List.mem_map.mp hx
        obtain ⟨f, hf', hs⟩ := hsub e he
        show IsDouble e.val.energy ∧ 0 ≤ e.val.energy
        rw [← hs]
        exact hdf.energy f hf'
      have hsum := addsUp_good (hA.sum _ fun x hx => (hdbl x hx).1) (by rw [List.length_map]; exact hlen)
      rw [sum_abs_self fun x hx => (hdbl x hx).2, w2, o6] at hsum
      have hK : (1 + 1 / 2 ^ 26 : Rat) ≤ (1 + 1 / 2 ^ 26) * (1 + 1 / 2 ^ 53) ^ n :=
        le_mul_of_one_le_right (by norm_num) (one_le_pow₀ (by norm_num))
      have hstep := energy_step (K := (1 + 1 / 2 ^ 26) * (1 + 1 / 2 ^ 53) ^ n) hu
        (regionEnergy_nonneg nav lon lat hdf) hK hv hsum
      obtain ⟨energy, g1, g2⟩ := ih (A.fl (v + A.sum (w.events.map fun e => e.val.energy))) (u + regionEnergy nav lon lat d)
        (n + 1) (fun d hd => hf d (List.mem_cons_of_mem _ hd)) (fun d hd => hdd d (List.mem_cons_of_mem _ hd))
        (add_nonneg hu (regionEnergy_nonneg nav lon lat hdf)) (by
          rw [hA.fl]
          unfold filesError
          rw [pow_succ (1 + 1 / 2 ^ 53 : Rat) n, ← mul_assoc]
          exact hstep)
      refine ⟨energy, ?_, ?_⟩
      · rw [List.foldlM_cons]
        simp only [o1, w1, bind, Except.bind, pure, Except.pure]
        simpa only [bind, Except.bind, pure, Except.pure] using g1
      · rw [List.map_cons, List.sum_cons, List.length_cons, ← add_assoc, show n + (files.length + 1) = n + 1 + files.length by omega]
        exact g2
  obtain ⟨energy, h1, h2⟩ := key files 0 0 0 h hd le_rfl (by simp)
  refine ⟨energy, h1, ?_⟩
  simpa using h2

/-- Criteria that select the same flashes of the opened files select the same energy. -/
theorem asked_region_energy {order : List Int → List Int} {nav : Rat → Rat → Rat × Rat} {lon lat : Rat × Rat} {c : Criteria}
    {files opened : List (Int × GFile)}
    (hopen : List.Forall₂ (fun f d => f.1 = d.1 ∧ openDataset order nav true true f.2 = .ok d.2) files opened)
    (hf : ∀ f ∈ files, GoodFile f.2)
    (hsame : ∀ d ∈ opened, ∀ f, f ∈ askedFor d.2 c ↔ f ∈ askedFor d.2 { lon := some lon, lat := some lat }) :
    askedEnergy c opened = ((files.map Prod.snd).map (regionEnergy nav lon lat)).sum := by
  classical
  rw [List.map_map]
  unfold askedEnergy
  induction hopen with
  | nil => rfl
  | @cons f d l m hfd _ ih =>
    rw [List.map_cons, List.map_cons, List.sum_cons, List.sum_cons,
      ih (fun f hf' => hf f (List.mem_cons_of_mem _ hf')) (fun d hd => hsame d (List.mem_cons_of_mem _ hd))]
    congr 1
    obtain ⟨d', o1, -, -, -, -, o6⟩ := opened_region (order := order) nav lon lat (hf f List.mem_cons_self)
    have hd' : d' = d.2 := Except.ok.inj (o1.symm.trans hfd.2)
    rw [hd'] at o6
    rw [Function.comp_apply, ← o6]
    unfold askedEvents
    congr 2
    apply List.filter_congr
    intro e _
    rw [decide_eq_decide]
    constructor
    · rintro ⟨f, hf, he⟩
      exact ⟨f, (hsame d List.mem_cons_self f).mp hf, he⟩
    · rintro ⟨f, hf, he⟩
      exact ⟨f, (hsame d List.mem_cons_self f).mpr hf, he⟩

/-- **C133** in floating point: the comparison of the sample tests.  The sum of the image and what `total_energy_in_L2` returns
differ by a part of the energy that does not depend on the energies. -/
theorem C133_image_rounded_partial {A : Arith} (hA : NumpyLike A) {n : Nat} {R k S : Rat} (hn : n ≤ 1000000) (hk : k ≤ 1 / 100)
    (query : List Pt → Pt → Nat → List Nat) {iclip : IPoly → IPoly → List IPoly}
    {τ : Nat → Rat → Rat} (hτ : ClipsWithin iclip τ) (τ0 : ∀ n ℓ, 0 ≤ ℓ → 0 ≤ τ n ℓ)
    (hne : ∀ p q s, s ∈ iclip p q → s ≠ []) {m : Nat} (hm : ∀ p q, (iclip p q).length ≤ m) {ε : Rat} (hε0 : 0 ≤ ε)
    (hε : ε < 1)
    {foot : Pt → Poly} {x y : List Rat} {dx dy : Rat} (basedate : Int) (hx : AxisOk x) (hy : AxisOk y)
    (hsz : 2 < x.length ∨ 2 < y.length) (ux : Spaced x dx) (uy : Spaced y dy) (hdx : 2 / clipperScale ≤ dx)
    (hdy : 2 / clipperScale ≤ dy)
    (hcell : ∀ i j, i + 1 < y.length → j + 1 < x.length → ShareOk n R k (cellRect x y i j))
    (loc : Rat → Rat → Int) {order : List Int → List Int} (ho : ∀ l, (order l).Perm l) (c : Criteria) {size : Nat}
    (hs : 0 < size) (nav : Rat → Rat → Rat × Rat) (lon lat : Rat × Rat) (files opened : List (Int × GFile))
    (hopen : List.Forall₂ (fun f d => f.1 = d.1 ∧ openDataset order nav true true f.2 = .ok d.2) files opened)
    (hgood : ∀ f ∈ files, GoodFile f.2) (hdouble : ∀ f ∈ files, DoubleEnergies f.2)
    (hf : ∀ d ∈ opened, d.2.events ≠ [] → FileFl iclip τ n m R k ε S foot x y dx dy d.2)
    (hsame : ∀ d ∈ opened, ∀ f, f ∈ askedFor d.2 c ↔ f ∈ askedFor d.2 { lon := some lon, lat := some lat })
    (points : Grid → List LmaParent → Grid) (label : String) (par : String → List LmaEvent → List LmaParent) :
    ∃ sent outgrids grids te energy,
      readFilesFl A (scaledClip iclip) query (fun pts => pts.map foot) (gridMesh x y) basedate loc order c size
        opened = .ok sent ∧
      lutPipelineSetup = .ok outgrids ∧
      gridFrameFl A points (x.length - 1) (y.length - 1) outgrids (fun k => sent.map fun evs => (evs, par k evs)) =
        .ok grids ∧
      gridNamed label grids "total_energy" = some te ∧
      totalEnergyInL2Fl A order nav lon lat (files.map Prod.snd) = .ok energy ∧
      |gridTotal x y te - energy| ≤
        ((1 + chunkError m k ε) * (1 + 1 / 2 ^ 24) ^ (chunkCount size opened + 1) - 1 + filesError files.length) *
          (files.map fun f => regionEnergy nav lon lat f.2).sum := by
  obtain ⟨sent, outgrids, grids, te, a1, a2, a3, a4, a5⟩ := C128_energy hA hn hk query hτ τ0 hne hm hε0 hε basedate hx hy
    hsz ux uy hdx hdy hcell loc ho c hs opened hf points label par
  obtain ⟨energy, b1, b2⟩ := C133_rounded_partial hA order nav lon lat (files.map Prod.snd) ho
    (by intro d hd; obtain ⟨f, hf', rfl⟩ := List.mem_map.mp hd; exact hgood f hf')
    (by intro d hd; obtain ⟨f, hf', rfl⟩ := List.mem_map.mp hd; exact hdouble f hf')
  refine ⟨sent, outgrids, grids, te, energy, a1, a2, a3, a4, b1, ?_⟩
  rw [asked_region_energy hopen hgood hsame] at a5
  rw [List.map_map, List.length_map] at b2
  rw [List.map_map] at a5
  rw [add_mul]
  have e : gridTotal x y te - energy = (gridTotal x y te - (files.map (regionEnergy nav lon lat ∘ Prod.snd)).sum) -
      (energy - (files.map (regionEnergy nav lon lat ∘ Prod.snd)).sum) := by ring
  rw [e]
  exact (abs_sub _ _).trans (add_le_add a5 b2)

/-! ### Examples -/

/-- Radians that are a part of the degrees. -/
def halfNav (lon lat : Rat) : Rat × Rat := (lon / 1024, lat / 1024)

/-- The file with two flashes, opened. -/
def halfOpen : GFile :=
  match openDataset id halfNav true true regionFile with
  | .ok d => d
  | .error _ => regionFile

/-- Wide cells around the origin. -/
def wideAxis : List Rat := [-3, -2, -1, 0, 1, 2, 3]

theorem wide_axis : AxisOk wideAxis ∧ Spaced wideAxis 1 := by
  have ax : AxisOk wideAxis := by
    unfold AxisOk Increasing wideAxis
    exact ⟨by decide +kernel, by decide⟩
  have u : Uniform wideAxis 1 := by
    unfold Uniform wideAxis
    decide +kernel
  exact ⟨ax, u.spaced ax⟩

theorem wide_foot {p : Pt} (h1 : |p.1| ≤ 1) (h2 : |p.2| ≤ 1) : ConvexFoot wideAxis wideAxis 1 1 (slanted p) := by
  rw [abs_le] at h1 h2
  refine ⟨slanted_convex p, by rw [slanted_area]; norm_num, ?_, ?_⟩
  · intro v hv
    have e1 : wideAxis.getD 0 0 = -3 := rfl
    have e2 : wideAxis.getD (wideAxis.length - 1) 0 = 3 := rfl
    rw [e1, e2]
    unfold slanted at hv
    simp only [List.mem_cons, List.not_mem_nil, or_false] at hv
    rcases hv with rfl | rfl | rfl | rfl <;> simp only <;>
      exact ⟨by linarith, by linarith, by linarith, by linarith⟩
  · intro v hv
    unfold slanted at *
    simp only [List.mem_cons, List.not_mem_nil, or_false] at hv
    simp only [List.map_cons, List.map_nil, List.sum_cons, List.sum_nil, List.length_cons, List.length_nil]
    push_cast
    rcases hv with rfl | rfl | rfl | rfl <;> simp only [abs_le] <;>
      exact ⟨⟨by linarith, by linarith⟩, ⟨by linarith, by linarith⟩⟩

theorem wide_room {p : Pt} (h1 : |p.1| ≤ 1) (h2 : |p.2| ≤ 1) {δ : Rat} (hδ : δ ≤ 1 / 2) :
    RoomToSearch δ wideAxis wideAxis 1 1 (slanted p) := by
  rw [abs_le] at h1 h2
  have e1 : wideAxis.getD 0 0 = -3 := rfl
  have e2 : wideAxis.getD (wideAxis.length - 1) 0 = 3 := rfl
  constructor
  all_goals rw [slanted_mean]
  · rw [e1]; linarith
  · rw [e2]; linarith
  · rw [e1]; linarith
  · rw [e2]; linarith
  · intro v hv
    unfold slanted at hv
    simp only [List.mem_cons, List.not_mem_nil, or_false] at hv
    rcases hv with rfl | rfl | rfl | rfl <;> simp only <;> constructor <;> ring_nf <;> norm_num <;> linarith

theorem wide_place {p : Pt} (h1 : |p.1| ≤ 1) (h2 : |p.2| ≤ 1) :
    PlaceFl roundClip (fun n ℓ => ℓ / 2 + 4 * n) 64 7 (1 / 10000000000) (1 / 10000000) slanted wideAxis wideAxis 1 1 p := by
  have hf := wide_foot h1 h2
  have hsmall : SmallPoly 4 6 (slanted p) := by
    rw [abs_le] at h1 h2
    refine ⟨by simp [slanted], by simp [slanted], ?_, ?_⟩ <;>
    · intro v hv
      unfold slanted at hv
      simp only [List.mem_cons, List.not_mem_nil, or_false] at hv
      rcases hv with rfl | rfl | rfl | rfl <;> rw [abs_le] <;> constructor <;> simp only <;> linarith
  refine ⟨⟨slanted_clear p, hf.area, hf.onGrid, hf.narrow, ?_⟩, ⟨⟨hsmall.ne, by have := hsmall.len; omega,
    fun v hv => (hsmall.x v hv).trans (by norm_num), fun v hv => (hsmall.y v hv).trans (by norm_num)⟩, hf.area, ?_⟩,
    ?_, room_stable wide_axis.1 wide_axis.1 wide_axis.2 wide_axis.2
      (wide_room h1 h2 (by unfold meanError ulp1; norm_num)) (by unfold meanError ulp1; norm_num)
      fun i j h => roundClip_beside h⟩
  · refine (roundClip_error _).trans ?_
    rw [slanted_outline, slanted_area]
    simp only [slanted, List.length_cons, List.length_nil]
    unfold clipperScale
    norm_num [abs_of_neg]
  · rw [slanted_area]
    unfold doubleAreaError
    norm_num [abs_of_neg]
  · intro i j _ _ s hs
    obtain ⟨a1, a2, a3, a4⟩ := roundClip_small hsmall s hs
    have : (6 : Rat) + 2 / clipperScale ≤ 7 := by unfold clipperScale; norm_num
    exact ⟨a1, a2, fun v hv => (a3 v hv).trans this, fun v hv => (a4 v hv).trans this⟩

theorem halfOpen_ok : FileFl roundClip (fun n ℓ => ℓ / 2 + 4 * n) 64 1 7 (1 / 10000000000) (1 / 10000000) 4 slanted
    wideAxis wideAxis 1 1 halfOpen := by
  refine ⟨by unfold HasData; decide +kernel, by decide +kernel,
    ⟨by decide +kernel, by decide +kernel, by decide +kernel, by decide +kernel⟩, by unfold UniqueIds; decide +kernel,
    by unfold UniqueIds; decide +kernel, ⟨?_, ?_, ?_, ?_, ?_⟩, by decide +kernel, ?_⟩
  · have h : ∀ e ∈ halfOpen.events, double e.val.x = e.val.x ∧ |e.val.x| ≤ 4 := by decide +kernel
    exact fun e he => ⟨isDouble_of_eq (h e he).1, (h e he).2⟩
  · have h : ∀ e ∈ halfOpen.events, double e.val.y = e.val.y ∧ |e.val.y| ≤ 4 := by decide +kernel
    exact fun e he => ⟨isDouble_of_eq (h e he).1, (h e he).2⟩
  · have h : ∀ e ∈ halfOpen.events, double e.val.energy = e.val.energy ∧ 0 ≤ e.val.energy := by decide +kernel
    exact fun e he => ⟨isDouble_of_eq (h e he).1, (h e he).2⟩
  · have h : ∀ e ∈ halfOpen.flashes, double e.val.area = e.val.area ∧ 0 ≤ e.val.area := by decide +kernel
    exact fun e he => ⟨isDouble_of_eq (h e he).1, (h e he).2⟩
  · have h : ∀ e ∈ halfOpen.groups, double e.val.area = e.val.area ∧ 0 ≤ e.val.area := by decide +kernel
    exact fun e he => ⟨isDouble_of_eq (h e he).1, (h e he).2⟩
  · refine ⟨-1/10, 1/10, -1/10, 1/10, by decide +kernel, ?_⟩
    intro p h1 h2 h3 h4
    norm_num at h1 h2 h3 h4
    exact wide_place (by rw [abs_le]; constructor <;> linarith) (by rw [abs_le]; constructor <;> linarith)

theorem wide_cells : ∀ i j, i + 1 < wideAxis.length → j + 1 < wideAxis.length →
    ShareOk 64 7 (1 / 10000000000) (cellRect wideAxis wideAxis i j) := by
  have h : ∀ i < 6, ∀ j < 6, ShareOk 64 7 (1 / 10000000000) (cellRect wideAxis wideAxis i j) := by decide +kernel
  have hx : wideAxis.length = 7 := rfl
  exact fun i j hi hj => h i (by omega) j (by omega)

theorem regionFile_double : DoubleEnergies regionFile := by
  refine ⟨?_, by decide⟩
  have h : ∀ e ∈ regionFile.events, double e.val.energy = e.val.energy ∧ 0 ≤ e.val.energy := by decide +kernel
  exact fun e he => ⟨isDouble_of_eq (h e he).1, (h e he).2⟩

/-- The hypotheses of `C133_image_rounded_partial` can be met: two files with an energy of 8 in the region each, and 4 outside
of it.  The comparison with a relative tolerance of one part in a million, as in the tests, succeeds. -/
example : ∃ sent outgrids grids te energy,
    readFilesFl leftArith (scaledClip roundClip) (fun _ _ _ => []) (fun pts => pts.map slanted)
      (gridMesh wideAxis wideAxis) 0 sampleLoc id { x := some (-1/1024, 1/1024), y := some (-1/1024, 1/1024) } 1
      [(7, halfOpen), (8, halfOpen)] = .ok sent ∧
    lutPipelineSetup = .ok outgrids ∧
    gridFrameFl leftArith (fun g _ => g) (wideAxis.length - 1) (wideAxis.length - 1) outgrids
      (fun _ => sent.map fun evs => (evs, [])) = .ok grids ∧
    gridNamed "" grids "total_energy" = some te ∧
    totalEnergyInL2Fl leftArith id halfNav (-1, 1) (-1, 1) [regionFile, regionFile] = .ok energy ∧
    |gridTotal wideAxis wideAxis te - energy| ≤ 16 / 1000000 := by
  classical
  obtain ⟨a1, a2⟩ := wide_axis
  have hopen : openDataset id halfNav true true regionFile = .ok halfOpen := by decide +kernel
  have hder : Derived halfOpen := ⟨by decide +kernel, by decide +kernel, by decide +kernel, by decide +kernel⟩
  have hg : UniqueIds halfOpen.groups := by unfold UniqueIds; decide +kernel
  have same : ∀ f, f ∈ askedFor halfOpen { x := some (-1/1024, 1/1024), y := some (-1/1024, 1/1024) } ↔
      f ∈ askedFor halfOpen { lon := some (-1, 1), lat := some (-1, 1) } := by
    intro f
    rw [asked_computed (by unfold NoCriteria; simp) hder hg, asked_computed (by unfold NoCriteria; simp) hder hg]
    refine and_congr_right fun hf => ?_
    revert hf f
    decide +kernel
  obtain ⟨sent, outgrids, grids, te, energy, h1, h2, h3, h4, h5, h6⟩ := C133_image_rounded_partial leftArith_ok (n := 64)
    (R := 7) (k := 1 / 10000000000) (S := 4) (by norm_num) (by norm_num) (fun _ _ _ => []) roundClip_within
    (fun n ℓ h => by positivity) roundClip_ne_nil roundClip_one (ε := 1 / 10000000) (by norm_num) (by norm_num)
    (foot := slanted) 0 a1 a1 (Or.inl (by decide)) a2 a2 (by unfold clipperScale; norm_num)
    (by unfold clipperScale; norm_num) wide_cells sampleLoc (fun l => List.Perm.refl (id l))
    { x := some (-1/1024, 1/1024), y := some (-1/1024, 1/1024) } (size := 1) (by norm_num) halfNav (-1, 1) (-1, 1)
    [(7, regionFile), (8, regionFile)] [(7, halfOpen), (8, halfOpen)]
    (.cons ⟨rfl, hopen⟩ (.cons ⟨rfl, hopen⟩ .nil))
    (by
      intro f hf
      simp only [List.mem_cons, List.not_mem_nil, or_false] at hf
      rcases hf with rfl | rfl <;> exact regionFile_good)
    (by
      intro f hf
      simp only [List.mem_cons, List.not_mem_nil, or_false] at hf
      rcases hf with rfl | rfl <;> exact regionFile_double)
    (by
      intro d hd _
      simp only [List.mem_cons, List.not_mem_nil, or_false] at hd
      rcases hd with rfl | rfl <;> exact halfOpen_ok)
    (by
      intro d hd
      simp only [List.mem_cons, List.not_mem_nil, or_false] at hd
      rcases hd with rfl | rfl <;> exact same)
    (fun g _ => g) "" (fun _ _ => [])
  refine ⟨sent, outgrids, grids, te, energy, h1, h2, h3, h4, h5, h6.trans ?_⟩
  have e2 : regionEnergy halfNav (-1, 1) (-1, 1) regionFile = 8 := by
    have c := C133_energy_partial id halfNav (-1, 1) (-1, 1) [regionFile] (fun l => List.Perm.refl (id l))
      (by intro d hd; rw [List.mem_singleton.mp hd]; exact regionFile_good)
    have c' : totalEnergyInL2 id halfNav (-1, 1) (-1, 1) [regionFile] = .ok 8 := by decide +kernel
    rw [c'] at c
    have := Except.ok.inj c
    simpa using this.symm
  have e3 : chunkCount 1 [(7, halfOpen), (8, halfOpen)] = 6 := by decide +kernel
  simp only [List.map_cons, List.map_nil, List.sum_cons, List.sum_nil, e2, e3]
  unfold chunkError filesError
  norm_num

end Verif.Props
