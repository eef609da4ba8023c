import Verif.Props.DarkPixels

/-!
# C140 and C162 for boxes, footprints and flashes of any size

The images of some files and the images of other files add up to the images of all of them, whatever the sizes and positions of
boxes, tiles, footprints and flashes.
-/

namespace Verif.Props

open Verif.Py Verif.Model Verif.Spec Verif.Proofs

section
variable {clip : Poly → Poly → List Poly} {foot : Pt → Poly} {me mg : Option Int} {fl flB flC : List FlashOf}
  {dx dy X Y fed fa te ged ga mfa fedB faB teB gedB gaB mfaB fedC faC teC gedC gaC mfaC : Rat}

/-- What a pixel holds of lightning is what it holds of two parts of it. -/
theorem lightning_append (h : LightningHolds clip foot me mg fl dx dy X Y fed fa te ged ga mfa)
    (hB : LightningHolds clip foot me mg flB dx dy X Y fedB faB teB gedB gaB mfaB)
    (hC : LightningHolds clip foot me mg flC dx dy X Y fedC faC teC gedC gaC mfaC) (hall : flC.Perm (fl ++ flB))
    (hpos : ∀ F ∈ flC, 0 < F.area) :
    fedC = fed + fedB ∧ faC = fa + faB ∧ teC = te + teB ∧ gedC = ged + gedB ∧ gaC = ga + gaB ∧ mfaC = leastOf mfa mfaB ∧
    0 ≤ mfa ∧ 0 ≤ mfaB := by
  classical
  have hc : (counted me mg flC).Perm (counted me mg fl ++ counted me mg flB) := by
    unfold counted
    rw [← List.filter_append]
    exact hall.filter _
  have sums : ∀ w : FlashOf → Rat, ((counted me mg flC).map w).sum =
      ((counted me mg fl).map w).sum + ((counted me mg flB).map w).sum := by
    intro w
    rw [(hc.map w).sum_eq, List.map_append, List.sum_append]
  have areas : ∀ l : List FlashOf, (∀ F ∈ l, F ∈ flC) → ∀ u ∈ ((counted me mg l).filter fun F =>
      ∃ p ∈ F.places, clip (foot p) (pixelAt dx dy X Y) ≠ []).map fun F => F.area, 0 < u := by
    intro l hl u hu
    obtain ⟨F, hF, rfl⟩ := List.mem_map.mp hu
    exact hpos F (hl F (List.mem_filter.mp (List.mem_filter.mp hF).1).1)
  have nonneg : ∀ {l : List Rat} {v : Rat}, LeastOrZero l v → (∀ u ∈ l, 0 < u) → 0 ≤ v := by
    intro l v hv hl
    by_cases h0 : l = []
    · rw [hv.1 h0]
    · exact (hl v (hv.2 h0).1).le
  have a1 := areas fl fun F hF => hall.mem_iff.mpr (List.mem_append_left _ hF)
  have a2 := areas flB fun F hF => hall.mem_iff.mpr (List.mem_append_right _ hF)
  refine ⟨?_, ?_, ?_, ?_, ?_, ?_, nonneg (by convert h.least) a1, nonneg (by convert hB.least) a2⟩
  · rw [h.flashes, hB.flashes, hC.flashes, sums]
  · rw [h.flashArea, hB.flashArea, hC.flashArea, sums]
  · rw [h.energy, hB.energy, hC.energy, sums]
  · rw [h.groups, hB.groups, hC.groups, sums]
  · rw [h.groupArea, hB.groupArea, hC.groupArea, sums]
  · refine leastOrZero_append a1 a2 (by convert h.least) (by convert hB.least) ?_
    rw [← List.map_append, ← List.filter_append]
    exact leastOrZero_perm ((hc.filter _).map _) (by convert hC.least)

theorem lightning_nonneg (h : LightningHolds clip foot me mg fl dx dy X Y fed fa te ged ga mfa) (hdx : 0 < dx) (hdy : 0 < dy) :
    0 ≤ fed ∧ 0 ≤ ged ∧ ((∀ F ∈ fl, ∀ p ∈ F.events, 0 ≤ p.2) → 0 ≤ te) ∧ (fed = 0 → fa = 0) ∧ (ged = 0 → ga = 0) := by
  have zero : ∀ {α : Type} {l : List α} {w : α → Rat}, (∀ a ∈ l, 0 ≤ w a) → (l.map w).sum = 0 → ∀ a ∈ l, w a = 0 := by
    intro α l w hw h0
    have := (kept_equal (l := l) (f := fun _ => 0) (g := w) hw).2.mp (by rw [h0]; simp)
    exact fun a ha => (this a ha).symm
  have part := pixelShare_nonneg clip foot hdx hdy X Y
  refine ⟨?_, ?_, fun hpos => ?_, fun h0 => ?_, fun h0 => ?_⟩
  · rw [h.flashes]
    exact sum_nonneg_map _ _ fun F _ => sum_nonneg_map _ _ fun p _ => pixelShare_nonneg clip foot hdx hdy X Y p
  · rw [h.groups]
    exact sum_nonneg_map _ _ fun F _ => sum_nonneg_map _ _ fun G _ => sum_nonneg_map _ _ fun p _ =>
      pixelShare_nonneg clip foot hdx hdy X Y p
  · rw [h.energy]
    exact sum_nonneg_map _ _ fun F hF => sum_nonneg_map _ _ fun p hp => mul_nonneg (hpos F (List.mem_filter.mp hF).1 p hp)
      (div_nonneg (partArea_nonneg _ _ _) (abs_nonneg _))
  · rw [h.flashes] at h0
    rw [h.flashArea]
    refine List.sum_eq_zero fun v hv => ?_
    obtain ⟨F, hF, rfl⟩ := List.mem_map.mp hv
    rw [zero (fun F _ => sum_nonneg_map _ _ fun p _ => part p) h0 F hF, mul_zero]
  · rw [h.groups] at h0
    rw [h.groupArea]
    refine List.sum_eq_zero fun v hv => ?_
    obtain ⟨F, hF, rfl⟩ := List.mem_map.mp hv
    have h1 := zero (fun F _ => sum_nonneg_map _ _ fun G _ => sum_nonneg_map _ _ fun p _ => part p) h0 F hF
    refine List.sum_eq_zero fun v hv => ?_
    obtain ⟨G, hG, rfl⟩ := List.mem_map.mp hv
    rw [zero (fun G _ => sum_nonneg_map _ _ fun p _ => part p) h1 G hG, mul_zero]

end

/-- The energies in lightning are the energies of events. -/
theorem flashOf_energies {nav : Rat → Rat → Rat × Rat} {d : GFile} (hd : ∀ e ∈ d.events, 0 ≤ e.val.energy) (f : Row GVal) :
    ∀ p ∈ (flashOf nav d f).events, 0 ≤ p.2 := by
  intro p hp
  obtain ⟨G, hG, hp⟩ := List.mem_flatMap.mp hp
  obtain ⟨g, -, rfl⟩ := List.mem_map.mp hG
  obtain ⟨e, he, rfl⟩ := List.mem_map.mp hp
  exact hd e (List.mem_filter.mp he).1

/-- The files of a period are those of its two parts. -/
theorem frames_split {env : Surroundings} {a b c : Rat} (hab : a ≤ b) (hbc : b ≤ c) (files : List GFile) :
    (filesOf env (a, c) files).Perm (filesOf env (a, b) files ++ filesOf env (b, c) files) := by
  unfold filesOf
  induction files with
  | nil => exact List.Perm.refl _
  | cons d l ih =>
    have key : InFrame env.basedate (a, c) (env.productTime d) ↔
        InFrame env.basedate (a, b) (env.productTime d) ∨ InFrame env.basedate (b, c) (env.productTime d) := by
      unfold InFrame
      constructor
      · intro h
        rcases lt_or_ge (((env.productTime d - env.basedate : Int) : Rat) / 1000000000) b with h' | h'
        · exact Or.inl ⟨h.1, h'⟩
        · exact Or.inr ⟨h', h.2⟩
      · rintro (h | h)
        · exact ⟨h.1, lt_of_lt_of_le h.2 hbc⟩
        · exact ⟨hab.trans h.1, h.2⟩
    have excl : InFrame env.basedate (a, b) (env.productTime d) → ¬ InFrame env.basedate (b, c) (env.productTime d) :=
      fun h h' => absurd h.2 (not_lt.mpr h'.1)
    by_cases h1 : InFrame env.basedate (a, b) (env.productTime d)
    · simp only [List.filter_cons, h1, key.mpr (Or.inl h1), excl h1, decide_true, decide_false, if_true, Bool.false_eq_true, if_false]
      exact ih.cons d
    · by_cases h2 : InFrame env.basedate (b, c) (env.productTime d)
      · simp only [List.filter_cons, h1, h2, key.mpr (Or.inr h2), decide_true, decide_false, if_true, Bool.false_eq_true, if_false]
        exact (ih.cons d).trans List.perm_middle.symm
      · have h3 : ¬ InFrame env.basedate (a, c) (env.productTime d) := fun h => (key.mp h).elim h1 h2
        simp only [List.filter_cons, h1, h2, h3, decide_false, Bool.false_eq_true, if_false]
        exact ih

open scoped Classical in
/-- The flashes of files that are inside the range of an image. -/
noncomputable def insideOf (nav : Rat → Rat → Rat × Rat) (dx dy : Rat) (xs ys : List Rat) (files : List GFile) : List FlashOf :=
  files.flatMap fun d => (d.flashes.filter fun f =>
    FlashInside nav dx dy (padding dx) (padding dy) xs ys d f).map (flashOf nav d)

/-- What three images show in a pixel: the densities and energies of the first two add up to those of the third, to within a step
of the packed values if they are scaled, the least area of the third is the lesser of the two, and in images that are not scaled
averages times densities add up. -/
def AddUp (sc : Bool) (row col : Nat) (A B C : ImageFile) : Prop :=
  (∀ name step, (name, step) ∈ [("flash_extent_density", (1/16 : Rat)), ("total_energy", 152597 / 100000000000),
      ("group_extent_density", 1/4)] →
    ∀ a b c, (name, a) ∈ A.fields → (name, b) ∈ B.fields → (name, c) ∈ C.fields →
      c.val row col ≤ a.val row col + b.val row col ∧ a.val row col + b.val row col ≤ c.val row col + step ∧
      (sc = false → c.val row col = a.val row col + b.val row col)) ∧
  (∀ a b c, ("minimum_flash_area", a) ∈ A.fields → ("minimum_flash_area", b) ∈ B.fields →
    ("minimum_flash_area", c) ∈ C.fields → c.val row col = leastOf (a.val row col) (b.val row col)) ∧
  (sc = false → ∀ name density, (name, density) ∈ [("average_flash_area", "flash_extent_density"),
      ("average_group_area", "group_extent_density")] →
    ∀ a b c u v w, (name, a) ∈ A.fields → (name, b) ∈ B.fields → (name, c) ∈ C.fields → (density, u) ∈ A.fields →
      (density, v) ∈ B.fields → (density, w) ∈ C.fields →
      c.val row col * w.val row col = a.val row col * u.val row col + b.val row col * v.val row col)

theorem add_up {clip : Poly → Poly → List Poly} {foot : Pt → Poly} {nav : Rat → Rat → Rat × Rat} {me mg : Option Int}
    {dx dy X Y : Rat} {xs ys : List Rat} {filesA filesB filesC : List GFile} {A B C : ImageFile} {sc : Bool} {row col : Nat}
    (hdx : 0 < dx) (hdy : 0 < dy) (hall : filesC.Perm (filesA ++ filesB)) (hpos : EnergiesHold filesC)
    (hareas : ∀ d ∈ filesC, ∀ f ∈ d.flashes, 0 < f.val.area)
    {holds : List GFile → ImageFile → Prop} (hh : ∀ l I, holds l I → ∃ fed fa te ged ga mfa,
      LightningHolds clip foot me mg (insideOf nav dx dy xs ys l) dx dy X Y fed fa te ged ga mfa ∧
      ∀ name img v, (name, img) ∈ I.fields → (name, v) ∈ shown sc fed fa te ged ga mfa → img.val row col = v)
    (hA : holds filesA A) (hB : holds filesB B) (hC : holds filesC C) : AddUp sc row col A B C := by
  obtain ⟨fed1, fa1, te1, ged1, ga1, mfa1, p1, q1⟩ := hh _ _ hA
  obtain ⟨fed2, fa2, te2, ged2, ga2, mfa2, p2, q2⟩ := hh _ _ hB
  obtain ⟨fed3, fa3, te3, ged3, ga3, mfa3, p3, q3⟩ := hh _ _ hC
  have pos : ∀ l : List GFile, (∀ d ∈ l, d ∈ filesC) → ∀ F ∈ insideOf nav dx dy xs ys l, ∀ p ∈ F.events, 0 ≤ p.2 := by
    intro l hl F hF
    obtain ⟨d, hd, hF⟩ := List.mem_flatMap.mp hF
    obtain ⟨f, -, rfl⟩ := List.mem_map.mp hF
    exact flashOf_energies (hpos d (hl d hd)) f
  obtain ⟨n1, m1, e1, z1, y1⟩ := lightning_nonneg p1 hdx hdy
  obtain ⟨n2, m2, e2, z2, y2⟩ := lightning_nonneg p2 hdx hdy
  have e1 := e1 (pos filesA fun d hd => hall.mem_iff.mpr (List.mem_append_left _ hd))
  have e2 := e2 (pos filesB fun d hd => hall.mem_iff.mpr (List.mem_append_right _ hd))
  obtain ⟨rfl, rfl, rfl, rfl, rfl, rfl, l1, l2⟩ := lightning_append p1 p2 p3
    (by unfold insideOf; rw [← List.flatMap_append]; exact hall.flatMap_right _) (by
      intro F hF
      obtain ⟨d, hd, hF⟩ := List.mem_flatMap.mp hF
      obtain ⟨f, hf, rfl⟩ := List.mem_map.mp hF
      exact hareas d hd f (List.mem_filter.mp hf).1)
  have sums : ∀ {st u v a b c : Rat}, 0 < st → 0 ≤ u → 0 ≤ v → a = atLeastStep sc st u → b = atLeastStep sc st v →
      c = atLeastStep sc st (u + v) → c ≤ a + b ∧ a + b ≤ c + st ∧ (sc = false → c = a + b) := by
    intro st u v a b c h0 hu hv e1 e2 e3
    obtain ⟨k1, k2⟩ := atLeastStep_add sc h0 hu hv
    refine ⟨by rw [e1, e2, e3]; exact k1, by rw [e1, e2, e3]; exact k2, fun h => ?_⟩
    subst h
    rw [e1, e2, e3]
    simp only [atLeastStep_false]
  refine ⟨?_, ?_, ?_⟩
  · intro name step hname a b c ha hb hc
    simp only [List.mem_cons, Prod.mk.injEq, List.not_mem_nil, or_false] at hname
    rcases hname with ⟨rfl, rfl⟩ | ⟨rfl, rfl⟩ | ⟨rfl, rfl⟩
    · exact sums (by norm_num) n1 n2 (q1 _ a _ ha (by simp [shown])) (q2 _ b _ hb (by simp [shown]))
        (q3 _ c _ hc (by simp [shown]))
    · exact sums (by norm_num) e1 e2 (q1 _ a _ ha (by simp [shown])) (q2 _ b _ hb (by simp [shown]))
        (q3 _ c _ hc (by simp [shown]))
    · exact sums (by norm_num) m1 m2 (q1 _ a _ ha (by simp [shown])) (q2 _ b _ hb (by simp [shown]))
        (q3 _ c _ hc (by simp [shown]))
  · intro a b c ha hb hc
    rw [q1 _ a (atLeastStep sc 10 mfa1) ha (by simp [shown]), q2 _ b (atLeastStep sc 10 mfa2) hb (by simp [shown]),
      q3 _ c (atLeastStep sc 10 (leastOf mfa1 mfa2)) hc (by simp [shown])]
    exact atLeastStep_least sc l1 l2
  · intro h name density hname a b c u v w ha hb hc hu hv hw
    subst h
    have comb : ∀ {x y x' y' : Rat}, (y = 0 → x = 0) → (y' = 0 → x' = 0) → 0 ≤ y → 0 ≤ y' →
        averageOf (x + x') (y + y') * (y + y') = averageOf x y * y + averageOf x' y' * y' := by
      intro x y x' y' h1 h2 h3 h4
      rw [averageOf_mul h1, averageOf_mul h2, averageOf_mul]
      intro h0
      rw [h1 (by linarith), h2 (by linarith), zero_add]
    simp only [List.mem_cons, Prod.mk.injEq, List.not_mem_nil, or_false] at hname
    rcases hname with ⟨rfl, rfl⟩ | ⟨rfl, rfl⟩
    · rw [q1 _ a (averageOf fa1 fed1) ha (by simp [shown, atLeastStep_false]), q2 _ b (averageOf fa2 fed2) hb (by simp [shown, atLeastStep_false]),
        q3 _ c (averageOf (fa1 + fa2) (fed1 + fed2)) hc (by simp [shown, atLeastStep_false]), q1 _ u fed1 hu (by simp [shown, atLeastStep_false]),
        q2 _ v fed2 hv (by simp [shown, atLeastStep_false]), q3 _ w (fed1 + fed2) hw (by simp [shown, atLeastStep_false])]
      exact comb z1 z2 n1 n2
    · rw [q1 _ a (averageOf ga1 ged1) ha (by simp [shown, atLeastStep_false]), q2 _ b (averageOf ga2 ged2) hb (by simp [shown, atLeastStep_false]),
        q3 _ c (averageOf (ga1 + ga2) (ged1 + ged2)) hc (by simp [shown, atLeastStep_false]), q1 _ u ged1 hu (by simp [shown, atLeastStep_false]),
        q2 _ v ged2 hv (by simp [shown, atLeastStep_false]), q3 _ w (ged1 + ged2) hw (by simp [shown, atLeastStep_false])]
      exact comb y1 y2 m1 m2

section
variable {env : Surroundings} {order : List Int → List Int} {nav : Rat → Rat → Rat × Rat}
  {kwA kwB kwC sA sB sC sA' sB' sC' : Dict} {xA yA xB yB xC yC dx dy : Rat} {MA NA kA MB NB kB MC NC kC : Nat}
  {me mg : Option Int} {filesA filesB filesC : List GFile} {runsA runsB runsC : List (TileRun TileState ImageFile)}

/-- **C140**, for boxes, footprints and flashes of any size, wherever they are.  Three images, of three calls, have the same pixels;
the files of the third call are the files of the first two, in any order.  What the first two show
adds up to what the third shows. -/
theorem C140_any_size (hA : AnyBoxFiles env order nav kwA xA yA dx dy MA NA kA me mg filesA)
    (hB : AnyBoxFiles env order nav kwB xB yB dx dy MB NB kB me mg filesB)
    (hC : AnyBoxFiles env order nav kwC xC yC dx dy MC NC kC me mg filesC) (hall : filesC.Perm (filesA ++ filesB))
    (hpos : EnergiesHold filesC)
    (rA : gridGlmFlashes (lutGridder env) filesA kwA sA = .ok (runsA, sA'))
    (rB : gridGlmFlashes (lutGridder env) filesB kwB sB = .ok (runsB, sB'))
    (rC : gridGlmFlashes (lutGridder env) filesC kwC sC = .ok (runsC, sC'))
    {tA tB tC : TileRun TileState ImageFile} (htA : tA ∈ runsA) (htB : tB ∈ runsB) (htC : tC ∈ runsC)
    {fA fB fC : String × ImageFile} (hfA : fA ∈ tA.written) (hfB : fB ∈ tB.written) (hfC : fC ∈ tC.written) {sc : Bool}
    (scA : (tA.scale != .bool false) = sc) (scB : (tB.scale != .bool false) = sc) (scC : (tC.scale != .bool false) = sc)
    (xBA : fB.2.x = fA.2.x) (yBA : fB.2.y = fA.2.y) (xCA : fC.2.x = fA.2.x) (yCA : fC.2.y = fA.2.y)
    {row col : Nat} (hcol : col < fA.2.x.length) (hrow : row < fA.2.y.length) :
    AddUp sc row col fA.2 fB.2 fC.2 := by
  have hX : fA.2.x[col]? = some fA.2.x[col] := List.getElem?_eq_getElem hcol
  have hY : fA.2.y[row]? = some fA.2.y[row] := List.getElem?_eq_getElem hrow
  have p1 := C168_files hA rA htA hfA hX hY
  have p2 := C168_files hB rB htB hfB (by rw [xBA]; exact hX) (by rw [yBA]; exact hY)
  have p3 := C168_files hC rC htC hfC (by rw [xCA]; exact hX) (by rw [yCA]; exact hY)
  rw [scA] at p1
  rw [scB, xBA, yBA] at p2
  rw [scC, xCA, yCA] at p3
  exact add_up (nav := nav) (xs := fA.2.x) (ys := fA.2.y) hA.xPos hA.yPos hall hpos (fun d hd => (hC.fit d hd).areas)
    (holds := fun l I => ∃ fed fa te ged ga mfa,
      LightningHolds (rangeClip convexClip dx dy (padding dx) (padding dy) fA.2.x fA.2.y fA.2.x[col] fA.2.y[row]) env.foot me mg
        (insideOf nav dx dy fA.2.x fA.2.y l) dx dy fA.2.x[col] fA.2.y[row] fed fa te ged ga mfa ∧
      ∀ name img v, (name, img) ∈ I.fields → (name, v) ∈ shown sc fed fa te ged ga mfa → img.val row col = v)
    (fun _ _ h => h) (by unfold insideOf; convert p1) (by unfold insideOf; convert p2) (by unfold insideOf; convert p3)

/-- **C162**, for boxes, footprints and flashes of any size, wherever they are.  Three images, of three calls for the same files, have
the same pixels; they are those of a frame, of the frame after it, and of a frame that is as long as both.  What the first two show
adds up to what the third shows. -/
theorem C162_any_size {FA FB FC : Framing} (hFA : PicksByTime FA) (hFB : PicksByTime FB) (hFC : PicksByTime FC)
    (hA : AnyBoxFiles env order nav kwA xA yA dx dy MA NA kA me mg filesA)
    (hB : AnyBoxFiles env order nav kwB xB yB dx dy MB NB kB me mg filesB)
    (hC : AnyBoxFiles env order nav kwC xC yC dx dy MC NC kC me mg filesC) (hCA : filesC.Perm filesA) (hCB : filesC.Perm filesB)
    (htime : KeepsTime env filesC) (hpos : EnergiesHold filesC)
    (rA : gridGlmFlashes (framesGridder env FA) filesA kwA sA = .ok (runsA, sA'))
    (rB : gridGlmFlashes (framesGridder env FB) filesB kwB sB = .ok (runsB, sB'))
    (rC : gridGlmFlashes (framesGridder env FC) filesC kwC sC = .ok (runsC, sC'))
    {a b c : Rat} (hab : a ≤ b) (hbc : b ≤ c) {nA nB nC : Nat} (hnA : (pairwise FA.tEdges)[nA]? = some (a, b))
    (hnB : (pairwise FB.tEdges)[nB]? = some (b, c)) (hnC : (pairwise FC.tEdges)[nC]? = some (a, c))
    {tA tB tC : TileRun TileState ImageFile} (htA : tA ∈ runsA) (htB : tB ∈ runsB) (htC : tC ∈ runsC)
    {fA fB fC : String × ImageFile} (hfA : tA.written[nA]? = some fA) (hfB : tB.written[nB]? = some fB)
    (hfC : tC.written[nC]? = some fC) {sc : Bool}
    (scA : (tA.scale != .bool false) = sc) (scB : (tB.scale != .bool false) = sc) (scC : (tC.scale != .bool false) = sc)
    (xBA : fB.2.x = fA.2.x) (yBA : fB.2.y = fA.2.y) (xCA : fC.2.x = fA.2.x) (yCA : fC.2.y = fA.2.y)
    {row col : Nat} (hcol : col < fA.2.x.length) (hrow : row < fA.2.y.length) :
    AddUp sc row col fA.2 fB.2 fC.2 := by
  have hX : fA.2.x[col]? = some fA.2.x[col] := List.getElem?_eq_getElem hcol
  have hY : fA.2.y[row]? = some fA.2.y[row] := List.getElem?_eq_getElem hrow
  have p1 := C168_frames_files hFA hA (fun d d' hd => htime d d' (hCA.mem_iff.mpr hd)) rA hnA htA hfA hX hY
  have p2 := C168_frames_files hFB hB (fun d d' hd => htime d d' (hCB.mem_iff.mpr hd)) rB hnB htB hfB (by rw [xBA]; exact hX)
    (by rw [yBA]; exact hY)
  have p3 := C168_frames_files hFC hC htime rC hnC htC hfC (by rw [xCA]; exact hX) (by rw [yCA]; exact hY)
  rw [scA] at p1
  rw [scB, xBA, yBA] at p2
  rw [scC, xCA, yCA] at p3
  have split : (filesOf env (a, c) filesC).Perm (filesOf env (a, b) filesA ++ filesOf env (b, c) filesB) :=
    (frames_split hab hbc filesC).trans (List.Perm.append (hCA.filter _) (hCB.filter _))
  exact add_up (nav := nav) (xs := fA.2.x) (ys := fA.2.y) hA.xPos hA.yPos split
    (fun d hd => hpos d (List.mem_filter.mp hd).1) (fun d hd => (hC.fit d (List.mem_filter.mp hd).1).areas)
    (holds := fun l I => ∃ fed fa te ged ga mfa,
      LightningHolds (rangeClip convexClip dx dy (padding dx) (padding dy) fA.2.x fA.2.y fA.2.x[col] fA.2.y[row]) env.foot me mg
        (insideOf nav dx dy fA.2.x fA.2.y l) dx dy fA.2.x[col] fA.2.y[row] fed fa te ged ga mfa ∧
      ∀ name img v, (name, img) ∈ I.fields → (name, v) ∈ shown sc fed fa te ged ga mfa → img.val row col = v)
    (fun _ _ h => h) (by unfold insideOf; convert p1) (by unfold insideOf; convert p2) (by unfold insideOf; convert p3)

end

/-! ## Sample -/

theorem seamBoth_call :
    AnyBoxFiles plainEnv id sampleNav largeBoxCall 0 0 (1/200) (1/200) 4 2 2 (some 1) none [seamAlone, seamPlain] :=
  { seamPlain_call with
    some := by simp
    fit := by
      intro d hd
      rcases List.mem_cons.mp hd with rfl | hd
      · exact seamAlone_call.fit _ (by simp)
      · exact seamPlain_call.fit _ hd }

/-- The images of the two samples add up. -/
example {runsA runsB runsC : List (TileRun TileState ImageFile)} {sA' sB' sC' : Dict}
    {tA tB tC : TileRun TileState ImageFile} {fA fB fC : String × ImageFile} {row col : Nat} {a b c : Image}
    (rA : gridGlmFlashes (lutGridder plainEnv) [seamPlain] largeBoxCall [] = .ok (runsA, sA'))
    (rB : gridGlmFlashes (lutGridder plainEnv) [seamAlone] largeBoxCall [] = .ok (runsB, sB'))
    (rC : gridGlmFlashes (lutGridder plainEnv) [seamAlone, seamPlain] largeBoxCall [] = .ok (runsC, sC'))
    (htA : tA ∈ runsA) (htB : tB ∈ runsB) (htC : tC ∈ runsC) (hfA : fA ∈ tA.written) (hfB : fB ∈ tB.written)
    (hfC : fC ∈ tC.written) (scA : (tA.scale != .bool false) = false) (scB : (tB.scale != .bool false) = false)
    (scC : (tC.scale != .bool false) = false)
    (xBA : fB.2.x = fA.2.x) (yBA : fB.2.y = fA.2.y) (xCA : fC.2.x = fA.2.x) (yCA : fC.2.y = fA.2.y)
    (hcol : col < fA.2.x.length) (hrow : row < fA.2.y.length) (ha : ("total_energy", a) ∈ fA.2.fields)
    (hb : ("total_energy", b) ∈ fB.2.fields) (hc : ("total_energy", c) ∈ fC.2.fields) :
    c.val row col = a.val row col + b.val row col :=
  ((C140_any_size seamPlain_call seamAlone_call seamBoth_call (List.Perm.swap _ _ _)
    (by unfold EnergiesHold; decide +kernel) rA rB rC htA htB htC hfA hfB hfC scA scB scC xBA yBA xCA yCA hcol hrow).1
    "total_energy" (152597 / 100000000000) (by simp) a b c ha hb hc).2.2 rfl

/-- The frames of a minute add up to the frame of two minutes. -/
example {runsA runsC : List (TileRun TileState ImageFile)} {sA' sC' : Dict} {tA tC : TileRun TileState ImageFile}
    {fA fB fC : String × ImageFile} {row col : Nat}
    (rA : gridGlmFlashes (framesGridder plainEnv (sampleFrames [0, 60, 120])) [seamPlain] largeBoxCall [] = .ok (runsA, sA'))
    (rC : gridGlmFlashes (framesGridder plainEnv (sampleFrames [0, 120])) [seamPlain] largeBoxCall [] = .ok (runsC, sC'))
    (htA : tA ∈ runsA) (htC : tC ∈ runsC) (hfA : tA.written[0]? = some fA) (hfB : tA.written[1]? = some fB)
    (hfC : tC.written[0]? = some fC) (sc : (tC.scale != .bool false) = (tA.scale != .bool false))
    (xBA : fB.2.x = fA.2.x) (yBA : fB.2.y = fA.2.y) (xCA : fC.2.x = fA.2.x) (yCA : fC.2.y = fA.2.y)
    (hcol : col < fA.2.x.length) (hrow : row < fA.2.y.length) :
    AddUp (tA.scale != .bool false) row col fA.2 fB.2 fC.2 :=
  C162_any_size (a := 0) (b := 60) (c := 120) (sampleFrames_pick _) (sampleFrames_pick _) (sampleFrames_pick _) seamPlain_call
    seamPlain_call seamPlain_call (List.Perm.refl _) (List.Perm.refl _) (fun _ _ _ _ _ => rfl)
    (by unfold EnergiesHold; decide +kernel) rA rA rC (by norm_num) (by norm_num) rfl rfl rfl htA htA htC hfA hfB hfC rfl rfl sc
    xBA yBA xCA yCA hcol hrow

end Verif.Props
