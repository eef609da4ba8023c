import Verif.Props.Tiling

/-!
# What the grids of several files have to do with each other: C130, C131, C132

Files in another order, files gridded apart, and stricter criteria.
-/

namespace Verif.Props

open Verif.Py Verif.Model Verif.Spec Verif.Proofs

/-- The names of the six grids. -/
def sixNames : List String := ["flash_extent_density", "average_flash_area", "total_energy", "group_extent_density",
  "average_group_area", "minimum_flash_area"]

/-- What a call on a list of files puts into the grids. -/
def FilesGridded (clip : Poly → Poly → List Poly) (query : List Pt → Pt → Nat → List Nat) (foot : Pt → Poly)
    (x y : List Rat) (basedate : Int) (loc : Rat → Rat → Int) (order : List Int → List Int) (c : Criteria) (n : Nat)
    (points : Grid → List LmaParent → Grid) (label : String) (par : String → FakeLma → List LmaParent)
    (files : List (Int × GFile)) (grid : String → Grid) : Prop :=
  ∃ fakes outgrids grids,
    readFiles clip query (fun pts => pts.map foot) (gridMesh x y) basedate loc order c n files = .ok fakes ∧
    lutPipelineSetup = .ok outgrids ∧
    gridFrame points (x.length - 1) (y.length - 1) outgrids (fun k => fakes.map fun f => (f.children, par k f)) =
      .ok grids ∧
    ∀ name ∈ sixNames, gridNamed label grids name = some (grid name)

theorem gridded_unique {clip : Poly → Poly → List Poly} {query : List Pt → Pt → Nat → List Nat} {foot : Pt → Poly}
    {x y : List Rat} {basedate : Int} {loc : Rat → Rat → Int} {order : List Int → List Int} {c : Criteria} {n : Nat}
    {points : Grid → List LmaParent → Grid} {label : String} {par : String → FakeLma → List LmaParent}
    {files : List (Int × GFile)} {grid grid' : String → Grid}
    (h : FilesGridded clip query foot x y basedate loc order c n points label par files grid)
    (h' : FilesGridded clip query foot x y basedate loc order c n points label par files grid') {name : String}
    (hn : name ∈ sixNames) : grid name = grid' name := by
  obtain ⟨fakes, outgrids, grids, a1, a2, a3, a4⟩ := h
  obtain ⟨fakes', outgrids', grids', b1, b2, b3, b4⟩ := h'
  obtain rfl := Except.ok.inj (a1.symm.trans b1)
  obtain rfl := Except.ok.inj (a2.symm.trans b2)
  obtain rfl := Except.ok.inj (a3.symm.trans b3)
  exact Option.some.inj ((a4 name hn).symm.trans (b4 name hn))

/-- The grids of files exist and hold what the files put there. -/
theorem files_gridded {clip : Poly → Poly → List Poly} {query : List Pt → Pt → Nat → List Nat}
    {foot : Pt → Poly} {x y : List Rat} (basedate : Int) {loc : Rat → Rat → Int}
    {order : List Int → List Int} {c : Criteria} {n : Nat} {files : List (Int × GFile)}
    (points : Grid → List LmaParent → Grid) (label : String) (par : String → FakeLma → List LmaParent)
    (hx : AxisOk x) (hy : AxisOk y) (hsz : 2 < x.length ∨ 2 < y.length)
    (hclip : ∀ p q s, s ∈ clip p q → s ≠ []) (ho : ∀ l, (order l).Perm l) (hn : 0 < n)
    (h : ∀ d ∈ files, d.2.events ≠ [] → FileOk clip query foot x y loc order c n d.2) :
    ∃ grid : String → Grid,
      FilesGridded clip query foot x y basedate loc order c n points label par files grid ∧
      ∀ i j, i + 1 < x.length → j + 1 < y.length → CellsOfFiles clip foot x y c files i j
        ((grid "flash_extent_density").val i j) ((grid "average_flash_area").val i j)
        ((grid "total_energy").val i j) ((grid "group_extent_density").val i j)
        ((grid "average_group_area").val i j) ((grid "minimum_flash_area").val i j) := by
  obtain ⟨fakes, outgrids, grids, fed, fa, te, ged, ga, mfa, a1, a2, a3, n1, n2, n3, n4, n5, n6, -, hv⟩ :=
    C93_partial clip query foot x y basedate loc order c n files points label par hx hy hsz hclip ho hn h
  refine ⟨fun name => if name = "flash_extent_density" then fed else if name = "average_flash_area" then fa else
    if name = "total_energy" then te else if name = "group_extent_density" then ged else
    if name = "average_group_area" then ga else mfa, ⟨fakes, outgrids, grids, a1, a2, a3, ?_⟩, hv⟩
  intro name hname
  simp only [sixNames, List.mem_cons, List.not_mem_nil, or_false] at hname
  rcases hname with rfl | rfl | rfl | rfl | rfl | rfl
  · exact n1
  · exact n2
  · exact n3
  · exact n4
  · exact n5
  · exact n6

theorem events_of_place {d : GFile} {f : Row GVal} {p : Pt} (h : p ∈ flashPlaces d f) : d.events ≠ [] := by
  intro he
  unfold flashPlaces at h
  rw [he] at h
  exact absurd h (by simp)

/-! ## C130 -/

/-- **C130**.  Files given in another order put the same into every cell of every grid. -/
theorem C130_order (clip : Poly → Poly → List Poly) (query : List Pt → Pt → Nat → List Nat)
    (foot : Pt → Poly) (x y : List Rat) (basedate : Int) (loc : Rat → Rat → Int)
    (order : List Int → List Int) (c : Criteria) (n : Nat) (files files' : List (Int × GFile))
    (points : Grid → List LmaParent → Grid) (label : String) (par : String → FakeLma → List LmaParent)
    (hx : AxisOk x) (hy : AxisOk y) (hsz : 2 < x.length ∨ 2 < y.length)
    (hclip : ∀ p q s, s ∈ clip p q → s ≠ []) (ho : ∀ l, (order l).Perm l) (hn : 0 < n)
    (h : ∀ d ∈ files, d.2.events ≠ [] → FileOk clip query foot x y loc order c n d.2) (hp : files.Perm files') :
    ∃ grid grid' : String → Grid,
      FilesGridded clip query foot x y basedate loc order c n points label par files grid ∧
      FilesGridded clip query foot x y basedate loc order c n points label par files' grid' ∧
      ∀ name ∈ sixNames, ∀ i j, i + 1 < x.length → j + 1 < y.length → (grid name).val i j = (grid' name).val i j := by
  obtain ⟨grid, g1, g2⟩ := files_gridded basedate points label par hx hy hsz hclip ho hn h
  obtain ⟨grid', g1', g2'⟩ := files_gridded (files := files') basedate points label par hx hy hsz hclip ho hn
    fun d hd => h d (hp.mem_iff.mpr hd)
  refine ⟨grid, grid', g1, g1', ?_⟩
  intro name hname i j hi hj
  have a := g2 i j hi hj
  have b := g2' i j hi hj
  simp only [sixNames, List.mem_cons, List.not_mem_nil, or_false] at hname
  rcases hname with rfl | rfl | rfl | rfl | rfl | rfl
  · rw [a.flashes, b.flashes]
    exact (hp.map _).sum_eq
  · rw [a.flashArea, b.flashArea]
    exact (hp.map _).sum_eq
  · rw [a.energy, b.energy]
    exact (hp.map _).sum_eq
  · rw [a.groups, b.groups]
    exact (hp.map _).sum_eq
  · rw [a.groupArea, b.groupArea]
    exact (hp.map _).sum_eq
  · exact leastOrZero_unique (hp.flatMap_right _) a.least b.least

/-- The lesser of two minimum flash areas, where 0 stands for no flash. -/
def lesserOrOther (a b : Rat) : Rat := if a = 0 then b else if b = 0 then a else min a b

theorem lesserOrOther_least {A B : List Rat} {a b : Rat} (hA : ∀ v ∈ A, 0 < v) (hB : ∀ v ∈ B, 0 < v)
    (ha : LeastOrZero A a) (hb : LeastOrZero B b) : LeastOrZero (A ++ B) (lesserOrOther a b) := by
  unfold lesserOrOther
  by_cases h1 : A = []
  · rw [ha.1 h1, if_pos rfl, h1, List.nil_append]
    exact hb
  obtain ⟨a1, a2⟩ := ha.2 h1
  rw [if_neg (hA a a1).ne']
  by_cases h2 : B = []
  · rw [hb.1 h2, if_pos rfl, h2, List.append_nil]
    exact ha
  obtain ⟨b1, b2⟩ := hb.2 h2
  rw [if_neg (hB b b1).ne']
  refine ⟨fun h => absurd (List.append_eq_nil_iff.mp h).1 h1, fun _ => ⟨?_, ?_⟩⟩
  · rcases min_choice a b with h | h <;> rw [h]
    · exact List.mem_append_left _ a1
    · exact List.mem_append_right _ b1
  · intro u hu
    rcases List.mem_append.mp hu with h | h
    · exact le_trans (min_le_left _ _) (a2 u h)
    · exact le_trans (min_le_right _ _) (b2 u h)

/-- **C130**.  What several files put into the grids is the sum of what they put there when they are gridded apart, in
any division, and the minimum flash area is the lesser of the two, where there are two. -/
theorem C130_apart (clip : Poly → Poly → List Poly) (query : List Pt → Pt → Nat → List Nat)
    (foot : Pt → Poly) (x y : List Rat) (basedate : Int) (loc : Rat → Rat → Int)
    (order : List Int → List Int) (c : Criteria) (n : Nat) (files files' : List (Int × GFile))
    (points : Grid → List LmaParent → Grid) (label : String) (par : String → FakeLma → List LmaParent)
    (hx : AxisOk x) (hy : AxisOk y) (hsz : 2 < x.length ∨ 2 < y.length)
    (hclip : ∀ p q s, s ∈ clip p q → s ≠ []) (ho : ∀ l, (order l).Perm l) (hn : 0 < n)
    (h : ∀ d ∈ files ++ files', d.2.events ≠ [] → FileOk clip query foot x y loc order c n d.2) :
    ∃ grid grid' both : String → Grid,
      FilesGridded clip query foot x y basedate loc order c n points label par files grid ∧
      FilesGridded clip query foot x y basedate loc order c n points label par files' grid' ∧
      FilesGridded clip query foot x y basedate loc order c n points label par (files ++ files') both ∧
      ∀ i j, i + 1 < x.length → j + 1 < y.length →
        (∀ name ∈ ["flash_extent_density", "average_flash_area", "total_energy", "group_extent_density",
          "average_group_area"], (both name).val i j = (grid name).val i j + (grid' name).val i j) ∧
        (both "minimum_flash_area").val i j =
          lesserOrOther ((grid "minimum_flash_area").val i j) ((grid' "minimum_flash_area").val i j) := by
  obtain ⟨grid, g1, g2⟩ := files_gridded (files := files) basedate points label par hx hy hsz hclip ho hn
    fun d hd => h d (List.mem_append_left _ hd)
  obtain ⟨grid', g1', g2'⟩ := files_gridded (files := files') basedate points label par hx hy hsz hclip ho hn
    fun d hd => h d (List.mem_append_right _ hd)
  obtain ⟨both, b1, b2⟩ := files_gridded basedate points label par hx hy hsz hclip ho hn h
  refine ⟨grid, grid', both, g1, g1', b1, ?_⟩
  intro i j hi hj
  have a := g2 i j hi hj
  have a' := g2' i j hi hj
  have b := b2 i j hi hj
  constructor
  · intro name hname
    simp only [List.mem_cons, List.not_mem_nil, or_false] at hname
    rcases hname with rfl | rfl | rfl | rfl | rfl
    · rw [a.flashes, a'.flashes, b.flashes, List.map_append, List.sum_append]
    · rw [a.flashArea, a'.flashArea, b.flashArea, List.map_append, List.sum_append]
    · rw [a.energy, a'.energy, b.energy, List.map_append, List.sum_append]
    · rw [a.groups, a'.groups, b.groups, List.map_append, List.sum_append]
    · rw [a.groupArea, a'.groupArea, b.groupArea, List.map_append, List.sum_append]
  · have pos : ∀ l : List (Int × GFile), (∀ d ∈ l, d ∈ files ++ files') → ∀ v ∈ (l.flatMap fun (d : Int × GFile) =>
        ((askedFor d.2 c).filter fun (f : Row GVal) =>
          ∃ p ∈ flashPlaces d.2 f, clip (foot p) (cellRect x y j i) ≠ []).map fun f => f.val.area), 0 < v := by
      intro l hl v hv
      obtain ⟨d, hd, hv⟩ := List.mem_flatMap.mp hv
      obtain ⟨f, hf, rfl⟩ := List.mem_map.mp hv
      obtain ⟨hf1, hf2⟩ := List.mem_filter.mp hf
      obtain ⟨p, hp, -⟩ := of_decide_eq_true hf2
      exact (h d (hl d hd) (events_of_place hp)).areas f (asked_mem hf1)
    have hb := b.least
    rw [List.flatMap_append] at hb
    exact leastOrZero_unique (List.Perm.refl _) hb (lesserOrOther_least
      (pos files fun d hd => List.mem_append_left _ hd) (pos files' fun d hd => List.mem_append_right _ hd)
      a.least a'.least)

/-! ## C131 -/

/-- Whatever meets one set of criteria meets the other; and if the first has no criteria, the second has none (with any
criterion at all, flashes outside of the field of view are left out). -/
structure Stricter (c c' : Criteria) : Prop where
  lon : ∀ v, Inside c.lon v → Inside c'.lon v
  lat : ∀ v, Inside c.lat v → Inside c'.lat v
  x : ∀ v, Inside c.x v → Inside c'.x v
  y : ∀ v, Inside c.y v → Inside c'.y v
  minEvents : ∀ k, AtLeast c.minEvents k → AtLeast c'.minEvents k
  minGroups : ∀ k, AtLeast c.minGroups k → AtLeast c'.minGroups k
  none : NoCriteria c → NoCriteria c'

theorem asked_stricter {c c' : Criteria} (h : Stricter c c') (d : GFile) : ∀ f ∈ askedFor d c, f ∈ askedFor d c' := by
  classical
  intro f hf
  by_cases hn : NoCriteria c'
  · unfold askedFor
    rw [if_pos hn]
    exact asked_mem hf
  have hn' : ¬ NoCriteria c := fun hc => hn (h.none hc)
  unfold askedFor at hf ⊢
  rw [if_neg hn'] at hf
  rw [if_neg hn]
  obtain ⟨h1, h2⟩ := List.mem_filter.mp hf
  obtain ⟨m, e, he, hfe, v⟩ := of_decide_eq_true h2
  exact List.mem_filter.mpr ⟨h1, decide_eq_true ⟨⟨h.lon _ m.lon, h.lat _ m.lat, h.x _ m.x, h.y _ m.y,
    h.minEvents _ m.minEvents, h.minGroups _ m.minGroups⟩, e, he, hfe, ⟨v.x, v.y, h.x _ v.xr, h.y _ v.yr⟩⟩⟩

theorem sum_nonneg_map {α : Type} (l : List α) (F : α → Rat) (h : ∀ a ∈ l, 0 ≤ F a) : 0 ≤ (l.map F).sum := by
  induction l with
  | nil => exact le_refl _
  | cons a l ih =>
    rw [List.map_cons, List.sum_cons]
    exact add_nonneg (h a List.mem_cons_self) (ih fun a ha => h a (List.mem_cons_of_mem _ ha))

theorem sum_filter_le {α : Type} (l : List α) (P Q : α → Bool) (F : α → Rat)
    (h : ∀ a ∈ l, P a = true → Q a = true) (h0 : ∀ a ∈ l, 0 ≤ F a) :
    ((l.filter P).map F).sum ≤ ((l.filter Q).map F).sum := by
  induction l with
  | nil => exact le_refl _
  | cons a l ih =>
    have ih := ih (fun a ha => h a (List.mem_cons_of_mem _ ha)) fun a ha => h0 a (List.mem_cons_of_mem _ ha)
    have ha := h0 a List.mem_cons_self
    by_cases hP : P a = true
    · rw [List.filter_cons_of_pos hP, List.filter_cons_of_pos (h a List.mem_cons_self hP),
        List.map_cons, List.map_cons, List.sum_cons, List.sum_cons]
      linarith
    · rw [List.filter_cons_of_neg hP]
      by_cases hQ : Q a = true
      · rw [List.filter_cons_of_pos hQ, List.map_cons, List.sum_cons]
        linarith
      · rw [List.filter_cons_of_neg hQ]
        exact ih

theorem sum_le_sum_map {α : Type} (l : List α) (F G : α → Rat) (h : ∀ a ∈ l, F a ≤ G a) : (l.map F).sum ≤ (l.map G).sum := by
  induction l with
  | nil => exact le_refl _
  | cons a l ih =>
    rw [List.map_cons, List.map_cons, List.sum_cons, List.sum_cons]
    exact add_le_add (h a List.mem_cons_self) (ih fun a ha => h a (List.mem_cons_of_mem _ ha))

theorem asked_filter (d : GFile) (c : Criteria) : ∃ P : Row GVal → Bool, askedFor d c = d.flashes.filter P := by
  classical
  unfold askedFor
  by_cases h : NoCriteria c
  · refine ⟨fun _ => true, ?_⟩
    rw [if_pos h, List.filter_true]
  · rw [if_neg h]
    exact ⟨_, rfl⟩

theorem areaInCell_nonneg (clip : Poly → Poly → List Poly) (x y : List Rat) (p : Poly) (i j : Nat) :
    0 ≤ areaInCell clip x y p i j := by
  exact sum_nonneg_map _ _ fun s _ => abs_nonneg _

theorem gridCellArea_pos {x y : List Rat} (hx : AxisOk x) (hy : AxisOk y) {i j : Nat} (hi : i + 1 < x.length)
    (hj : j + 1 < y.length) : 0 < gridCellArea x y i j := by
  unfold gridCellArea
  have a := getD_lt_of_lt hx.1 (i := i) (j := i + 1) (by omega) hi
  have b := getD_lt_of_lt hy.1 (i := j) (j := j + 1) (by omega) hj
  exact mul_pos (by linarith) (by linarith)

/-- **C131**.  Stricter criteria put no more into any cell: not more flashes, groups, area or energy; and where there are
still flashes, the least of their areas is not smaller. -/
theorem C131_stricter (clip : Poly → Poly → List Poly) (query : List Pt → Pt → Nat → List Nat)
    (foot : Pt → Poly) (x y : List Rat) (basedate : Int) (loc : Rat → Rat → Int)
    (order : List Int → List Int) (c c' : Criteria) (n n' : Nat) (files : List (Int × GFile))
    (points : Grid → List LmaParent → Grid) (label : String) (par : String → FakeLma → List LmaParent)
    (hx : AxisOk x) (hy : AxisOk y) (hsz : 2 < x.length ∨ 2 < y.length)
    (hclip : ∀ p q s, s ∈ clip p q → s ≠ []) (ho : ∀ l, (order l).Perm l) (hn : 0 < n) (hn' : 0 < n')
    (h : ∀ d ∈ files, d.2.events ≠ [] → FileOk clip query foot x y loc order c n d.2)
    (h' : ∀ d ∈ files, d.2.events ≠ [] → FileOk clip query foot x y loc order c' n' d.2)
    (hg : ∀ d ∈ files, ∀ g ∈ d.2.groups, 0 ≤ g.val.area) (he : ∀ d ∈ files, ∀ e ∈ d.2.events, 0 ≤ e.val.energy)
    (hs : Stricter c c') :
    ∃ grid grid' : String → Grid,
      FilesGridded clip query foot x y basedate loc order c n points label par files grid ∧
      FilesGridded clip query foot x y basedate loc order c' n' points label par files grid' ∧
      ∀ i j, i + 1 < x.length → j + 1 < y.length →
        (∀ name ∈ ["flash_extent_density", "average_flash_area", "total_energy", "group_extent_density",
          "average_group_area"], 0 ≤ (grid name).val i j ∧ (grid name).val i j ≤ (grid' name).val i j) ∧
        ((grid "minimum_flash_area").val i j ≠ 0 → 0 < (grid' "minimum_flash_area").val i j ∧
          (grid' "minimum_flash_area").val i j ≤ (grid "minimum_flash_area").val i j) := by
  classical
  obtain ⟨grid, g1, g2⟩ := files_gridded basedate points label par hx hy hsz hclip ho hn h
  obtain ⟨grid', g1', g2'⟩ := files_gridded basedate points label par hx hy hsz hclip ho hn' h'
  refine ⟨grid, grid', g1, g1', ?_⟩
  intro i j hi hj
  have a := g2 i j hi hj
  have b := g2' i j hi hj
  have cell := gridCellArea_pos hx hy hi hj
  have share : ∀ l : List Pt, 0 ≤ (l.map fun p => areaInCell clip x y (foot p) i j / gridCellArea x y i j).sum := by
    intro l
    exact sum_nonneg_map _ _ fun p _ => div_nonneg (areaInCell_nonneg _ _ _ _ _ _) cell.le
  have area : ∀ d ∈ files, ∀ f ∈ d.2.flashes, 0 ≤ f.val.area ∨ flashPlaces d.2 f = [] := by
    intro d hd f hf
    by_cases hev : d.2.events = []
    · right
      unfold flashPlaces
      rw [hev]
      rfl
    · exact Or.inl ((h d hd hev).areas f hf).le
  have flashLe : ∀ (d : Int × GFile) (F : Row GVal → Rat), (∀ f ∈ d.2.flashes, 0 ≤ F f) →
      ((askedFor d.2 c).map F).sum ≤ ((askedFor d.2 c').map F).sum := by
    intro d F hF
    obtain ⟨P, p1⟩ := asked_filter d.2 c
    obtain ⟨Q, q1⟩ := asked_filter d.2 c'
    have sub : ∀ f ∈ d.2.flashes, P f = true → Q f = true := by
      intro f hf hP
      have := asked_stricter hs d.2 f (by rw [p1]; exact List.mem_filter.mpr ⟨hf, hP⟩)
      rw [q1] at this
      exact (List.mem_filter.mp this).2
    rw [p1, q1]
    exact sum_filter_le _ P Q F sub hF
  have groupLe : ∀ (d : Int × GFile) (F : Row GVal → Rat), (∀ g ∈ d.2.groups, 0 ≤ F g) →
      ((askedGroups d.2 c).map F).sum ≤ ((askedGroups d.2 c').map F).sum := by
    intro d F hF
    unfold askedGroups
    refine sum_filter_le _ _ _ F ?_ hF
    intro g _ hgg
    obtain ⟨f, hf, hid⟩ := of_decide_eq_true hgg
    exact decide_eq_true ⟨f, asked_stricter hs d.2 f hf, hid⟩
  have eventLe : ∀ (d : Int × GFile) (F : Row GVal → Rat), (∀ g ∈ d.2.events, 0 ≤ F g) →
      ((askedEvents d.2 c).map F).sum ≤ ((askedEvents d.2 c').map F).sum := by
    intro d F hF
    unfold askedEvents
    refine sum_filter_le _ _ _ F ?_ hF
    intro g _ hgg
    obtain ⟨f, hf, hid⟩ := of_decide_eq_true hgg
    exact decide_eq_true ⟨f, asked_stricter hs d.2 f hf, hid⟩
  have faPos : ∀ d ∈ files, ∀ f ∈ d.2.flashes, 0 ≤ f.val.area *
      ((flashPlaces d.2 f).map fun p => areaInCell clip x y (foot p) i j / gridCellArea x y i j).sum := by
    intro d hd f hf
    rcases area d hd f hf with h0 | h0
    · exact mul_nonneg h0 (share _)
    · rw [h0]
      simp
  have gaPos : ∀ d ∈ files, ∀ g ∈ d.2.groups, 0 ≤ g.val.area *
      ((groupPlaces d.2 g).map fun p => areaInCell clip x y (foot p) i j / gridCellArea x y i j).sum :=
    fun d hd g hgg => mul_nonneg (hg d hd g hgg) (share _)
  have tePos : ∀ d ∈ files, ∀ e ∈ d.2.events, 0 ≤ e.val.energy *
      (areaInCell clip x y (foot (placeOf e)) i j / |signedArea (foot (placeOf e))|) :=
    fun d hd e hee => mul_nonneg (he d hd e hee) (div_nonneg (areaInCell_nonneg _ _ _ _ _ _) (abs_nonneg _))
  have gsub : ∀ (d : GFile) g, g ∈ askedGroups d c → g ∈ d.groups := by
    intro d g hgg
    unfold askedGroups at hgg
    exact (List.mem_filter.mp hgg).1
  have esub : ∀ (d : GFile) g, g ∈ askedEvents d c → g ∈ d.events := by
    intro d g hgg
    unfold askedEvents at hgg
    exact (List.mem_filter.mp hgg).1
  refine ⟨?_, ?_⟩
  · intro name hname
    simp only [List.mem_cons, List.not_mem_nil, or_false] at hname
    rcases hname with rfl | rfl | rfl | rfl | rfl
    · rw [a.flashes, b.flashes]
      exact ⟨sum_nonneg_map _ _ fun d _ => sum_nonneg_map _ _ fun f _ => share _,
        sum_le_sum_map _ _ _ fun d _ => flashLe d _ fun f _ => share _⟩
    · rw [a.flashArea, b.flashArea]
      exact ⟨sum_nonneg_map _ _ fun d hd => sum_nonneg_map _ _ fun f hf => faPos d hd f (asked_mem hf),
        sum_le_sum_map _ _ _ fun d hd => flashLe d _ fun f hf => faPos d hd f hf⟩
    · rw [a.energy, b.energy]
      exact ⟨sum_nonneg_map _ _ fun d hd => sum_nonneg_map _ _ fun f hf => tePos d hd f (esub _ f hf),
        sum_le_sum_map _ _ _ fun d hd => eventLe d _ fun f hf => tePos d hd f hf⟩
    · rw [a.groups, b.groups]
      exact ⟨sum_nonneg_map _ _ fun d _ => sum_nonneg_map _ _ fun f _ => share _,
        sum_le_sum_map _ _ _ fun d _ => groupLe d _ fun f _ => share _⟩
    · rw [a.groupArea, b.groupArea]
      exact ⟨sum_nonneg_map _ _ fun d hd => sum_nonneg_map _ _ fun f hf => gaPos d hd f (gsub _ f hf),
        sum_le_sum_map _ _ _ fun d hd => groupLe d _ fun f hf => gaPos d hd f hf⟩
  · intro hne
    by_cases hA : (files.flatMap fun (d : Int × GFile) => ((askedFor d.2 c).filter fun (f : Row GVal) =>
        ∃ p ∈ flashPlaces d.2 f, clip (foot p) (cellRect x y j i) ≠ []).map fun f => f.val.area) = []
    · exact absurd (a.least.1 hA) hne
    obtain ⟨m1, m2⟩ := a.least.2 hA
    have key : ∀ v, v ∈ (files.flatMap fun (d : Int × GFile) => ((askedFor d.2 c).filter fun (f : Row GVal) =>
        ∃ p ∈ flashPlaces d.2 f, clip (foot p) (cellRect x y j i) ≠ []).map fun f => f.val.area) →
        v ∈ (files.flatMap fun (d : Int × GFile) => ((askedFor d.2 c').filter fun (f : Row GVal) =>
        ∃ p ∈ flashPlaces d.2 f, clip (foot p) (cellRect x y j i) ≠ []).map fun f => f.val.area) := by
      intro v hv
      obtain ⟨d, hd, hv⟩ := List.mem_flatMap.mp hv
      obtain ⟨f, hf, rfl⟩ := List.mem_map.mp hv
      obtain ⟨hf1, hf2⟩ := List.mem_filter.mp hf
      exact List.mem_flatMap.mpr ⟨d, hd, List.mem_map.mpr ⟨f, List.mem_filter.mpr
        ⟨asked_stricter hs d.2 f hf1, hf2⟩, rfl⟩⟩
    have mb := key _ m1
    obtain ⟨n1, n2⟩ := b.least.2 (List.ne_nil_of_mem mb)
    refine ⟨?_, n2 _ mb⟩
    obtain ⟨d, hd, hv⟩ := List.mem_flatMap.mp n1
    obtain ⟨f, hf, hfv⟩ := List.mem_map.mp hv
    obtain ⟨hf1, hf2⟩ := List.mem_filter.mp hf
    obtain ⟨p, hp, -⟩ := of_decide_eq_true hf2
    rw [← hfv]
    exact (h d hd (events_of_place hp)).areas f (asked_mem hf1)

/-! ## C132 -/

/-- **C132**.  Wherever there is lightning, the average flash area, which is the sum of areas over the extent density, is
at least the minimum flash area and at most the area of the largest flash that is asked for. -/
theorem C132_average (clip : Poly → Poly → List Poly) (query : List Pt → Pt → Nat → List Nat)
    (foot : Pt → Poly) (x y : List Rat) (basedate : Int) (loc : Rat → Rat → Int)
    (order : List Int → List Int) (c : Criteria) (n : Nat) (files : List (Int × GFile))
    (points : Grid → List LmaParent → Grid) (label : String) (par : String → FakeLma → List LmaParent)
    (hx : AxisOk x) (hy : AxisOk y) (hsz : 2 < x.length ∨ 2 < y.length)
    (hclip : ∀ p q s, s ∈ clip p q → s ≠ []) (ho : ∀ l, (order l).Perm l) (hn : 0 < n)
    (h : ∀ d ∈ files, d.2.events ≠ [] → FileOk clip query foot x y loc order c n d.2) (largest : Rat)
    (hl : ∀ d ∈ files, ∀ f ∈ askedFor d.2 c, f.val.area ≤ largest) :
    ∃ grid : String → Grid,
      FilesGridded clip query foot x y basedate loc order c n points label par files grid ∧
      ∀ i j, i + 1 < x.length → j + 1 < y.length → 0 < (grid "flash_extent_density").val i j →
        0 < (grid "minimum_flash_area").val i j ∧
        (grid "minimum_flash_area").val i j ≤
          (grid "average_flash_area").val i j / (grid "flash_extent_density").val i j ∧
        (grid "average_flash_area").val i j / (grid "flash_extent_density").val i j ≤ largest := by
  classical
  obtain ⟨grid, g1, g2⟩ := files_gridded basedate points label par hx hy hsz hclip ho hn h
  refine ⟨grid, g1, ?_⟩
  intro i j hi hj hpos
  have a := g2 i j hi hj
  have cell := gridCellArea_pos hx hy hi hj
  have share : ∀ l : List Pt, 0 ≤ (l.map fun p => areaInCell clip x y (foot p) i j / gridCellArea x y i j).sum := by
    intro l
    exact sum_nonneg_map _ _ fun p _ => div_nonneg (areaInCell_nonneg _ _ _ _ _ _) cell.le
  have reach : ∀ (d : Int × GFile) (f : Row GVal), ((flashPlaces d.2 f).map fun p =>
      areaInCell clip x y (foot p) i j / gridCellArea x y i j).sum ≠ 0 →
      ∃ p ∈ flashPlaces d.2 f, clip (foot p) (cellRect x y j i) ≠ [] := by
    intro d f hne
    by_contra hall
    push Not at hall
    apply hne
    apply List.sum_eq_zero
    intro v hv
    obtain ⟨p, hp, rfl⟩ := List.mem_map.mp hv
    unfold areaInCell
    rw [hall p hp]
    simp
  have inList : ∀ d ∈ files, ∀ f ∈ askedFor d.2 c, ((flashPlaces d.2 f).map fun p =>
      areaInCell clip x y (foot p) i j / gridCellArea x y i j).sum ≠ 0 →
      f.val.area ∈ (files.flatMap fun (d : Int × GFile) => ((askedFor d.2 c).filter fun (f : Row GVal) =>
        ∃ p ∈ flashPlaces d.2 f, clip (foot p) (cellRect x y j i) ≠ []).map fun f => f.val.area) := by
    intro d hd f hf hne
    exact List.mem_flatMap.mpr ⟨d, hd, List.mem_map.mpr ⟨f, List.mem_filter.mpr ⟨hf, decide_eq_true (reach d f hne)⟩, rfl⟩⟩
  have some : (files.flatMap fun (d : Int × GFile) => ((askedFor d.2 c).filter fun (f : Row GVal) =>
        ∃ p ∈ flashPlaces d.2 f, clip (foot p) (cellRect x y j i) ≠ []).map fun f => f.val.area) ≠ [] := by
    intro hnil
    apply hpos.ne'
    rw [a.flashes]
    apply List.sum_eq_zero
    intro v hv
    obtain ⟨d, hd, rfl⟩ := List.mem_map.mp hv
    apply List.sum_eq_zero
    intro v hv
    obtain ⟨f, hf, rfl⟩ := List.mem_map.mp hv
    by_contra hne
    have := inList d hd f hf hne
    rw [hnil] at this
    exact absurd this List.not_mem_nil
  obtain ⟨m1, m2⟩ := a.least.2 some
  refine ⟨?_, ?_, ?_⟩
  · obtain ⟨d, hd, hv⟩ := List.mem_flatMap.mp m1
    obtain ⟨f, hf, hfv⟩ := List.mem_map.mp hv
    obtain ⟨hf1, hf2⟩ := List.mem_filter.mp hf
    obtain ⟨p, hp, -⟩ := of_decide_eq_true hf2
    rw [← hfv]
    exact (h d hd (events_of_place hp)).areas f (asked_mem hf1)
  · rw [le_div_iff₀ hpos]
    rw [a.flashes, a.flashArea, ← List.sum_map_mul_left]
    refine sum_le_sum_map _ _ _ fun d hd => ?_
    rw [← List.sum_map_mul_left]
    refine sum_le_sum_map _ _ _ fun f hf => ?_
    by_cases h0 : ((flashPlaces d.2 f).map fun p => areaInCell clip x y (foot p) i j / gridCellArea x y i j).sum = 0
    · rw [h0, mul_zero, mul_zero]
    · exact mul_le_mul_of_nonneg_right (m2 _ (inList d hd f hf h0)) (share _)
  · rw [div_le_iff₀ hpos]
    rw [a.flashes, a.flashArea, ← List.sum_map_mul_left]
    refine sum_le_sum_map _ _ _ fun d hd => ?_
    rw [← List.sum_map_mul_left]
    exact sum_le_sum_map _ _ _ fun f hf => mul_le_mul_of_nonneg_right (hl d hd f hf) (share _)

/-! ## Cases -/

/-- A grid around the domain of `tileSample`. -/
def smallAxis : List Rat := boxEdges (-1/50) (1/100) 8

/-- The sample of C129 on this grid, for any criteria and size of chunks. -/
theorem tileSample_ok (query : List Pt → Pt → Nat → List Nat) (c : Criteria) {n : Nat} (hn : 0 < n) :
    FileOk rectClip query tileFoot smallAxis smallAxis (fun x y => sampleLoc (400 * x) (400 * y)) id c n tileSample := by
  refine ⟨fileFit_rect (dx := 1/100) (dy := 1/100) query (fun l => List.Perm.refl _) hn (boxEdges_axis (by norm_num) (by decide))
    (boxEdges_axis (by norm_num) (by decide)) (Or.inl (by decide)) (boxEdges_spaced (by norm_num))
    (boxEdges_spaced (by norm_num)) (by norm_num) (by norm_num) (by norm_num) (by norm_num) ?_ (by decide +kernel) ?_ ?_ ?_
    (by decide +kernel) (by decide +kernel), ?_⟩
  · unfold HasData; decide +kernel
  · exact ⟨by decide +kernel, by decide +kernel, by decide +kernel, by decide +kernel⟩
  · unfold UniqueIds; decide +kernel
  · unfold UniqueIds; decide +kernel
  · unfold PixelExact placeOf; decide +kernel

/-- Files that meet the hypotheses of C130, two of them with lightning. -/
example : (∀ d ∈ [(7, tileSample), (8, (⟨[], [], []⟩ : GFile))] ++ [(9, tileSample)], d.2.events ≠ [] →
      FileOk rectClip (fun _ _ _ => []) tileFoot smallAxis smallAxis (fun x y => sampleLoc (400 * x) (400 * y)) id {} 1 d.2) ∧
    [((7 : Int), tileSample), (8, (⟨[], [], []⟩ : GFile)), (9, tileSample)].Perm
      [(9, tileSample), (8, ⟨[], [], []⟩), (7, tileSample)] ∧
    AxisOk smallAxis ∧ 2 < smallAxis.length := by
  refine ⟨?_, ?_, boxEdges_axis (by norm_num) (by decide), by decide⟩
  · intro d hd he
    have : d.2 = tileSample := by
      simp only [List.cons_append, List.nil_append, List.mem_cons, List.not_mem_nil, or_false] at hd
      rcases hd with rfl | rfl | rfl
      · rfl
      · exact absurd rfl he
      · rfl
    rw [this]
    exact tileSample_ok _ _ (by decide)
  · exact List.reverse_perm [((9 : Int), tileSample), (8, (⟨[], [], []⟩ : GFile)), (7, tileSample)]

/-- Criteria of which one is stricter, so that one flash of the sample is left out and one is kept; and what else C131 and
C132 ask for. -/
example : Stricter { minGroups := some 2, x := some (-1, 1) } { minGroups := some 1 } ∧
    (∃ f ∈ tileSample.flashes, f ∈ askedFor tileSample { minGroups := some 2, x := some (-1, 1) }) ∧
    (∃ f ∈ tileSample.flashes, f ∈ askedFor tileSample { minGroups := some 1 } ∧
      f ∉ askedFor tileSample { minGroups := some 2, x := some (-1, 1) }) ∧
    (∀ f ∈ askedFor tileSample {}, f.val.area ≤ 100) ∧
    (∀ g ∈ tileSample.groups, 0 ≤ g.val.area) ∧ (∀ e ∈ tileSample.events, 0 ≤ e.val.energy) := by
  classical
  have free : ∀ v, Inside none v := fun v r hr => absurd hr (by simp)
  have least : ∀ k, AtLeast none k := fun k m hm => absurd hm (by simp)
  have view : ∀ {r : Rat × Rat} {v : Rat}, r.1 < v ∧ v < r.2 → Inside (some r) v := by
    intro r v h r' hr'
    cases hr'
    exact h
  have reach : ∀ {m : Int} {k : Nat}, m ≤ k → AtLeast (some m) k := by
    intro m k h m' hm'
    cases hm'
    exact h
  have some1 : ¬ NoCriteria { minGroups := some 2, x := some (-1, 1) } := by unfold NoCriteria; decide
  have some2 : ¬ NoCriteria { minGroups := some 1 } := by unfold NoCriteria; decide
  refine ⟨⟨fun _ h => h, fun _ h => h, fun v _ => free v, fun _ h => h, fun _ h => h, ?_, fun h => absurd h some1⟩,
    ⟨tileSample.flashes[0], List.getElem_mem _, ?_⟩, ⟨tileSample.flashes[1], List.getElem_mem _, ?_, ?_⟩, ?_,
    by decide +kernel, by decide +kernel⟩
  · intro k h m hm
    cases hm
    have := h 2 rfl
    omega
  · unfold askedFor
    rw [if_neg some1]
    exact List.mem_filter.mpr ⟨List.getElem_mem _, decide_eq_true ⟨⟨free _, free _, view (by decide +kernel), free _, least _,
      reach (by decide +kernel)⟩, tileSample.events[0], List.getElem_mem _, by decide +kernel, by decide +kernel,
      by decide +kernel, view (by decide +kernel), free _⟩⟩
  · unfold askedFor
    rw [if_neg some2]
    exact List.mem_filter.mpr ⟨List.getElem_mem _, decide_eq_true ⟨⟨free _, free _, free _, free _, least _,
      reach (by decide +kernel)⟩, tileSample.events[2], List.getElem_mem _, by decide +kernel, by decide +kernel,
      by decide +kernel, free _, free _⟩⟩
  · unfold askedFor
    rw [if_neg some1]
    intro h
    have := (of_decide_eq_true (List.mem_filter.mp h).2).1.minGroups 2 rfl
    exact absurd this (by decide +kernel)
  · intro f hf
    have hall : ∀ f ∈ tileSample.flashes, f.val.area ≤ 100 := by decide +kernel
    exact hall f (asked_mem hf)

end Verif.Props
