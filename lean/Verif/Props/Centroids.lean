import Verif.Props.Pixels

/-!
# Centroid densities: C160

The two fields of an image that count flashes and groups by the place of their centroid.
-/

namespace Verif.Props

open Verif.Py Verif.Model Verif.Spec Verif.Proofs

/-! ## What a pixel should show -/

/-- The centroid of a flash or group is in the pixel whose centre is at `X`, `Y`: the western and southern edges belong to
the pixel. -/
def CentroidIn (dx dy X Y : Rat) (r : Row GVal) : Prop :=
  X - dx / 2 ≤ r.val.x ∧ r.val.x < X + dx / 2 ∧ Y - dy / 2 ≤ r.val.y ∧ r.val.y < Y + dy / 2

instance (dx dy X Y : Rat) (r : Row GVal) : Decidable (CentroidIn dx dy X Y r) := by
  unfold CentroidIn; infer_instance

/-- How many flashes (or groups) of all files have their centroid in the pixel. -/
def centroidsIn (rows : GFile → List (Row GVal)) (files : List GFile) (dx dy X Y : Rat) : Nat :=
  (files.map fun d => (rows d).countP fun r => CentroidIn dx dy X Y r).sum

/-- What is assumed of the density grids of lmatools (`np.histogramdd`): each point adds one to the cell it is in.  Nothing is
said about the last cell of an axis, which is closed. -/
def CountsPoints (points : List Rat → List Rat → Grid → List LmaParent → Grid) : Prop :=
  ∀ x y g l i j, AxisOk x → AxisOk y → i + 2 < x.length → j + 2 < y.length →
    (points x y g l).val i j = g.val i j + ((l.countP fun r => x.getD i 0 ≤ r.ctrX ∧ r.ctrX < x.getD (i + 1) 0 ∧
      y.getD j 0 ≤ r.ctrY ∧ r.ctrY < y.getD (j + 1) 0 : Nat) : Rat)

/-- Centroids are closer than the padding to an event of their flash, and groups to their flash. -/
structure CentroidsNear (px py : Rat) (d : GFile) : Prop where
  flash : ∀ f ∈ d.flashes, ∃ e ∈ d.events, EventOfFlash d f.id e ∧ |e.val.x - f.val.x| < px ∧ |e.val.y - f.val.y| < py
  group : ∀ g ∈ d.groups, ∀ f ∈ d.flashes, f.id = g.pid → |f.val.x - g.val.x| < px ∧ |f.val.y - g.val.y| < py ∧
    ∃ e ∈ d.events, EventOfFlash d f.id e ∧ |e.val.x - g.val.x| < px ∧ |e.val.y - g.val.y| < py

/-! ## What is sent -/

/-- What matters of a parent: where and when. -/
def parentKey (r : LmaParent) : Rat × Rat × Int := (r.ctrX, r.ctrY, r.start)

/-- The same of a row. -/
def rowKey (basedate : Int) (r : Row GVal) : Rat × Rat × Int := (r.val.x, r.val.y, r.val.times.getD 0 0 - basedate)

theorem parents_keys (d : GFile) (basedate : Int) (rows : List (Row GVal)) :
    (fakeLmaParents d basedate rows).map parentKey = rows.map (rowKey basedate) := by
  unfold fakeLmaParents
  rw [List.map_map]
  rfl

theorem chunk_parents {clip : Poly → Poly → List Poly} {query : List Pt → Pt → Nat → List Nat} {quads : List Pt → List Poly}
    {mesh : Mesh} {t basedate : Int} {loc : Rat → Rat → Int} {d : GFile} {fake : FakeLma}
    (h : fastFixedGridReadChunk clip query quads mesh t basedate loc d = .ok (some fake)) :
    fake.flashParents = fakeLmaParents d basedate d.flashes ∧ fake.groupParents = fakeLmaParents d basedate d.groups := by
  unfold fastFixedGridReadChunk at h
  obtain ⟨rows, -, h⟩ := bind_ok h
  obtain ⟨⟨chopped, areas⟩, -, h⟩ := bind_ok h
  obtain ⟨ma, -, h⟩ := bind_ok h
  obtain ⟨⟨_, props⟩, -, h⟩ := bind_ok h
  obtain ⟨split, -, h⟩ := bind_ok h
  unfold mimicLmaDatasetLut at h
  cases hf : fakeLmaEvents split basedate with
  | error e =>
    rw [hf] at h
    cases e <;> simp [bind, Except.bind, pure, Except.pure] at h
  | ok evs =>
    rw [hf] at h
    simp only [bind, Except.bind, pure, Except.pure] at h
    split at h
    · cases h
      exact ⟨rfl, rfl⟩
    · cases h

theorem sent_keys {clip : Poly → Poly → List Poly} {query : List Pt → Pt → Nat → List Nat} {quads : List Pt → List Poly}
    {mesh : Mesh} {basedate : Int} {loc : Rat → Rat → Int} {t : Int} {chunks : List GFile} {fakes : List FakeLma}
    (h : List.Forall₂ (fun (d : GFile) (fake : FakeLma) =>
      fastFixedGridReadChunk clip query quads mesh t basedate loc d = .ok (some fake)) chunks fakes) :
    (fakes.flatMap FakeLma.flashParents).map parentKey = (chunks.flatMap GFile.flashes).map (rowKey basedate) ∧
    (fakes.flatMap FakeLma.groupParents).map parentKey = (chunks.flatMap GFile.groups).map (rowKey basedate) := by
  induction h with
  | nil => exact ⟨rfl, rfl⟩
  | cons h _ ih =>
    obtain ⟨h1, h2⟩ := chunk_parents h
    simp only [List.flatMap_cons, List.map_append, ih.1, ih.2, h1, h2, parents_keys, and_self]

/-- What the reader sends of a file: the flashes that are asked for and their groups, each once. -/
theorem file_parents {clip : Poly → Poly → List Poly} {query : List Pt → Pt → Nat → List Nat} {foot : Pt → Poly}
    {x y : List Rat} {loc : Rat → Rat → Int} {order : List Int → List Int} (ho : ∀ l, (order l).Perm l)
    (hx : AxisOk x) (hy : AxisOk y) (hsz : 2 < x.length ∨ 2 < y.length) (hclip : ∀ p q s, s ∈ clip p q → s ≠ [])
    {c : Criteria} {n : Nat} (hn : 0 < n) {d : GFile} {t basedate : Int}
    (h : FileOk clip query foot x y loc order c n d) {fakes : List FakeLma}
    (hr : readFlashesLut clip query (fun pts => pts.map foot) (gridMesh x y) basedate loc order c n t d = .ok fakes) :
    ((fakes.flatMap FakeLma.flashParents).map parentKey).Perm ((askedFor d c).map (rowKey basedate)) ∧
    ((fakes.flatMap FakeLma.groupParents).map parentKey).Perm ((askedGroups d c).map (rowKey basedate)) := by
  classical
  obtain ⟨parts, p1, p2, p3, -⟩ := file_tables ho hn t h
  obtain ⟨fakes', hF, -⟩ := C67_grids clip query foot x y basedate loc parts (fun g _ => g) "" (fun _ _ => []) hx hy hsz hclip p3
  obtain rfl := Except.ok.inj (hr.symm.trans (readFlashesLut_of p1 p2 hF))
  have hF' : List.Forall₂ (fun (d : GFile) (fake : FakeLma) =>
      fastFixedGridReadChunk clip query (fun pts => pts.map foot) (gridMesh x y) t basedate loc d = .ok (some fake))
      (parts.map fun p => p.1.2) fakes := by
    rw [List.forall₂_map_left_iff]
    refine List.Forall₂.imp ?_ ((List.forall₂_and_left _ _).mpr ⟨fun p hp => p2 p hp, hF⟩)
    rintro p fake ⟨hp1, hp2⟩
    rw [← hp1]
    exact hp2
  obtain ⟨k1, k2⟩ := sent_keys hF'
  rw [k1, k2]
  obtain ⟨ids, hnd, hs, hp, -, hr', -⟩ := readFlashes_ids ho c (n := n) h.hasData h.derived h.flashes h.groups
  obtain ⟨chunks, hr'', hperm, -⟩ := C20_chunks ho c hn h.hasData h.derived h.flashes h.groups
  obtain rfl := Except.ok.inj (p1.symm.trans hr'')
  refine ⟨hperm.map _, List.Perm.map _ ?_⟩
  set cs : List (List Int) := if ids = [] then [] else arraySplit ids (max (ids.length / n) 1) with hcs
  have hchunks : (if ids = [] then [] else (arraySplit ids (max (ids.length / n) 1)).map (keptFlashes d)) =
      cs.map (keptFlashes d) := by
    rw [hcs]; split <;> rfl
  rw [hchunks] at hr'
  have hk0 : 0 < max (ids.length / n) 1 := by omega
  have hfl : cs.flatten = ids := by
    rw [hcs]; split
    · rename_i h0; rw [h0]; rfl
    · exact arraySplit_flatten ids hk0
  rw [Except.ok.inj (hr''.symm.trans hr')]
  have := (kept_concat d cs).2.1
  rw [hfl] at this
  rw [show ((cs.map (keptFlashes d)).flatMap GFile.groups) = (keptFlashes d ids).groups from this]
  refine (childrenInOrder_perm hnd _).trans (List.Perm.of_eq ?_)
  unfold askedGroups
  apply List.filter_congr
  intro g _
  rw [decide_eq_decide, hp.mem_iff, List.mem_map]

theorem asked_none {d : GFile} {c : Criteria} (hc : ¬ NoCriteria c) (he : d.events = []) :
    askedFor d c = [] ∧ askedGroups d c = [] := by
  classical
  have h : askedFor d c = [] := by
    unfold askedFor
    rw [if_neg hc, List.filter_eq_nil_iff]
    intro f _ hf
    obtain ⟨-, e, hee, -⟩ := of_decide_eq_true hf
    rw [he] at hee
    exact absurd hee (List.not_mem_nil)
  refine ⟨h, ?_⟩
  unfold askedGroups
  rw [h, List.filter_eq_nil_iff]
  intro g _ hg
  obtain ⟨f, hf, -⟩ := of_decide_eq_true hg
  exact absurd hf (List.not_mem_nil)

/-- The same for all files of a call. -/
theorem files_parents {clip : Poly → Poly → List Poly} {query : List Pt → Pt → Nat → List Nat} {foot : Pt → Poly}
    {x y : List Rat} {loc : Rat → Rat → Int} {order : List Int → List Int} (ho : ∀ l, (order l).Perm l)
    (hx : AxisOk x) (hy : AxisOk y) (hsz : 2 < x.length ∨ 2 < y.length) (hclip : ∀ p q s, s ∈ clip p q → s ≠ [])
    {c : Criteria} (hc : ¬ NoCriteria c) {n : Nat} (hn : 0 < n) {basedate : Int} {files : List (Int × GFile)}
    (h : ∀ d ∈ files, d.2.events ≠ [] → FileOk clip query foot x y loc order c n d.2) {fakes : List FakeLma}
    (hr : readFiles clip query (fun pts => pts.map foot) (gridMesh x y) basedate loc order c n files = .ok fakes) :
    ((fakes.flatMap FakeLma.flashParents).map parentKey).Perm
      (files.flatMap fun d => (askedFor d.2 c).map (rowKey basedate)) ∧
    ((fakes.flatMap FakeLma.groupParents).map parentKey).Perm
      (files.flatMap fun d => (askedGroups d.2 c).map (rowKey basedate)) := by
  obtain ⟨sent, hs, rfl⟩ : ∃ sent, files.mapM (fun f => if f.2.events.length > 0 then
      readFlashesLut clip query (fun pts => pts.map foot) (gridMesh x y) basedate loc order c n f.1 f.2 else pure []) =
        Except.ok sent ∧ fakes = sent.flatten := by
    unfold readFiles at hr
    obtain ⟨sent, hs, hr⟩ := bind_ok hr
    exact ⟨sent, hs, (Except.ok.inj hr).symm⟩
  clear hr
  have hall := mapM_ok_forall₂ hs
  clear hs
  induction hall with
  | nil => exact ⟨List.Perm.refl _, List.Perm.refl _⟩
  | @cons d l files sent h1 _ ih =>
    obtain ⟨i1, i2⟩ := ih fun d' hd' => h d' (List.mem_cons_of_mem _ hd')
    rw [List.flatten_cons, List.flatMap_append, List.flatMap_append, List.map_append, List.map_append, List.flatMap_cons,
      List.flatMap_cons]
    by_cases he : d.2.events = []
    · rw [if_neg (by rw [he]; simp)] at h1
      cases h1
      rw [(asked_none hc he).1, (asked_none hc he).2]
      exact ⟨i1, i2⟩
    · rw [if_pos (List.length_pos_iff.mpr he)] at h1
      obtain ⟨j1, j2⟩ := file_parents ho hx hy hsz hclip hn (h d List.mem_cons_self he) h1
      exact ⟨j1.append i1, j2.append i2⟩

/-! ## From what is sent to the pixels -/

theorem points_sum {points : List Rat → List Rat → Grid → List LmaParent → Grid} (hp : CountsPoints points) {x y : List Rat}
    (hx : AxisOk x) (hy : AxisOk y) {i j : Nat} (hi : i + 2 < x.length) (hj : j + 2 < y.length) (ls : List (List LmaParent))
    (g : Grid) : (ls.foldl (points x y) g).val i j = g.val i j + ((ls.flatten.countP fun r =>
      x.getD i 0 ≤ r.ctrX ∧ r.ctrX < x.getD (i + 1) 0 ∧ y.getD j 0 ≤ r.ctrY ∧ r.ctrY < y.getD (j + 1) 0 : Nat) : Rat) := by
  induction ls generalizing g with
  | nil => simp
  | cons l ls ih =>
    rw [List.foldl_cons, ih, hp x y g l i j hx hy hi hj, List.flatten_cons, List.countP_append]
    push_cast
    ring

theorem count_step (sc : Bool) (n : Nat) : atLeastStep sc 1 (n : Rat) = n := by
  unfold atLeastStep
  split
  · rename_i h
    exfalso
    have h2 : 0 < n := by exact_mod_cast h.2.1
    have h3 : n < 1 := by exact_mod_cast h.2.2
    omega
  · rfl

/-- The counts of the files, from what is asked for. -/
theorem asked_count {me mg : Option Int} {xlo ylo dx dy : Rat} (hdx : 0 < dx) (hdy : 0 < dy) {a b c d p q m n : Nat}
    (hm : a ≤ m ∧ m < b) (hn : c ≤ n ∧ n < d) {g : GFile} (hv : ∀ e ∈ g.events, |e.val.x| < 1349 / 10000 ∧ |e.val.y| < 1349 / 10000)
    (hc : CentroidsNear (p * dx) (q * dy) g) {X Y : Rat} (hX : X = xlo + (m + 1/2) * dx) (hY : Y = ylo + (n + 1/2) * dy)
    {t : Tile} (tx : t.xBnd = (xlo + a * dx - p * dx, xlo + b * dx + p * dx))
    (ty : t.yBnd = (ylo + c * dy - q * dy, ylo + d * dy + q * dy)) (K : Row GVal → Bool) :
    (((askedFor g { x := some t.xBnd, y := some t.yBnd, minEvents := me, minGroups := mg }).filter K).countP fun r =>
        CentroidIn dx dy X Y r) = ((countedFlashes me mg g).filter K).countP (fun r => CentroidIn dx dy X Y r) ∧
    (((askedGroups g { x := some t.xBnd, y := some t.yBnd, minEvents := me, minGroups := mg }).filter K).countP fun r =>
        CentroidIn dx dy X Y r) = ((countedGroups me mg g).filter K).countP (fun r => CentroidIn dx dy X Y r) := by
  classical
  have hnc : ¬ NoCriteria { x := some t.xBnd, y := some t.yBnd, minEvents := me, minGroups := mg } := by
    intro h
    exact absurd h.2.2.1 (by simp)
  have near : ∀ {lo dl v w z : Rat} {a b P r : Nat}, 0 < dl → a ≤ r ∧ r < b → v = lo + (r + 1/2) * dl →
      v - dl / 2 ≤ w → w < v + dl / 2 → |z - w| < P * dl → lo + a * dl - P * dl < z ∧ z < lo + b * dl + P * dl := by
    intro lo dl v w z a b P r hd hr hv h1 h2 hz
    have h3 : ((r + 1 : Nat) : Rat) ≤ b := by exact_mod_cast hr.2
    have h4 : (a : Rat) ≤ r := by exact_mod_cast hr.1
    have h5 := mul_le_mul_of_nonneg_right h3 hd.le
    have h6 := mul_le_mul_of_nonneg_right h4 hd.le
    push_cast at h5
    constructor
    · linarith [(abs_lt.mp hz).1]
    · linarith [(abs_lt.mp hz).2]
  -- a flash is asked for if it and one of its events are near a centroid in the pixel
  have asked : ∀ f ∈ g.flashes, AtLeast me f.val.nEvents ∧ AtLeast mg f.val.nGroups → ∀ r : Row GVal, CentroidIn dx dy X Y r →
      |f.val.x - r.val.x| < p * dx → |f.val.y - r.val.y| < q * dy →
      (∃ e ∈ g.events, EventOfFlash g f.id e ∧ |e.val.x - r.val.x| < p * dx ∧ |e.val.y - r.val.y| < q * dy) →
      f ∈ askedFor g { x := some t.xBnd, y := some t.yBnd, minEvents := me, minGroups := mg } := by
    rintro f hf hcount r ⟨r1, r2, r3, r4⟩ hfx hfy ⟨e, he, hfe, hex, hey⟩
    unfold askedFor
    rw [if_neg hnc]
    have V := hv e he
    refine List.mem_filter.mpr ⟨hf, decide_eq_true ⟨⟨?_, ?_, ?_, ?_, hcount.1, hcount.2⟩, e, he, hfe,
      ⟨abs_lt.mp V.1, abs_lt.mp V.2, ?_, ?_⟩⟩⟩
    · rintro r hr
      cases hr
    · rintro r hr
      cases hr
    · rintro r hr
      cases hr
      rw [tx]
      exact near hdx hm hX r1 r2 hfx
    · rintro r hr
      cases hr
      rw [ty]
      exact near hdy hn hY r3 r4 hfy
    · rintro r hr
      cases hr
      rw [tx]
      exact near hdx hm hX r1 r2 hex
    · rintro r hr
      cases hr
      rw [ty]
      exact near hdy hn hY r3 r4 hey
  have back : ∀ f ∈ askedFor g { x := some t.xBnd, y := some t.yBnd, minEvents := me, minGroups := mg },
      f ∈ countedFlashes me mg g := by
    intro f hf
    unfold askedFor at hf
    rw [if_neg hnc] at hf
    obtain ⟨h1, h2⟩ := List.mem_filter.mp hf
    obtain ⟨hm, -⟩ := of_decide_eq_true h2
    exact List.mem_filter.mpr ⟨h1, decide_eq_true ⟨hm.minEvents, hm.minGroups⟩⟩
  constructor
  · have hask : ∀ f ∈ g.flashes, CentroidIn dx dy X Y f →
        (f ∈ askedFor g { x := some t.xBnd, y := some t.yBnd, minEvents := me, minGroups := mg } ↔
          f ∈ countedFlashes me mg g) := by
      intro f hf hin
      refine ⟨back f, fun h => ?_⟩
      have pos : ∀ {z P dl : Rat}, |z| < P * dl → |(0 : Rat)| < P * dl := fun h => by
        rw [abs_zero]; exact lt_of_le_of_lt (abs_nonneg _) h
      obtain ⟨e, he, hfe, hex, hey⟩ := hc.flash f hf
      exact asked f hf (of_decide_eq_true (List.mem_filter.mp h).2) f hin (by rw [sub_self]; exact pos hex)
        (by rw [sub_self]; exact pos hey) ⟨e, he, hfe, hex, hey⟩
    unfold askedFor countedFlashes at hask ⊢
    rw [if_neg hnc] at hask ⊢
    rw [List.countP_filter, List.countP_filter, List.countP_filter, List.countP_filter]
    refine List.countP_congr fun f hf => ?_
    have := hask f hf
    simp only [List.mem_filter, hf, true_and, decide_eq_true_eq] at this
    simp only [Bool.and_eq_true, decide_eq_true_eq]
    exact and_congr_right fun h => this h.1
  · unfold askedGroups countedGroups
    rw [List.countP_filter, List.countP_filter, List.countP_filter, List.countP_filter]
    refine List.countP_congr fun r hr => ?_
    simp only [Bool.and_eq_true, decide_eq_true_eq]
    refine and_congr_right fun ⟨hin, _⟩ => ⟨?_, ?_⟩
    · rintro ⟨f, hf, hfr⟩
      exact ⟨f, back f hf, hfr⟩
    · rintro ⟨f, hf, hfr⟩
      obtain ⟨hf1, hf2⟩ := List.mem_filter.mp hf
      obtain ⟨n1, n2, n3⟩ := hc.group r hr f hf1 hfr
      exact ⟨f, asked f hf1 (of_decide_eq_true hf2) r hin n1 n2 n3, hfr⟩

/-- The two centroid grids of a frame are filled with the parents of their own pipeline. -/
theorem frame_centroids {points : Grid → List LmaParent → Grid} {nx ny : Nat} {outgrids : List (String × Accum)}
    {frames : String → List (List LmaEvent × List LmaParent)} {grids : List Grid} (h1 : lutPipelineSetup = .ok outgrids)
    (h2 : gridFrame points nx ny outgrids frames = .ok grids) :
    ∃ g0 g2 g3 g4 g6 g7, grids = [g0, ((frames "flash").map Prod.snd).foldl points (Grid.zeros nx ny), g2, g3, g4,
      ((frames "group").map Prod.snd).foldl points (Grid.zeros nx ny), g6, g7] := by
  have pts : ∀ (fs : List (List LmaEvent × List LmaParent)) (g : Grid),
      fs.foldlM (Accum.points.receive points) g = .ok ((fs.map Prod.snd).foldl points g) := by
    intro fs
    induction fs with
    | nil => intro g; rfl
    | cons f fs ih => intro g; rw [List.foldlM_cons]; exact ih _
  obtain ⟨a0, a2, a3, a4, a6, a7, rfl⟩ : ∃ a0 a2 a3 a4 a6 a7, outgrids =
      [a0, ("flash", .points), a2, a3, a4, ("group", .points), a6, a7] :=
    ⟨_, _, _, _, _, _, (Except.ok.inj h1).symm⟩
  have h := mapM_ok_forall₂ (show _ = _ from h2)
  cases h with | cons _ h => cases h with | cons e1 h => cases h with | cons _ h => cases h with | cons _ h =>
  cases h with | cons _ h => cases h with | cons e5 h => cases h with | cons _ h => cases h with | cons _ h =>
  cases h
  simp only [pts, Except.ok.injEq] at e1 e5
  subst e1 e5
  exact ⟨_, _, _, _, _, _, rfl⟩

/-- The centroid fields of the image file of a tile. -/
theorem lut_centroids {env : Surroundings} {x y : List Rat} {sent : List FakeLma} {out : Dict} {scale : Val} {pads : Pads}
    {w h p q : Nat} {px py : Rat} (hp : pads = ⟨p, q, px, py⟩) (ex : x.length = w + 2 * p + 1) (ey : y.length = h + 2 * q + 1)
    {f : ImageFile} (hi : lutImages env ⟨x, y, sent⟩ out (.slices (getPadSlices pads).1 (getPadSlices pads).2) scale =
      .ok [f]) {row col : Nat} (hrow : row < h) (hcol : col < w) {name : String} {img : Image} (him : (name, img) ∈ f.fields) :
    (name = "flash_centroid_density" → img.val row col = atLeastStep (scale != .bool false) 1
      (((sent.map fun f => env.keep f.flashParents).foldl (env.points x y) (Grid.zeros (x.length - 1) (y.length - 1))).val
        (p + col) (q + h - 1 - row))) ∧
    (name = "group_centroid_density" → img.val row col = atLeastStep (scale != .bool false) 1
      (((sent.map fun f => env.keep f.groupParents).foldl (env.points x y) (Grid.zeros (x.length - 1) (y.length - 1))).val
        (p + col) (q + h - 1 - row))) := by
  unfold lutImages at hi
  obtain ⟨outgrids, h1, hi⟩ := bind_ok hi
  simp only at hi
  obtain ⟨grids, h2, hi⟩ := bind_ok hi
  obtain ⟨⟨files, g'⟩, hwr, hi⟩ := bind_ok hi
  simp only [pure, Except.pure, Except.ok.injEq] at hi
  subst hi
  obtain ⟨g0, g2, g3, g4, g6, g7, rfl⟩ := frame_centroids h1 h2
  rw [show Val.asPad (.slices (getPadSlices pads).1 (getPadSlices pads).2) = some (getPadSlices pads) from rfl] at hwr
  simp only [List.map_map, Function.comp_def, FakeLma.parentsFor, if_true,
    show ("group" = "flash") = False from eq_false (by decide), if_false] at hwr
  have hw : ∀ fields, written ⟨x.length - 1, y.length - 1, 1, fields⟩ (some (getPadSlices pads)) =
      ((p, w + p), (q, h + q)) := by
    intro fields
    unfold written
    simp only
    rw [show x.length - 1 = w + 2 * p by omega, show y.length - 1 = h + 2 * q by omega, hp]
    unfold getPadSlices
    simp only [Option.getD_some, padSlice_bounds]
  have hpx := lut_pixels (s := _) (g := _) (fed := fun i j _ => g0.val i j) (flashArea := fun i j _ => g2.val i j)
    (energy := fun i j _ => g3.val i j) (ged := fun i j _ => g4.val i j) (groupArea := fun i j _ => g6.val i j)
    (minArea := fun i j _ => g7.val i j) ⟨⟨env.label, rfl⟩, ⟨env.label, rfl⟩, rfl⟩ hwr (k := 0) (f := f) rfl him (r := row)
    (c := col) (by rw [hw]; simp only; omega) (by rw [hw]; simp only; omega) (a := p + col) (b := q + h - 1 - row)
    (by rw [hw]) (by rw [hw]; simp only; omega)
  simp only [List.mem_cons, Prod.mk.injEq, List.not_mem_nil, or_false] at hpx
  constructor <;> (rintro rfl; simpa using hpx)

theorem count_flatMap {α β γ : Type} (l : List α) (f : α → List β) (key : β → γ) (P : γ → Bool) :
    (l.flatMap fun a => (f a).map key).countP P = (l.map fun a => (f a).countP fun b => P (key b)).sum := by
  induction l with
  | nil => rfl
  | cons a l ih => rw [List.flatMap_cons, List.countP_append, ih, List.map_cons, List.sum_cons, List.countP_map]; rfl

/-- The rows whose time, after the base date, is wanted. -/
def wanted (basedate : Int) (K : Int → Bool) (rows : List (Row GVal)) : List (Row GVal) :=
  rows.filter fun r => K (r.val.times.getD 0 0 - basedate)

/-- What a tile counts. -/
theorem tile_counts {env : Surroundings} {xlo ylo dx dy : Rat} (hdx : 0 < dx) (hdy : 0 < dy) (he : MakesEdges env.edges)
    {a b c d p q : Nat} (hab : a + 2 ≤ b) (hcd : c + 1 ≤ d) (hp2 : 2 ≤ p) (hq2 : 2 ≤ q) {t : Tile}
    (tx : t.xBnd = (xlo + a * dx - p * dx, xlo + b * dx + p * dx))
    (ty : t.yBnd = (ylo + c * dy - q * dy, ylo + d * dy + q * dy))
    (me mg : Option Int) {files : List GFile} (hclip : ∀ p q s, s ∈ env.clip p q → s ≠ []) (ho : ∀ l, (env.order l).Perm l)
    (hf : ∀ g ∈ files, g.events ≠ [] → CompactFile env.foot env.loc dx dy (p * dx) (q * dy) g)
    (hcen : ∀ g ∈ files, ∀ e ∈ g.events, CentredAt env.clip env.foot dx dy (placeOf e))
    (hpts : CountsPoints env.points) (hnear : ∀ g ∈ files, CentroidsNear (p * dx) (q * dy) g)
    {fakes : List FakeLma} (hread : readFiles env.clip env.query (fun pts => pts.map env.foot)
      (gridMesh (env.edges t.xBnd dx) (env.edges t.yBnd dy)) env.basedate env.loc env.order
      { x := some t.xBnd, y := some t.yBnd, minEvents := me, minGroups := mg } 20000
      (files.map fun g => (env.productTime g, g)) = .ok fakes) {keep : List LmaParent → List LmaParent} {K : Int → Bool}
    (hkeep : ∀ l, (keep l).Perm (l.filter fun r => K r.start)) {row col : Nat} {X Y : Rat}
    (hX : (boxCentres xlo dx a b)[col]? = some X) (hY : (boxCentres ylo dy c d).reverse[row]? = some Y) :
    row < d - c ∧ col < b - a ∧
    ((fakes.map fun f => keep f.flashParents).foldl (env.points (env.edges t.xBnd dx) (env.edges t.yBnd dy))
      (Grid.zeros ((env.edges t.xBnd dx).length - 1) ((env.edges t.yBnd dy).length - 1))).val (p + col) (q + (d - c) - 1 - row) =
        (centroidsIn (fun g => wanted env.basedate K (countedFlashes me mg g)) files dx dy X Y : Rat) ∧
    ((fakes.map fun f => keep f.groupParents).foldl (env.points (env.edges t.xBnd dx) (env.edges t.yBnd dy))
      (Grid.zeros ((env.edges t.xBnd dx).length - 1) ((env.edges t.yBnd dy).length - 1))).val (p + col) (q + (d - c) - 1 - row) =
        (centroidsIn (fun g => wanted env.basedate K (countedGroups me mg g)) files dx dy X Y : Rat) := by
  classical
  have ext : env.edges t.xBnd dx = boxEdges (xlo + a * dx - p * dx) dx (b - a + 2 * p) := by
    rw [tx, padded_edges he hdx (by omega)]
  have eyt : env.edges t.yBnd dy = boxEdges (ylo + c * dy - q * dy) dy (d - c + 2 * q) := by
    rw [ty, padded_edges he hdy (by omega)]
  have hax : AxisOk (env.edges t.xBnd dx) := by rw [ext]; exact boxEdges_axis hdx (by omega)
  have hay : AxisOk (env.edges t.yBnd dy) := by rw [eyt]; exact boxEdges_axis hdy (by omega)
  have hsz : 2 < (env.edges t.xBnd dx).length := by rw [ext, boxEdges_length]; omega
  have ux : Spaced (env.edges t.xBnd dx) dx := by rw [ext]; exact boxEdges_spaced hdx
  have uy : Spaced (env.edges t.yBnd dy) dy := by rw [eyt]; exact boxEdges_spaced hdy
  have x0 : (env.edges t.xBnd dx).getD 0 0 = t.xBnd.1 := by
    rw [ext, boxEdges_getD _ _ (by omega), tx]
    push_cast
    ring
  have y0 : (env.edges t.yBnd dy).getD 0 0 = t.yBnd.1 := by
    rw [eyt, boxEdges_getD _ _ (by omega), ty]
    push_cast
    ring
  have x1 : (env.edges t.xBnd dx).getD ((env.edges t.xBnd dx).length - 1) 0 = t.xBnd.2 := by
    rw [ext, boxEdges_length, boxEdges_getD _ _ (by omega), tx]
    rw [show b - a + 2 * p + 1 - 1 = b - a + 2 * p by omega]
    push_cast [Nat.cast_sub (show a ≤ b by omega)]
    ring
  have y1 : (env.edges t.yBnd dy).getD ((env.edges t.yBnd dy).length - 1) 0 = t.yBnd.2 := by
    rw [eyt, boxEdges_length, boxEdges_getD _ _ (by omega), ty]
    rw [show d - c + 2 * q + 1 - 1 = d - c + 2 * q by omega]
    push_cast [Nat.cast_sub (show c ≤ d by omega)]
    ring
  have hnc : ¬ NoCriteria { x := some t.xBnd, y := some t.yBnd, minEvents := me, minGroups := mg } := by
    intro h
    exact absurd h.2.2.1 (by simp)
  rw [← readFiles_found] at hread
  obtain ⟨k1, k2⟩ := files_parents ho hax hay (Or.inl hsz) (by
      intro p q s hs
      unfold foundClip at hs
      split at hs
      · exact hclip p q s hs
      · exact absurd hs (List.not_mem_nil)) hnc (by omega) (by
      intro g hg hne
      obtain ⟨g, hg', rfl⟩ := List.mem_map.mp hg
      have h := hf g hg' hne
      exact
        { hasData := h.hasData
          consistent := h.consistent
          derived := h.derived
          flashes := h.flashes
          groups := h.groups
          areas := h.areas
          pixels := h.pixels
          polygons := fun e he => ⟨(h.polygons e he).1, (h.polygons e he).2,
            search_found env.clip env.query hax hay (Or.inl hsz) (h.polygons e he).1⟩
          onGrid := fun chunks hc ch hch => by
            obtain ⟨e, he, hcov⟩ := chunks_on_grid (query := env.query) (rest := { minEvents := me, minGroups := mg }) ho
              (by omega) hax hay hsz ux uy x0 x1 y0 y1 h (fun e hee => hcen g hg' e hee) chunks hc ch hch
            exact ⟨e, he, by rwa [covered_found]⟩ }) hread
  -- the pixel
  obtain ⟨hcol, hX⟩ := boxCentres_get hX
  have hrow : row < d - c := by
    obtain ⟨hr, -⟩ := List.getElem?_eq_some_iff.mp hY
    rwa [List.length_reverse, boxCentres_length] at hr
  rw [List.getElem?_reverse (by rw [boxCentres_length]; exact hrow), boxCentres_length] at hY
  obtain ⟨-, hY⟩ := boxCentres_get hY
  obtain ⟨k, hk⟩ : ∃ k, k = d - c - 1 - row := ⟨_, rfl⟩
  rw [← hk] at hY
  have gx : ∀ i, i ≤ b - a + 2 * p → (env.edges t.xBnd dx).getD i 0 = xlo + a * dx - p * dx + i * dx := by
    intro i hi
    rw [ext, boxEdges_getD _ _ (by omega)]
  have gy : ∀ i, i ≤ d - c + 2 * q → (env.edges t.yBnd dy).getD i 0 = ylo + c * dy - q * dy + i * dy := by
    intro i hi
    rw [eyt, boxEdges_getD _ _ (by omega)]
  have e1 : (env.edges t.xBnd dx).getD (p + col) 0 = X - dx / 2 := by
    rw [gx _ (by omega), hX]; push_cast; ring
  have e2 : (env.edges t.xBnd dx).getD (p + col + 1) 0 = X + dx / 2 := by
    rw [gx _ (by omega), hX]; push_cast; ring
  have e3 : (env.edges t.yBnd dy).getD (q + (d - c) - 1 - row) 0 = Y - dy / 2 := by
    rw [show q + (d - c) - 1 - row = q + k by omega, gy _ (by omega), hY]; push_cast; ring
  have e4 : (env.edges t.yBnd dy).getD (q + (d - c) - 1 - row + 1) 0 = Y + dy / 2 := by
    rw [show q + (d - c) - 1 - row + 1 = q + k + 1 by omega, gy _ (by omega), hY]; push_cast; ring
  have total : ∀ (par : FakeLma → List LmaParent) (asked counted : GFile → List (Row GVal)),
      ((fakes.flatMap par).map parentKey).Perm
        ((files.map fun g => (env.productTime g, g)).flatMap fun d => (asked d.2).map (rowKey env.basedate)) →
      (∀ g ∈ files, (((asked g).filter fun r => K (r.val.times.getD 0 0 - env.basedate)).countP fun r =>
        CentroidIn dx dy X Y r) = ((counted g).filter fun r => K (r.val.times.getD 0 0 - env.basedate)).countP fun r =>
          CentroidIn dx dy X Y r) →
      ((fakes.map fun f => keep (par f)).foldl
        (env.points (env.edges t.xBnd dx) (env.edges t.yBnd dy))
        (Grid.zeros ((env.edges t.xBnd dx).length - 1) ((env.edges t.yBnd dy).length - 1))).val (p + col)
          (q + (d - c) - 1 - row) =
        (centroidsIn (fun g => wanted env.basedate K (counted g)) files dx dy X Y : Rat) := by
    intro par asked counted hperm hcount
    rw [points_sum hpts hax hay (by rw [ext, boxEdges_length]; omega) (by rw [eyt, boxEdges_length]; omega), e1, e2, e3, e4]
    simp only [Grid.zeros, zero_add]
    rw [Nat.cast_inj]
    have h0 : (fakes.map fun f => keep (par f)).flatten.Perm ((fakes.flatMap par).filter fun r => K r.start) := by
      rw [← List.flatMap_def, List.filter_flatMap]
      exact List.Perm.flatMap_left _ fun f _ => hkeep _
    have h1 : (((fakes.flatMap par).filter fun r => K r.start).countP fun r => decide (X - dx / 2 ≤ r.ctrX ∧
        r.ctrX < X + dx / 2 ∧ Y - dy / 2 ≤ r.ctrY ∧ r.ctrY < Y + dy / 2)) = ((fakes.flatMap par).map parentKey).countP fun k =>
          decide (X - dx / 2 ≤ k.1 ∧ k.1 < X + dx / 2 ∧ Y - dy / 2 ≤ k.2.1 ∧ k.2.1 < Y + dy / 2) && K k.2.2 := by
      rw [List.countP_map, List.countP_filter]
      rfl
    rw [h0.countP_eq, h1, hperm.countP_eq, count_flatMap, List.map_map]
    unfold centroidsIn wanted
    congr 1
    refine List.map_congr_left fun g hg => ?_
    rw [← hcount g hg, List.countP_filter]
    rfl
  have ask : ∀ g ∈ files, _ := fun g hg => asked_count (me := me) (mg := mg) hdx hdy (m := a + col) (n := c + k)
    ⟨by omega, by omega⟩ ⟨by omega, by omega⟩ (by
      intro e hee
      exact (hf g hg (List.ne_nil_of_mem hee)).view e hee) (hnear g hg) hX hY tx ty
      fun r => K (r.val.times.getD 0 0 - env.basedate)
  exact ⟨hrow, by omega, total _ _ _ k1 fun g hg => (ask g hg).1, total _ _ _ k2 fun g hg => (ask g hg).2⟩

/-- The centroid fields of the image of a tile show what is there. -/
theorem tile_centroids {env : Surroundings} {xlo ylo dx dy : Rat} (hdx : 0 < dx) (hdy : 0 < dy) (he : MakesEdges env.edges)
    {a b c d p q : Nat} (hab : a + 2 ≤ b) (hcd : c + 1 ≤ d) (hp2 : 2 ≤ p) (hq2 : 2 ≤ q) {t : Tile}
    (tx : t.xBnd = (xlo + a * dx - p * dx, xlo + b * dx + p * dx))
    (ty : t.yBnd = (ylo + c * dy - q * dy, ylo + d * dy + q * dy)) (tp : t.pads = ⟨p, q, p * dx, q * dy⟩)
    (me mg : Option Int) {files : List GFile} (hclip : ∀ p q s, s ∈ env.clip p q → s ≠ []) (ho : ∀ l, (env.order l).Perm l)
    (hf : ∀ g ∈ files, g.events ≠ [] → CompactFile env.foot env.loc dx dy (p * dx) (q * dy) g)
    (hcen : ∀ g ∈ files, ∀ e ∈ g.events, CentredAt env.clip env.foot dx dy (placeOf e))
    (hpts : CountsPoints env.points) (hkeep : ∀ l, env.keep l = l) (hnear : ∀ g ∈ files, CentroidsNear (p * dx) (q * dy) g)
    {fakes : List FakeLma} (hread : readFiles env.clip env.query (fun pts => pts.map env.foot)
      (gridMesh (env.edges t.xBnd dx) (env.edges t.yBnd dy)) env.basedate env.loc env.order
      { x := some t.xBnd, y := some t.yBnd, minEvents := me, minGroups := mg } 20000
      (files.map fun g => (env.productTime g, g)) = .ok fakes) {out : Dict} {scale : Val} {f : ImageFile}
    (hi : lutImages env ⟨env.edges t.xBnd dx, env.edges t.yBnd dy, fakes⟩ out
      (.slices (getPadSlices t.pads).1 (getPadSlices t.pads).2) scale = .ok [f])
    (hfx : f.x = boxCentres xlo dx a b) (hfy : f.y = (boxCentres ylo dy c d).reverse) {row col : Nat} {X Y : Rat}
    (hX : f.x[col]? = some X) (hY : f.y[row]? = some Y) {img : Image} :
    (("flash_centroid_density", img) ∈ f.fields → img.val row col = (centroidsIn (countedFlashes me mg) files dx dy X Y : Rat)) ∧
    (("group_centroid_density", img) ∈ f.fields → img.val row col = (centroidsIn (countedGroups me mg) files dx dy X Y : Rat)) := by
  have hall : ∀ rows, wanted env.basedate (fun _ => true) rows = rows := fun rows => List.filter_true rows
  rw [hfx] at hX
  rw [hfy] at hY
  obtain ⟨hrow, hcol, c1, c2⟩ := tile_counts hdx hdy he hab hcd hp2 hq2 tx ty me mg hclip ho hf hcen hpts hnear hread
    (keep := env.keep) (K := fun _ => true) (fun l => by rw [hkeep, List.filter_true]) hX hY
  simp only [hall] at c1 c2
  have ex : (env.edges t.xBnd dx).length = b - a + 2 * p + 1 := by
    rw [tx, padded_edges he hdx (by omega), boxEdges_length]
  have ey : (env.edges t.yBnd dy).length = d - c + 2 * q + 1 := by
    rw [ty, padded_edges he hdy (by omega), boxEdges_length]
  constructor
  · intro him
    rw [(lut_centroids tp (w := b - a) (h := d - c) ex ey hi hrow hcol him).1 rfl, c1, count_step]
  · intro him
    rw [(lut_centroids tp (w := b - a) (h := d - c) ex ey hi hrow hcol him).2 rfl, c2, count_step]

/-! ## C160 -/

/-- What is assumed for the centroid densities, beside that of C137: the density grids of lmatools count points, all parents
are in the frame of the call, and centroids are closer than the padding to what they are the centroid of. -/
structure CentroidCall (env : Surroundings) (dx dy : Rat) (opened : List GFile) : Prop where
  points : CountsPoints env.points
  keep : ∀ l, env.keep l = l
  near : ∀ d ∈ opened, CentroidsNear (padBoxes (28 / 10000) dx * dx) (padBoxes (28 / 10000) dy * dy) d

section
variable {env : Surroundings} {kw shared sh : Dict} {xlo ylo dx dy : Rat} {M N s : Nat} {me mg : Option Int}
  {files opened : List GFile} {runs : List (TileRun TileState ImageFile)}

/-- **C160**.  In the images of a call, a pixel of the flash centroid density shows how many flashes of all files that are
large enough have their centroid in the pixel, and a pixel of the group centroid density how many of their groups, whether or
not values are scaled. -/
theorem C160_pixels (h : GoodCall env kw xlo ylo dx dy M N s me mg files opened) (hc : CentroidCall env dx dy opened)
    (hr : gridGlmFlashes (lutGridder env) files kw shared = .ok (runs, sh)) (X Y v : Rat) :
    (Shows runs "flash_centroid_density" X Y v → v = (centroidsIn (countedFlashes me mg) opened dx dy X Y : Rat)) ∧
    (Shows runs "group_centroid_density" X Y v → v = (centroidsIn (countedGroups me mg) opened dx dy X Y : Rat)) := by
  obtain ⟨runs', sh', h1, -, h3, -⟩ := call_runs (env := env) (G := lutGridder env)
    (P := fun _ _ _ (w : List (String × ImageFile)) => ∃ f, w = [(f.name, f)] ∧ ∀ row col X Y img,
      f.x[col]? = some X → f.y[row]? = some Y →
      (("flash_centroid_density", img) ∈ f.fields →
        img.val row col = (centroidsIn (countedFlashes me mg) opened dx dy X Y : Rat)) ∧
      (("group_centroid_density", img) ∈ f.fields →
        img.val row col = (centroidsIn (countedGroups me mg) opened dx dy X Y : Rat))) rfl rfl rfl shared h.asked h.xPos
    h.yPos h.tiles h.xTiles h.yTiles h.xPad h.yPad h.opens h.some (by
      intro t a b c d p q hab hcd hp hq ep eq tx ty tp
      subst ep eq
      obtain ⟨fakes, hread, himg⟩ := tile_image (env := env) h.xPos h.yPos h.edges hab hcd hp hq tx ty tp me mg
        (files := opened) h.parts h.beside h.order h.compact h.centred
      refine ⟨fakes, hread, fun out scale => ?_⟩
      obtain ⟨f, hf, hsh⟩ := himg out scale
      refine ⟨[(f.name, f)], ?_, f, rfl, ?_⟩
      · show (do let files ← lutImages env _ out _ scale; pure (files.map fun (f : ImageFile) => (f.name, f))) = _
        rw [hf]
        rfl
      · intro row col X Y img hX hY
        exact tile_centroids h.xPos h.yPos h.edges hab hcd hp hq tx ty tp me mg h.parts h.order h.compact h.centred hc.points
          hc.keep hc.near hread hf hsh.x hsh.y hX hY)
  rw [hr] at h1
  simp only [Except.ok.injEq, Prod.mk.injEq] at h1
  obtain ⟨rfl, -⟩ := h1
  have key : ∀ {name : String}, Shows runs name X Y v → ∃ f : ImageFile, ∃ row col img, f.x[col]? = some X ∧
      f.y[row]? = some Y ∧ (name, img) ∈ f.fields ∧ img.val row col = v ∧
      (("flash_centroid_density", img) ∈ f.fields →
        img.val row col = (centroidsIn (countedFlashes me mg) opened dx dy X Y : Rat)) ∧
      (("group_centroid_density", img) ∈ f.fields →
        img.val row col = (centroidsIn (countedGroups me mg) opened dx dy X Y : Rat)) := by
    rintro name ⟨r, hrr, nf, hnf, row, col, img, hx, hy, hi, hv⟩
    obtain ⟨f, hf, hs⟩ := h3 r hrr
    rw [hf, List.mem_singleton] at hnf
    subst hnf
    exact ⟨f, row, col, img, hx, hy, hi, hv, hs row col X Y img hx hy⟩
  constructor
  · intro hv
    obtain ⟨f, row, col, img, -, -, hi, rfl, h1, -⟩ := key hv
    exact h1 hi
  · intro hv
    obtain ⟨f, row, col, img, -, -, hi, rfl, -, h2⟩ := key hv
    exact h2 hi

/-- Every box of the domain is shown in both fields. -/
theorem C160_everywhere (h : GoodCall env kw xlo ylo dx dy M N s me mg files opened)
    (hr : gridGlmFlashes (lutGridder env) files kw shared = .ok (runs, sh)) (m n : Nat) (hm : m < M) (hn : n < N)
    (name : String) (hname : name ∈ eightNames) :
    ∃ v, Shows runs name (xlo + (m + 1/2) * dx) (ylo + (n + 1/2) * dy) v := by
  obtain ⟨hs, hall⟩ := h.works hr
  obtain ⟨r, hrr, f, hf, hx, hy⟩ := hall m n hm hn
  obtain ⟨f', hf', hsh⟩ := hs r hrr
  rw [hf] at hf'
  obtain rfl : f = f' := by simpa using congrArg (fun l => l.map Prod.snd) hf'
  obtain ⟨col, hcol, hX⟩ := List.mem_iff_getElem.mp hx
  obtain ⟨row, hrow, hY⟩ := List.mem_iff_getElem.mp hy
  rw [← hsh.names] at hname
  obtain ⟨⟨name', img⟩, him, rfl⟩ := List.mem_map.mp hname
  exact ⟨_, r, hrr, (f.name, f), by rw [hf]; simp, row, col, img, List.getElem?_eq_some_iff.mpr ⟨hcol, hX⟩,
    List.getElem?_eq_some_iff.mpr ⟨hrow, hY⟩, him, rfl⟩

/-- The centroid is in the domain. -/
def InDomain (xlo ylo dx dy : Rat) (M N : Nat) (r : Row GVal) : Prop :=
  xlo ≤ r.val.x ∧ r.val.x < xlo + M * dx ∧ ylo ≤ r.val.y ∧ r.val.y < ylo + N * dy

instance (xlo ylo dx dy : Rat) (M N : Nat) (r : Row GVal) : Decidable (InDomain xlo ylo dx dy M N r) := by
  unfold InDomain; infer_instance

/-- A number is in one of the boxes of an axis. -/
theorem axis_once (lo d v : Rat) (hd : 0 < d) (M : Nat) :
    ((List.range M).map fun (m : Nat) => if lo + (m + 1/2) * d - d / 2 ≤ v ∧ v < lo + (m + 1/2) * d + d / 2 then (1 : Rat)
      else 0).sum = if lo ≤ v ∧ v < lo + M * d then 1 else 0 := by
  induction M with
  | zero =>
    rw [if_neg (by push_cast; intro h; linarith [h.1, h.2])]
    rfl
  | succ M ih =>
    rw [List.range_succ, List.map_append, List.sum_append, ih]
    simp only [List.map_cons, List.map_nil, List.sum_cons, List.sum_nil, add_zero]
    have hM : (0 : Rat) ≤ M * d := mul_nonneg (Nat.cast_nonneg M) hd.le
    have e1 : lo + ((M : Rat) + 1/2) * d - d / 2 = lo + M * d := by ring
    have e2 : lo + ((M : Rat) + 1/2) * d + d / 2 = lo + M * d + d := by ring
    have e3 : lo + ((M + 1 : Nat) : Rat) * d = lo + M * d + d := by push_cast; ring
    rw [e1, e2, e3]
    by_cases h1 : lo ≤ v
    · by_cases h2 : v < lo + M * d
      · rw [if_pos ⟨h1, h2⟩, if_neg (fun h => absurd h.1 (not_le.mpr h2)), if_pos ⟨h1, by linarith⟩, add_zero]
      · rw [if_neg (fun h => h2 h.2), zero_add]
        by_cases h3 : v < lo + M * d + d
        · rw [if_pos ⟨not_lt.mp h2, h3⟩, if_pos ⟨h1, h3⟩]
        · rw [if_neg (fun h => h3 h.2), if_neg (fun h => h3 h.2)]
    · rw [if_neg (fun h => h1 h.1), if_neg (fun h => h1 (by linarith [h.1])), if_neg (fun h => h1 h.1), add_zero]

theorem ones_mul (p q : Prop) [Decidable p] [Decidable q] :
    (if p then (1 : Rat) else 0) * (if q then 1 else 0) = if p ∧ q then 1 else 0 := by
  by_cases p <;> by_cases q <;> simp [*]

theorem box_once (hdx : 0 < dx) (hdy : 0 < dy) (r : Row GVal) :
    overBoxes M N (fun m n => if CentroidIn dx dy (xlo + (m + 1/2) * dx) (ylo + (n + 1/2) * dy) r then (1 : Rat) else 0) =
      if InDomain xlo ylo dx dy M N r then 1 else 0 := by
  have e : ∀ m n : Nat, (if CentroidIn dx dy (xlo + (m + 1/2) * dx) (ylo + (n + 1/2) * dy) r then (1 : Rat) else 0) =
      (if xlo + (m + 1/2) * dx - dx / 2 ≤ r.val.x ∧ r.val.x < xlo + (m + 1/2) * dx + dx / 2 then (1 : Rat) else 0) *
      (if ylo + (n + 1/2) * dy - dy / 2 ≤ r.val.y ∧ r.val.y < ylo + (n + 1/2) * dy + dy / 2 then (1 : Rat) else 0) := by
    intro m n
    rw [ones_mul]
    unfold CentroidIn
    simp only [and_assoc]
  unfold overBoxes
  simp only [e]
  simp only [List.sum_map_mul_left, axis_once ylo dy r.val.y hdy N]
  rw [List.sum_map_mul_right, axis_once xlo dx r.val.x hdx M, ones_mul]
  unfold InDomain
  simp only [and_assoc]

theorem count_sum {α : Type} (l : List α) (P : α → Prop) [DecidablePred P] :
    ((l.countP fun a => decide (P a) : Nat) : Rat) = (l.map fun a => if P a then (1 : Rat) else 0).sum := by
  induction l with
  | nil => rfl
  | cons a l ih =>
    rw [List.countP_cons, List.map_cons, List.sum_cons]
    push_cast
    rw [ih, add_comm]
    congr 1
    by_cases h : P a <;> simp [h]

theorem centroids_total (rows : GFile → List (Row GVal)) (opened : List GFile) (hdx : 0 < dx) (hdy : 0 < dy) :
    overBoxes M N (fun m n => (centroidsIn rows opened dx dy (xlo + (m + 1/2) * dx) (ylo + (n + 1/2) * dy) : Rat)) =
      ((opened.map fun d => (rows d).countP fun r => InDomain xlo ylo dx dy M N r).sum : Nat) := by
  unfold centroidsIn
  simp only [Nat.cast_list_sum, List.map_map, Function.comp_def, count_sum]
  rw [overBoxes_sum]
  congr 1
  refine List.map_congr_left fun d _ => ?_
  rw [overBoxes_sum]
  congr 1
  exact List.map_congr_left fun r _ => box_once hdx hdy r

/-- **C160**, totals.  However the domain is cut into tiles, each flash that is large enough and has its centroid in the domain
is counted once in all images together, and so is each group of a flash that is large enough. -/
theorem C160_once (h : GoodCall env kw xlo ylo dx dy M N s me mg files opened) (hc : CentroidCall env dx dy opened)
    (hr : gridGlmFlashes (lutGridder env) files kw shared = .ok (runs, sh)) (v w : Nat → Nat → Rat)
    (hv : ∀ m n, m < M → n < N →
      Shows runs "flash_centroid_density" (xlo + (m + 1/2) * dx) (ylo + (n + 1/2) * dy) (v m n))
    (hw : ∀ m n, m < M → n < N →
      Shows runs "group_centroid_density" (xlo + (m + 1/2) * dx) (ylo + (n + 1/2) * dy) (w m n)) :
    overBoxes M N v = ((opened.map fun d => (countedFlashes me mg d).countP fun r => InDomain xlo ylo dx dy M N r).sum : Nat) ∧
    overBoxes M N w = ((opened.map fun d => (countedGroups me mg d).countP fun r => InDomain xlo ylo dx dy M N r).sum : Nat) := by
  rw [← centroids_total _ _ h.xPos h.yPos, ← centroids_total _ _ h.xPos h.yPos]
  exact ⟨overBoxes_congr fun m n hm hn => (C160_pixels h hc hr _ _ _).1 (hv m n hm hn),
    overBoxes_congr fun m n hm hn => (C160_pixels h hc hr _ _ _).2 (hw m n hm hn)⟩

end

/-! ### Sample -/

/-- A file with two flashes, one of them at a corner of four pixels, which has two groups. -/
def centroidSample : GFile where
  flashes := [⟨5, 0, { x := 2/1000, y := 2/1000, area := 100, nGroups := 2, nEvents := 2 }⟩,
    ⟨3, 0, { x := 9/2000, y := 7/2000, area := 60, nGroups := 1, nEvents := 2 }⟩]
  groups := [⟨11, 5, { x := 3/2000, y := 2/1000, nEvents := 1, area := 40 }⟩,
    ⟨12, 3, { x := 9/2000, y := 7/2000, nEvents := 2, area := 50 }⟩,
    ⟨13, 5, { x := 2/1000, y := 2/1000, nEvents := 1, area := 30 }⟩]
  events := wholeSample.events

theorem centroidSample_good : GoodCall wholeEnv wholeCall 0 0 (1/1000) (1/1000) 4 4 2 (some 2) none
    [centroidSample] [centroidSample] :=
  { wholeCall_good with
    opens := fun _ _ => opens_same _
    some := ⟨centroidSample, by simp, by decide⟩
    compact := by
      have hpads : padBoxes (28 / 10000) (1 / 1000) = 2 := by decide +kernel
      intro d hd hne
      rw [hpads]
      rw [List.mem_singleton] at hd
      subst hd
      exact
        { hasData := by unfold HasData; decide +kernel
          consistent := by decide +kernel
          derived := ⟨by decide +kernel, by decide +kernel, by decide +kernel, by decide +kernel⟩
          flashes := by unfold UniqueIds; decide +kernel
          groups := by unfold UniqueIds; decide +kernel
          areas := by decide +kernel
          pixels := by unfold PixelExact placeOf; decide +kernel
          polygons := by decide +kernel
          narrow := by decide +kernel
          view := by decide +kernel
          event := by decide +kernel
          flash := by decide +kernel }
    centred := fun _ _ _ _ => square_centred (by norm_num) (by norm_num) (by norm_num) _ }

theorem countPoints_counts : CountsPoints countPoints := by
  intro x y g l i j _ _ _ _
  unfold countPoints
  simp only [List.countP_eq_length_filter]

theorem centroidSample_call : CentroidCall wholeEnv (1/1000) (1/1000) [centroidSample] where
  points := countPoints_counts
  keep := fun _ => rfl
  near := by
    have hpads : padBoxes (28 / 10000) (1 / 1000) = 2 := by decide +kernel
    rw [hpads]
    intro d hd
    rw [List.mem_singleton] at hd
    subst hd
    exact ⟨by decide +kernel, by decide +kernel⟩

/-- The sample meets the hypotheses of C160: the flash at (2, 2) is counted in the pixel north-east of it, with one of its
groups, and the other group in the pixel to the west. -/
example : ∃ runs sh, gridGlmFlashes (lutGridder wholeEnv) [centroidSample] wholeCall [] = .ok (runs, sh) ∧
    Shows runs "flash_centroid_density" (5/2000) (5/2000) 1 ∧ Shows runs "flash_centroid_density" (3/2000) (5/2000) 0 ∧
    Shows runs "group_centroid_density" (5/2000) (5/2000) 1 ∧ Shows runs "group_centroid_density" (3/2000) (5/2000) 1 := by
  have h := centroidSample_good
  obtain ⟨runs, sh, h1, -⟩ := C137_end_to_end wholeEnv wholeCall [] 0 0 (1/1000) (1/1000) 4 4 2 (some 2) none _ _ h.asked h.xPos
    h.yPos h.tiles h.xTiles h.yTiles h.xPad h.yPad h.edges h.parts h.beside h.order h.opens h.some h.compact h.centred
  refine ⟨runs, sh, h1, ?_⟩
  have cf : countedFlashes (some 2) none centroidSample = centroidSample.flashes := by
    unfold countedFlashes
    rw [List.filter_eq_self]
    intro f hf
    have h2 : 2 ≤ f.val.nEvents := by
      revert f
      decide +kernel
    simp only [decide_eq_true_eq]
    refine ⟨fun m hm => ?_, fun m hm => by cases hm⟩
    cases hm
    exact_mod_cast h2
  have cg : countedGroups (some 2) none centroidSample = centroidSample.groups := by
    unfold countedGroups
    rw [cf, List.filter_eq_self]
    intro g hg
    simp only [decide_eq_true_eq]
    revert g
    decide +kernel
  have at' : ∀ m n : Nat, m < 4 → n < 4 → ∀ X Y : Rat, X = 0 + (m + 1/2) * (1/1000) → Y = 0 + (n + 1/2) * (1/1000) →
      Shows runs "flash_centroid_density" X Y (centroidSample.flashes.countP fun r => CentroidIn (1/1000) (1/1000) X Y r : Nat) ∧
      Shows runs "group_centroid_density" X Y (centroidSample.groups.countP fun r => CentroidIn (1/1000) (1/1000) X Y r : Nat) := by
    rintro m n hm hn X Y rfl rfl
    obtain ⟨v, hv⟩ := C160_everywhere h h1 m n hm hn "flash_centroid_density" (by decide)
    obtain ⟨w, hw⟩ := C160_everywhere h h1 m n hm hn "group_centroid_density" (by decide)
    have e1 := (C160_pixels h centroidSample_call h1 _ _ _).1 hv
    have e2 := (C160_pixels h centroidSample_call h1 _ _ _).2 hw
    simp only [centroidsIn, List.map_cons, List.map_nil, List.sum_cons, List.sum_nil, add_zero, cf, cg] at e1 e2
    rw [e1] at hv
    rw [e2] at hw
    exact ⟨hv, hw⟩
  obtain ⟨a1, a2⟩ := at' 2 2 (by omega) (by omega) (5/2000) (5/2000) (by norm_num) (by norm_num)
  obtain ⟨b1, b2⟩ := at' 1 2 (by omega) (by omega) (3/2000) (5/2000) (by norm_num) (by norm_num)
  have c1 : (centroidSample.flashes.countP fun r => CentroidIn (1/1000) (1/1000) (5/2000) (5/2000) r) = 1 := by decide +kernel
  have c2 : (centroidSample.flashes.countP fun r => CentroidIn (1/1000) (1/1000) (3/2000) (5/2000) r) = 0 := by decide +kernel
  have c3 : (centroidSample.groups.countP fun r => CentroidIn (1/1000) (1/1000) (5/2000) (5/2000) r) = 1 := by decide +kernel
  have c4 : (centroidSample.groups.countP fun r => CentroidIn (1/1000) (1/1000) (3/2000) (5/2000) r) = 1 := by decide +kernel
  rw [c1] at a1
  rw [c2] at b1
  rw [c3] at a2
  rw [c4] at b2
  exact ⟨by exact_mod_cast a1, by exact_mod_cast b1, by exact_mod_cast a2, by exact_mod_cast b2⟩

end Verif.Props
