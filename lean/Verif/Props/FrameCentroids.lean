import Verif.Props.Centroids
import Verif.Props.Frames

/-!
# C161: centroid densities of calls with several frames

What is read from a file is put at the product time of the file (C149), except for centroids: flashes and groups are counted in
the frame in which they start.  The extent and the centroid of a flash can therefore be in the images of different frames.
-/

namespace Verif.Props

open Verif.Py Verif.Model Verif.Spec Verif.Proofs

/-! ## Specification -/

/-- What lmatools is assumed to do: of the parents that arrive together, a frame gets those that start in the frame, in any
order. -/
def KeepsByStart (F : Framing) : Prop :=
  ∀ t l, (F.keep t l).Perm (l.filter fun r => t.1 ≤ r.seconds ∧ r.seconds < t.2)

/-- The flashes, or groups, that start in a frame. -/
def startedIn (basedate : Int) (t : Rat × Rat) (rows : List (Row GVal)) : List (Row GVal) :=
  rows.filter fun r => InFrame basedate t (firstTime r)

/-- The image of the given number, of one of the tiles, shows the value `v` in the field `name`, in the pixel with its centre
at `X`, `Y`. -/
def ShowsIn (runs : List (TileRun TileState ImageFile)) (k : Nat) (name : String) (X Y v : Rat) : Prop :=
  ∃ r ∈ runs, ∃ nf, r.written[k]? = some nf ∧ ∃ row col img, nf.2.x[col]? = some X ∧ nf.2.y[row]? = some Y ∧
    (name, img) ∈ nf.2.fields ∧ img.val row col = v

/-- What is assumed: lmatools picks by time and counts points, and centroids are closer than the padding to what they are the
centroid of. -/
structure FramedCentroids (env : Surroundings) (F : Framing) (dx dy : Rat) (opened : List GFile) : Prop where
  pick : PicksByTime F
  keep : KeepsByStart F
  points : CountsPoints env.points
  near : ∀ d ∈ opened, CentroidsNear (padBoxes (28 / 10000) dx * dx) (padBoxes (28 / 10000) dy * dy) d

/-- **C161**, in full: the flashes whose extents are in the image of a frame, which are those of the files of the frame, are
those whose centroids are in it. -/
def C161_full : Prop := ∀ (env : Surroundings) (F : Framing) (kw shared sh : Dict) (xlo ylo dx dy : Rat) (M N s : Nat)
  (me mg : Option Int) (files opened : List GFile) (runs : List (TileRun TileState ImageFile)),
  GoodCall env kw xlo ylo dx dy M N s me mg files opened → FramedCentroids env F dx dy opened →
  gridGlmFlashes (framesGridder env F) files kw shared = .ok (runs, sh) →
  ∀ k t, (pairwise F.tEdges)[k]? = some t → ∀ X Y v, ShowsIn runs k "flash_centroid_density" X Y v →
    v = (centroidsIn (countedFlashes me mg) (filesOf env t opened) dx dy X Y : Rat)

/-! ## The images of a tile -/

/-- The centroid fields of the image files of a tile. -/
theorem frames_centroids {env : Surroundings} {F : Framing} {x y : List Rat} {sent : List FakeLma} {out : Dict} {scale : Val}
    {pads : Pads} {w h p q : Nat} {px py : Rat} (hp : pads = ⟨p, q, px, py⟩) (ex : x.length = w + 2 * p + 1)
    (ey : y.length = h + 2 * q + 1) {files : List ImageFile}
    (hi : framesImages env F ⟨x, y, sent⟩ out (.slices (getPadSlices pads).1 (getPadSlices pads).2) scale = .ok files)
    {k : Nat} {t : Rat × Rat} {f : ImageFile} (ht : (pairwise F.tEdges)[k]? = some t) (hf : files[k]? = some f)
    {row col : Nat} (hrow : row < h) (hcol : col < w) {name : String} {img : Image} (him : (name, img) ∈ f.fields) :
    (name = "flash_centroid_density" → img.val row col = atLeastStep (scale != .bool false) 1
      (((sent.map fun f => F.keep t f.flashParents).foldl (env.points x y) (Grid.zeros (x.length - 1) (y.length - 1))).val
        (p + col) (q + h - 1 - row))) ∧
    (name = "group_centroid_density" → img.val row col = atLeastStep (scale != .bool false) 1
      (((sent.map fun f => F.keep t f.groupParents).foldl (env.points x y) (Grid.zeros (x.length - 1) (y.length - 1))).val
        (p + col) (q + h - 1 - row))) := by
  unfold framesImages at hi
  obtain ⟨outgrids, h1, hi⟩ := bind_ok hi
  simp only at hi
  obtain ⟨frames, h2, hi⟩ := bind_ok hi
  obtain ⟨⟨files', g'⟩, hwr, hi⟩ := bind_ok hi
  simp only [pure, Except.pure, Except.ok.injEq] at hi
  subst hi
  obtain ⟨grids, hg, hgf⟩ := forall₂_get (mapM_ok_forall₂ h2) ht
  have hD : frames.getD k [] = grids := by
    rw [List.getD_eq_getElem?_getD, hg]
    rfl
  obtain ⟨g0, g2, g3, g4, g6, g7, rfl⟩ := frame_centroids h1 hgf
  have hlen : outgrids.length = 8 := by
    obtain ⟨o, ho, hlen⟩ : ∃ o, lutPipelineSetup = .ok o ∧ o.length = 8 := ⟨_, rfl, rfl⟩
    obtain rfl := Except.ok.inj (h1.symm.trans ho)
    exact hlen
  rw [show Val.asPad (.slices (getPadSlices pads).1 (getPadSlices pads).2) = some (getPadSlices pads) from rfl, hlen] at hwr
  set at' : Nat → Nat → Nat → Nat → Rat := fun v i j k => ((frames.getD k []).getD v (Grid.zeros
    (x.length - 1) (y.length - 1))).val i j with hat
  have hw : ∀ n fields, written ⟨x.length - 1, y.length - 1, n, fields⟩ (some (getPadSlices pads)) =
      ((p, w + p), (q, h + q)) := by
    intro n fields
    unfold written
    simp only
    rw [show x.length - 1 = w + 2 * p by omega, show y.length - 1 = h + 2 * q by omega, hp]
    unfold getPadSlices
    simp only [Option.getD_some, padSlice_bounds]
  have hpx := lut_pixels (s := _) (g := _) (fed := at' 0) (flashArea := at' 2)
    (energy := at' 3) (ged := at' 4) (groupArea := at' 6)
    (minArea := at' 7) ⟨⟨env.label, rfl⟩, ⟨env.label, rfl⟩, rfl⟩ hwr (k := k) (f := f) hf him (r := row)
    (c := col) (by rw [hw]; simp only; omega) (by rw [hw]; simp only; omega) (a := p + col) (b := q + h - 1 - row)
    (by rw [hw]) (by rw [hw]; simp only; omega)
  simp only [hat, hD, List.getD_cons_zero, List.getD_cons_succ, List.map_map, Function.comp_def, FakeLma.parentsFor, if_true,
    show ("group" = "flash") = False from eq_false (by decide), if_false, List.mem_cons, Prod.mk.injEq, List.not_mem_nil,
    or_false] at hpx
  constructor <;> (rintro rfl; simpa using hpx)

theorem keeps_wanted {F : Framing} (hk : KeepsByStart F) (t : Rat × Rat) (l : List LmaParent) :
    (F.keep t l).Perm (l.filter fun r => (fun s : Int => decide (t.1 ≤ (s : Rat) / 1000000000 ∧ (s : Rat) / 1000000000 < t.2))
      r.start) := hk t l

/-! ## C161 -/

section
variable {env : Surroundings} {F : Framing} {kw shared sh : Dict} {xlo ylo dx dy : Rat} {M N s : Nat} {me mg : Option Int}
  {files opened : List GFile} {runs : List (TileRun TileState ImageFile)}

/-- **C161**.  In the image of a frame, a pixel of the flash centroid density shows how many flashes that are large enough, of
all files, start in the frame and have their centroid in the pixel, and a pixel of the group centroid density how many of
their groups do. -/
theorem C161_exact (h : GoodCall env kw xlo ylo dx dy M N s me mg files opened) (hc : FramedCentroids env F dx dy opened)
    (hr : gridGlmFlashes (framesGridder env F) files kw shared = .ok (runs, sh)) {k : Nat} {t : Rat × Rat}
    (ht : (pairwise F.tEdges)[k]? = some t) (X Y v : Rat) :
    (ShowsIn runs k "flash_centroid_density" X Y v →
      v = (centroidsIn (fun d => startedIn env.basedate t (countedFlashes me mg d)) opened dx dy X Y : Rat)) ∧
    (ShowsIn runs k "group_centroid_density" X Y v →
      v = (centroidsIn (fun d => startedIn env.basedate t (countedGroups me mg d)) opened dx dy X Y : Rat)) := by
  obtain ⟨runs', sh', h1, -, h3, -⟩ := call_runs (env := env) (G := framesGridder env F)
    (P := fun _ _ _ (w : List (String × ImageFile)) => ∃ imgs : List ImageFile, w = imgs.map (fun f => (f.name, f)) ∧
      ∀ f, imgs[k]? = some f → ∀ row col X Y img, f.x[col]? = some X → f.y[row]? = some Y →
      (("flash_centroid_density", img) ∈ f.fields → img.val row col =
        (centroidsIn (fun d => startedIn env.basedate t (countedFlashes me mg d)) opened dx dy X Y : Rat)) ∧
      (("group_centroid_density", img) ∈ f.fields → img.val row col =
        (centroidsIn (fun d => startedIn env.basedate t (countedGroups me mg d)) opened dx dy X Y : Rat))) rfl rfl rfl shared
    h.asked h.xPos h.yPos h.tiles h.xTiles h.yTiles h.xPad h.yPad h.opens h.some (by
      intro tl a b c d p q hab hcd hp hq ep eq tx ty tp
      subst ep eq
      obtain ⟨fakes, hread, himg⟩ := tile_frames (env := env) hc.pick h.xPos h.yPos h.edges hab hcd hp hq tx ty tp me mg
        (files := opened) h.parts h.beside h.order h.compact h.centred
      refine ⟨fakes, hread, fun out scale => ?_⟩
      obtain ⟨imgs, hi, hsh⟩ := himg out scale
      refine ⟨imgs.map fun f => (f.name, f), ?_, imgs, rfl, ?_⟩
      · show (do let files ← framesImages env F _ out _ scale; pure (files.map fun (f : ImageFile) => (f.name, f))) = _
        rw [hi]
        rfl
      · intro f hf row col X Y img hX hY
        obtain ⟨f', hf', hs⟩ := forall₂_get hsh ht
        obtain rfl := Option.some.inj (hf.symm.trans hf')
        rw [hs.x] at hX
        rw [hs.y] at hY
        obtain ⟨hrow, hcol, c1, c2⟩ := tile_counts h.xPos h.yPos h.edges hab hcd hp hq tx ty me mg h.parts h.order h.compact
          h.centred hc.points hc.near hread (keep := F.keep t)
          (K := fun s : Int => decide (t.1 ≤ (s : Rat) / 1000000000 ∧ (s : Rat) / 1000000000 < t.2)) (keeps_wanted hc.keep t) hX hY
        have ex : (env.edges tl.xBnd dx).length = b - a + 2 * padBoxes (28 / 10000) dx + 1 := by
          rw [tx, padded_edges h.edges h.xPos (by omega), boxEdges_length]
        have ey : (env.edges tl.yBnd dy).length = d - c + 2 * padBoxes (28 / 10000) dy + 1 := by
          rw [ty, padded_edges h.edges h.yPos (by omega), boxEdges_length]
        constructor
        · intro him
          rw [(frames_centroids tp ex ey hi ht hf hrow hcol him).1 rfl, c1, count_step]
          rfl
        · intro him
          rw [(frames_centroids tp ex ey hi ht hf hrow hcol him).2 rfl, c2, count_step]
          rfl)
  rw [hr] at h1
  simp only [Except.ok.injEq, Prod.mk.injEq] at h1
  obtain ⟨rfl, -⟩ := h1
  constructor
  · rintro ⟨r, hrr, nf, hnf, row, col, img, hx, hy, hi, rfl⟩
    obtain ⟨imgs, hw, hs⟩ := h3 r hrr
    rw [hw, List.getElem?_map] at hnf
    obtain ⟨f, hf, rfl⟩ := Option.map_eq_some_iff.mp hnf
    exact (hs f hf row col X Y img hx hy).1 hi
  · rintro ⟨r, hrr, nf, hnf, row, col, img, hx, hy, hi, rfl⟩
    obtain ⟨imgs, hw, hs⟩ := h3 r hrr
    rw [hw, List.getElem?_map] at hnf
    obtain ⟨f, hf, rfl⟩ := Option.map_eq_some_iff.mp hnf
    exact (hs f hf row col X Y img hx hy).2 hi

/-- A file is on one side of the edges of a frame: its flashes start in the frame if its product time is in it, and do not
otherwise. -/
def StartsOnOneSide (env : Surroundings) (t : Rat × Rat) (d : GFile) : Prop :=
  ∀ f ∈ d.flashes, InFrame env.basedate t (firstTime f) ↔ InFrame env.basedate t (env.productTime d)

/-- **C161** in full if no file is across the edges of the frame. -/
theorem C161_contained_partial (h : GoodCall env kw xlo ylo dx dy M N s me mg files opened)
    (hc : FramedCentroids env F dx dy opened)
    (hr : gridGlmFlashes (framesGridder env F) files kw shared = .ok (runs, sh)) {k : Nat} {t : Rat × Rat}
    (ht : (pairwise F.tEdges)[k]? = some t) (hside : ∀ d ∈ opened, StartsOnOneSide env t d) {X Y v : Rat}
    (hv : ShowsIn runs k "flash_centroid_density" X Y v) :
    v = (centroidsIn (countedFlashes me mg) (filesOf env t opened) dx dy X Y : Rat) := by
  classical
  rw [(C161_exact h hc hr ht X Y v).1 hv, Nat.cast_inj]
  unfold centroidsIn filesOf
  clear h hc hr hv
  induction opened with
  | nil => rfl
  | cons d l ih =>
    have ih := ih fun d hd => hside d (List.mem_cons_of_mem _ hd)
    have hd := hside d List.mem_cons_self
    rw [List.map_cons, List.sum_cons, ih]
    by_cases hin : InFrame env.basedate t (env.productTime d)
    · have e : startedIn env.basedate t (countedFlashes me mg d) = countedFlashes me mg d :=
        List.filter_eq_self.mpr fun f hf => decide_eq_true ((hd f (List.mem_filter.mp hf).1).mpr hin)
      simp only [e]
      rw [List.filter_cons_of_pos (by simpa using hin), List.map_cons, List.sum_cons]
    · have e : startedIn env.basedate t (countedFlashes me mg d) = [] :=
        List.filter_eq_nil_iff.mpr fun f hf hq => hin ((hd f (List.mem_filter.mp hf).1).mp (of_decide_eq_true hq))
      simp only [e]
      rw [List.filter_cons_of_neg (by simpa using hin), List.countP_nil, zero_add]

/-- Every box of the domain is shown in the image of each frame. -/
theorem C161_everywhere (h : GoodCall env kw xlo ylo dx dy M N s me mg files opened) (hF : PicksByTime F)
    (hr : gridGlmFlashes (framesGridder env F) files kw shared = .ok (runs, sh)) {k : Nat} {t : Rat × Rat}
    (ht : (pairwise F.tEdges)[k]? = some t) (m n : Nat) (hm : m < M) (hn : n < N) (name : String) (hname : name ∈ eightNames) :
    ∃ v, ShowsIn runs k name (xlo + (m + 1/2) * dx) (ylo + (n + 1/2) * dy) v := by
  obtain ⟨runs', sh', h1, -, h3, h4⟩ := call_runs (env := env) (G := framesGridder env F)
    (P := fun sc xs ys (w : List (String × ImageFile)) => ∃ imgs, w = imgs.map (fun f => (f.name, f)) ∧
      List.Forall₂ (fun tf f => ImageShows env.clip env.foot me mg (filesOf env tf opened) dx dy sc tf xs ys f)
        (pairwise F.tEdges) imgs) rfl rfl rfl shared
    h.asked h.xPos h.yPos h.tiles h.xTiles h.yTiles h.xPad h.yPad h.opens h.some (by
      intro tl a b c d p q hab hcd hp hq ep eq tx ty tp
      subst ep eq
      obtain ⟨fakes, hread, himg⟩ := tile_frames (env := env) hF h.xPos h.yPos h.edges hab hcd hp hq tx ty tp me mg
        (files := opened) h.parts h.beside h.order h.compact h.centred
      refine ⟨fakes, hread, fun out scale => ?_⟩
      obtain ⟨imgs, hi, hsh⟩ := himg out scale
      refine ⟨imgs.map fun f => (f.name, f), ?_, imgs, rfl, hsh⟩
      show (do let files ← framesImages env F _ out _ scale; pure (files.map fun (f : ImageFile) => (f.name, f))) = _
      rw [hi]
      rfl)
  rw [hr] at h1
  simp only [Except.ok.injEq, Prod.mk.injEq] at h1
  obtain ⟨rfl, -⟩ := h1
  obtain ⟨r, hrr, hx, hy⟩ := h4 m n hm hn
  obtain ⟨imgs, hw, hall⟩ := h3 r hrr
  obtain ⟨f, hf, hsh⟩ := forall₂_get hall ht
  rw [← hsh.x] at hx
  rw [← List.mem_reverse, ← hsh.y] at hy
  obtain ⟨col, hcol, hX⟩ := List.mem_iff_getElem.mp hx
  obtain ⟨row, hrow, hY⟩ := List.mem_iff_getElem.mp hy
  rw [← hsh.names] at hname
  obtain ⟨⟨name', img⟩, him, rfl⟩ := List.mem_map.mp hname
  exact ⟨_, r, hrr, (f.name, f), by rw [hw, List.getElem?_map, hf]; rfl, row, col, img,
    List.getElem?_eq_some_iff.mpr ⟨hcol, hX⟩, List.getElem?_eq_some_iff.mpr ⟨hrow, hY⟩, him, rfl⟩

/-- An instant is in one of the frames between ascending edges. -/
theorem frame_once {basedate : Int} {instant : Int} (e : Rat) (edges : List Rat) (ha : (e :: edges).Pairwise (· ≤ ·)) :
    ((pairwise (e :: edges)).map fun t => if InFrame basedate t instant then (1 : Rat) else 0).sum =
      if InFrame basedate (e, (e :: edges).getLast (List.cons_ne_nil _ _)) instant then 1 else 0 := by
  induction edges generalizing e with
  | nil =>
    rw [List.getLast_singleton, if_neg (by unfold InFrame; intro h; linarith [h.1, h.2])]
    rfl
  | cons e' edges ih =>
    have ha' := List.pairwise_cons.mp ha
    have hp : pairwise (e :: e' :: edges) = (e, e') :: pairwise (e' :: edges) := rfl
    rw [hp, List.map_cons, List.sum_cons, ih e' ha'.2, List.getLast_cons (List.cons_ne_nil _ _)]
    have h1 : e ≤ e' := ha'.1 e' List.mem_cons_self
    have h2 : e' ≤ (e' :: edges).getLast (List.cons_ne_nil _ _) := by
      rcases List.mem_cons.mp (List.getLast_mem (List.cons_ne_nil e' edges)) with h | h
      · exact h.ge
      · exact (List.pairwise_cons.mp ha'.2).1 _ h
    have hR : InFrame basedate (e, (e' :: edges).getLast (List.cons_ne_nil _ _)) instant ↔ InFrame basedate (e, e') instant ∨
        InFrame basedate (e', (e' :: edges).getLast (List.cons_ne_nil _ _)) instant := by
      constructor
      · intro h
        rcases lt_or_ge (((instant - basedate : Int) : Rat) / 1000000000) e' with b | b
        · exact Or.inl ⟨h.1, b⟩
        · exact Or.inr ⟨b, h.2⟩
      · rintro (h | h)
        · exact ⟨h.1, lt_of_lt_of_le h.2 h2⟩
        · exact ⟨le_trans h1 h.1, h.2⟩
    have hPQ : InFrame basedate (e, e') instant → ¬ InFrame basedate (e', (e' :: edges).getLast (List.cons_ne_nil _ _)) instant :=
      fun h h' => absurd h'.1 (not_le.mpr h.2)
    by_cases hP : InFrame basedate (e, e') instant
    · rw [if_pos hP, if_neg (hPQ hP), if_pos (hR.mpr (Or.inl hP)), add_zero]
    · by_cases hQ : InFrame basedate (e', (e' :: edges).getLast (List.cons_ne_nil _ _)) instant
      · rw [if_neg hP, if_pos hQ, if_pos (hR.mpr (Or.inr hQ)), zero_add]
      · rw [if_neg hP, if_neg hQ, if_neg (fun h => (hR.mp h).elim hP hQ), add_zero]

theorem sum_comm_map {α β : Type} (l : List α) (r : List β) (f : α → β → Rat) :
    (l.map fun a => (r.map fun b => f a b).sum).sum = (r.map fun b => (l.map fun a => f a b).sum).sum := by
  induction l with
  | nil => simp
  | cons a l ih => simp only [List.map_cons, List.sum_cons, ih, List.sum_map_add]

theorem frame_total (h : GoodCall env kw xlo ylo dx dy M N s me mg files opened) {name : String}
    {rows : GFile → List (Row GVal)} {k : Nat} {t : Rat × Rat}
    (hx : ∀ X Y v, ShowsIn runs k name X Y v → v = (centroidsIn (fun d => startedIn env.basedate t (rows d)) opened dx dy X Y : Rat))
    (v : Nat → Nat → Rat)
    (hv : ∀ m n, m < M → n < N → ShowsIn runs k name (xlo + (m + 1/2) * dx) (ylo + (n + 1/2) * dy) (v m n)) :
    overBoxes M N v = (((opened.map fun d => (startedIn env.basedate t (rows d)).countP fun r =>
        InDomain xlo ylo dx dy M N r).sum : Nat) : Rat) := by
  rw [← centroids_total (fun d => startedIn env.basedate t (rows d)) opened h.xPos h.yPos]
  exact overBoxes_congr fun m n hm hn => hx _ _ _ (hv m n hm hn)

theorem frames_count {basedate : Int} (rows : GFile → List (Row GVal)) (opened : List GFile) (first : Rat) (rest : List Rat)
    (ha : (first :: rest).Pairwise (· ≤ ·)) :
    ((pairwise (first :: rest)).map fun t => (((opened.map fun d => (startedIn basedate t (rows d)).countP fun r =>
        InDomain xlo ylo dx dy M N r).sum : Nat) : Rat)).sum = ((opened.map fun d =>
      (startedIn basedate (first, (first :: rest).getLast (List.cons_ne_nil _ _)) (rows d)).countP fun r =>
        InDomain xlo ylo dx dy M N r).sum : Nat) := by
  simp only [Nat.cast_list_sum, List.map_map, Function.comp_def]
  rw [sum_comm_map]
  congr 1
  refine List.map_congr_left fun d _ => ?_
  have e2 : ∀ t, (((startedIn basedate t (rows d)).countP fun r =>
      decide (InDomain xlo ylo dx dy M N r) : Nat) : Rat) = ((rows d).map fun r =>
        (if InFrame basedate t (firstTime r) then (1 : Rat) else 0) * (if InDomain xlo ylo dx dy M N r then 1 else 0)).sum := by
    intro t
    unfold startedIn
    rw [List.countP_filter]
    rw [← List.countP_congr (p := fun r => decide (InFrame basedate t (firstTime r) ∧ InDomain xlo ylo dx dy M N r))
      (fun r _ => by simp [and_comm])]
    rw [count_sum]
    congr 1
    refine List.map_congr_left fun r _ => ?_
    rw [ones_mul]
  simp only [e2]
  rw [sum_comm_map]
  congr 1
  refine List.map_congr_left fun r _ => ?_
  rw [List.sum_map_mul_right, frame_once first rest ha]

theorem frames_total (h : GoodCall env kw xlo ylo dx dy M N s me mg files opened) {name : String}
    {rows : GFile → List (Row GVal)} {first : Rat} {rest : List Rat} (hF : F.tEdges = first :: rest)
    (ha : F.tEdges.Pairwise (· ≤ ·))
    (hx : ∀ k t, (pairwise F.tEdges)[k]? = some t → ∀ X Y v, ShowsIn runs k name X Y v →
      v = (centroidsIn (fun d => startedIn env.basedate t (rows d)) opened dx dy X Y : Rat))
    (v : Nat → Nat → Nat → Rat)
    (hv : ∀ k m n, k < rest.length → m < M → n < N →
      ShowsIn runs k name (xlo + (m + 1/2) * dx) (ylo + (n + 1/2) * dy) (v k m n)) :
    ((List.range rest.length).map fun k => overBoxes M N (v k)).sum = ((opened.map fun d =>
      (startedIn env.basedate (first, (first :: rest).getLast (List.cons_ne_nil _ _)) (rows d)).countP fun r =>
        InDomain xlo ylo dx dy M N r).sum : Nat) := by
  classical
  have hlen : (pairwise F.tEdges).length = rest.length := by rw [pairwise_length, hF]; rfl
  have hk : ∀ k, k < rest.length → ∃ t, (pairwise F.tEdges)[k]? = some t := fun k hk =>
    ⟨_, List.getElem?_eq_getElem (by rw [hlen]; exact hk)⟩
  have e1 : ((List.range rest.length).map fun k => overBoxes M N (v k)) = (pairwise F.tEdges).map fun t =>
      (((opened.map fun d => (startedIn env.basedate t (rows d)).countP fun r =>
        InDomain xlo ylo dx dy M N r).sum : Nat) : Rat) := by
    apply List.ext_getElem
    · rw [List.length_map, List.length_map, List.length_range, hlen]
    intro k h1 h2
    rw [List.length_map, List.length_range] at h1
    rw [List.getElem_map, List.getElem_map, List.getElem_range]
    obtain ⟨t, ht⟩ := hk k h1
    have ht' : (pairwise F.tEdges)[k]'(by rw [hlen]; exact h1) = t := by
      rw [List.getElem?_eq_getElem (by rw [hlen]; exact h1)] at ht
      exact Option.some.inj ht
    rw [ht']
    exact frame_total h (hx k t ht) (v k) fun m n hm hn => hv k m n h1 hm hn
  rw [e1]
  rw [hF]
  exact frames_count rows opened first rest (by rw [← hF]; exact ha)

/-- **C161**, totals.  If the edges of frames are in order, each flash that is large enough, starts in the period of the call
and has its centroid in the domain is counted once in the images of all frames together, however the period is cut into frames
and the domain into tiles, and so is each group of a flash that is large enough. -/
theorem C161_once (h : GoodCall env kw xlo ylo dx dy M N s me mg files opened) (hc : FramedCentroids env F dx dy opened)
    (hr : gridGlmFlashes (framesGridder env F) files kw shared = .ok (runs, sh)) {first : Rat} {rest : List Rat}
    (hF : F.tEdges = first :: rest) (ha : F.tEdges.Pairwise (· ≤ ·)) (v w : Nat → Nat → Nat → Rat)
    (hv : ∀ k m n, k < rest.length → m < M → n < N →
      ShowsIn runs k "flash_centroid_density" (xlo + (m + 1/2) * dx) (ylo + (n + 1/2) * dy) (v k m n))
    (hw : ∀ k m n, k < rest.length → m < M → n < N →
      ShowsIn runs k "group_centroid_density" (xlo + (m + 1/2) * dx) (ylo + (n + 1/2) * dy) (w k m n)) :
    ((List.range rest.length).map fun k => overBoxes M N (v k)).sum = ((opened.map fun d =>
      (startedIn env.basedate (first, (first :: rest).getLast (List.cons_ne_nil _ _)) (countedFlashes me mg d)).countP fun r =>
        InDomain xlo ylo dx dy M N r).sum : Nat) ∧
    ((List.range rest.length).map fun k => overBoxes M N (w k)).sum = ((opened.map fun d =>
      (startedIn env.basedate (first, (first :: rest).getLast (List.cons_ne_nil _ _)) (countedGroups me mg d)).countP fun r =>
        InDomain xlo ylo dx dy M N r).sum : Nat) :=
  ⟨frames_total h hF ha (fun _ _ ht X Y v => (C161_exact h hc hr ht X Y v).1) v hv,
    frames_total h hF ha (fun _ _ ht X Y v => (C161_exact h hc hr ht X Y v).2) w hw⟩

end

/-! ### Sample -/

/-- `centroidSample`, with its first flash 65 s after the base date and the other 5 s. -/
def lateSample : GFile :=
  { centroidSample with
    flashes := [⟨5, 0, { x := 2/1000, y := 2/1000, area := 100, nGroups := 2, nEvents := 2, times := [65000000000] }⟩,
      ⟨3, 0, { x := 9/2000, y := 7/2000, area := 60, nGroups := 1, nEvents := 2, times := [5000000000] }⟩] }

theorem lateSample_good : GoodCall wholeEnv wholeCall 0 0 (1/1000) (1/1000) 4 4 2 (some 2) none
    [lateSample] [lateSample] :=
  { wholeCall_good with
    opens := fun _ _ => opens_same _
    some := ⟨lateSample, by simp, by decide⟩
    compact := by
      have hpads : padBoxes (28 / 10000) (1 / 1000) = 2 := by decide +kernel
      intro d hd hne
      rw [hpads]
      rw [List.mem_singleton] at hd
      subst hd
      exact
        { hasData := by unfold HasData; decide +kernel
          consistent := by decide +kernel
          derived := ⟨by decide +kernel, by decide +kernel, by decide +kernel, by decide +kernel⟩
          flashes := by unfold UniqueIds; decide +kernel
          groups := by unfold UniqueIds; decide +kernel
          areas := by decide +kernel
          pixels := by unfold PixelExact placeOf; decide +kernel
          polygons := by decide +kernel
          narrow := by decide +kernel
          view := by decide +kernel
          event := by decide +kernel
          flash := by decide +kernel }
    centred := fun _ _ _ _ => square_centred (by norm_num) (by norm_num) (by norm_num) _ }

theorem lateSample_framed (tEdges : List Rat) :
    FramedCentroids wholeEnv (sampleFrames tEdges) (1/1000) (1/1000) [lateSample] where
  pick := sampleFrames_pick tEdges
  keep := fun _ _ => List.Perm.refl _
  points := countPoints_counts
  near := by
    have hpads : padBoxes (28 / 10000) (1 / 1000) = 2 := by decide +kernel
    rw [hpads]
    intro d hd
    rw [List.mem_singleton] at hd
    subst hd
    exact ⟨by decide +kernel, by decide +kernel⟩

theorem lateSample_counted : countedFlashes (some 2) none lateSample = lateSample.flashes := by
  unfold countedFlashes
  rw [List.filter_eq_self]
  intro f hf
  have h2 : 2 ≤ f.val.nEvents := by
    revert f
    decide +kernel
  simp only [decide_eq_true_eq]
  refine ⟨fun m hm => ?_, fun m hm => by cases hm⟩
  cases hm
  exact_mod_cast h2

theorem lateSample_runs (tEdges : List Rat) : ∃ runs sh,
    gridGlmFlashes (framesGridder wholeEnv (sampleFrames tEdges)) [lateSample] wholeCall [] = .ok (runs, sh) := by
  have h := lateSample_good
  obtain ⟨runs', sh', h1, -⟩ := call_runs (env := wholeEnv) (G := framesGridder wholeEnv (sampleFrames tEdges))
    (P := fun _ _ _ (w : List (String × ImageFile)) => True) rfl rfl rfl []
    h.asked h.xPos h.yPos h.tiles h.xTiles h.yTiles h.xPad h.yPad h.opens h.some (by
      intro tl a b c d p q hab hcd hp hq ep eq tx ty tp
      subst ep eq
      obtain ⟨fakes, hread, himg⟩ := tile_frames (env := wholeEnv) (sampleFrames_pick tEdges) h.xPos h.yPos h.edges hab hcd hp
        hq tx ty tp (some 2) none (files := [lateSample]) h.parts h.beside h.order h.compact h.centred
      refine ⟨fakes, hread, fun out scale => ?_⟩
      obtain ⟨imgs, hi, hsh⟩ := himg out scale
      refine ⟨imgs.map fun f => (f.name, f), ?_, trivial⟩
      show (do let files ← framesImages wholeEnv _ _ out _ scale; pure (files.map fun (f : ImageFile) => (f.name, f))) = _
      rw [hi]
      rfl)
  exact ⟨runs', sh', h1⟩

/-- The flash that starts after 65 s is in the second frame. -/
theorem lateSample_shown : ∃ runs sh, gridGlmFlashes (framesGridder wholeEnv (sampleFrames [0, 60, 120])) [lateSample] wholeCall
    [] = .ok (runs, sh) ∧ ShowsIn runs 0 "flash_centroid_density" (0 + ((2 : Nat) + 1/2) * (1/1000))
      (0 + ((2 : Nat) + 1/2) * (1/1000)) 0 ∧ ShowsIn runs 1 "flash_centroid_density" (0 + ((2 : Nat) + 1/2) * (1/1000))
      (0 + ((2 : Nat) + 1/2) * (1/1000)) 1 := by
  have h := lateSample_good
  obtain ⟨runs, sh, h1⟩ := lateSample_runs [0, 60, 120]
  refine ⟨runs, sh, h1, ?_⟩
  have at' : ∀ k t, (pairwise (sampleFrames [0, 60, 120]).tEdges)[k]? = some t →
      ShowsIn runs k "flash_centroid_density" (0 + ((2 : Nat) + 1/2) * (1/1000)) (0 + ((2 : Nat) + 1/2) * (1/1000))
        ((startedIn wholeEnv.basedate t lateSample.flashes).countP fun r => CentroidIn (1/1000) (1/1000)
          (0 + ((2 : Nat) + 1/2) * (1/1000)) (0 + ((2 : Nat) + 1/2) * (1/1000)) r : Nat) := by
    intro k t ht
    obtain ⟨v, hv⟩ := C161_everywhere h (sampleFrames_pick _) h1 ht 2 2 (by omega) (by omega) "flash_centroid_density" (by decide)
    have e1 := (C161_exact h (lateSample_framed _) h1 ht _ _ _).1 hv
    simp only [centroidsIn, List.map_cons, List.map_nil, List.sum_cons, List.sum_nil, add_zero, lateSample_counted] at e1
    rw [e1] at hv
    exact hv
  have a := at' 0 (0, 60) rfl
  have b := at' 1 (60, 120) rfl
  have c1 : ((startedIn wholeEnv.basedate (0, 60) lateSample.flashes).countP fun r => CentroidIn (1/1000) (1/1000)
    (0 + ((2 : Nat) + 1/2) * (1/1000)) (0 + ((2 : Nat) + 1/2) * (1/1000)) r) = 0 := by decide +kernel
  have c2 : ((startedIn wholeEnv.basedate (60, 120) lateSample.flashes).countP fun r => CentroidIn (1/1000) (1/1000)
    (0 + ((2 : Nat) + 1/2) * (1/1000)) (0 + ((2 : Nat) + 1/2) * (1/1000)) r) = 1 := by decide +kernel
  rw [c1] at a
  rw [c2] at b
  exact ⟨by exact_mod_cast a, by exact_mod_cast b⟩

/-- C161 does not hold in full: the file of the sample is in the first frame, and so are the extents of its flashes, but the
centroid of one of them is in the second. -/
theorem C161_full_false : ¬ C161_full := by
  intro hfull
  obtain ⟨runs, sh, h1, h2, -⟩ := lateSample_shown
  have := hfull _ _ _ _ _ _ _ _ _ _ _ _ _ _ _ _ _ lateSample_good (lateSample_framed [0, 60, 120]) h1 0 (0, 60) rfl _ _ _ h2
  have e : filesOf wholeEnv (0, 60) [lateSample] = [lateSample] := by
    unfold filesOf
    decide +kernel
  simp only [e, centroidsIn, List.map_cons, List.map_nil, List.sum_cons, List.sum_nil, add_zero, lateSample_counted] at this
  have c : (lateSample.flashes.countP fun r => CentroidIn (1/1000) (1/1000)
    (0 + ((2 : Nat) + 1/2) * (1/1000)) (0 + ((2 : Nat) + 1/2) * (1/1000)) r) = 1 := by decide +kernel
  rw [c] at this
  exact absurd this (by norm_num)

/-- With one frame of two minutes no file of the sample is across an edge. -/
example : ∀ d ∈ [lateSample], StartsOnOneSide wholeEnv (0, 120) d := by
  unfold StartsOnOneSide
  decide +kernel

end Verif.Props
