import Verif.Proofs.Imagery
import Mathlib.Tactic.Ring
import Mathlib.Tactic.Linarith
import Mathlib.Tactic.FieldSimp
import Mathlib.Tactic.NormNum
import Mathlib.Data.List.ProdSigma

/-!
# C37-C41, C44: images written from the grids
-/

namespace Verif.Props

open Verif.Py Verif.Model Verif.Proofs

/-! ## The part of the grid that is written -/

/-- The part of the grids that is written: first and last (exclusive) index in x and in y. -/
def written (g : Grids) (pad : Option (PySlice × PySlice)) : (Nat × Nat) × (Nat × Nat) :=
  ((pad.getD (⟨none, none⟩, ⟨none, none⟩)).1.bounds g.nx,
   (pad.getD (⟨none, none⟩, ⟨none, none⟩)).2.bounds g.ny)

theorem imageOf_shape (g : Grids) (xs ys : PySlice) (ti i : Nat) :
    (imageOf g xs ys ti i).rows = (ys.bounds g.ny).2 - (ys.bounds g.ny).1 ∧
    (imageOf g xs ys ti i).cols = (xs.bounds g.nx).2 - (xs.bounds g.nx).1 := ⟨rfl, rfl⟩

theorem imageOf_val (g : Grids) (xs ys : PySlice) (ti i r c : Nat)
    (hr : r < (imageOf g xs ys ti i).rows) (hc : c < (imageOf g xs ys ti i).cols) :
    InRegion g xs ys ((xs.bounds g.nx).1 + c) ((ys.bounds g.ny).2 - 1 - r) ∧
    (imageOf g xs ys ti i).val r c =
      (cell g ((xs.bounds g.nx).1 + c) ((ys.bounds g.ny).2 - 1 - r) ti).getD i 0 := by
  rw [(imageOf_shape g xs ys ti i).1] at hr
  rw [(imageOf_shape g xs ys ti i).2] at hc
  refine ⟨⟨⟨by omega, by omega⟩, by omega, by omega⟩, ?_⟩
  show (cell g ((xs.bounds g.nx).1 + c)
    ((ys.bounds g.ny).1 + ((ys.bounds g.ny).2 - (ys.bounds g.ny).1 - 1 - r)) ti).getD i 0 = _
  have e : (ys.bounds g.ny).1 + ((ys.bounds g.ny).2 - (ys.bounds g.ny).1 - 1 - r) =
      (ys.bounds g.ny).2 - 1 - r := by omega
  rw [e]

theorem pairwise_length {α : Type} (l : List α) : (pairwise l).length = l.length - 1 := by
  simp [pairwise]

theorem pairwise_getElem? {α : Type} (l : List α) (k : Nat) (t : α × α) :
    (pairwise l)[k]? = some t ↔ l[k]? = some t.1 ∧ l[k + 1]? = some t.2 := by
  unfold pairwise
  rw [List.getElem?_zip_eq_some, List.getElem?_tail]

/-- Everything about the files of one call. -/
theorem writeImagery_ok {s : ImageSetup} {pad : Option (PySlice × PySlice)} {sc : Bool}
    {g g' : Grids} {files : List ImageFile} (h : writeImagery s pad sc g = .ok (files, g')) :
    SameShape g g' ∧
    (∀ a b k, k < s.tEdges.length - 1 → InRegion g (pad.getD (⟨none, none⟩, ⟨none, none⟩)).1
        (pad.getD (⟨none, none⟩, ⟨none, none⟩)).2 a b →
      cell g' a b k = finalCell sc s.divide (fieldList s g) (cell g a b k)) ∧
    (∀ a b k, ¬ (k < s.tEdges.length - 1 ∧ InRegion g (pad.getD (⟨none, none⟩, ⟨none, none⟩)).1
        (pad.getD (⟨none, none⟩, ⟨none, none⟩)).2 a b) → cell g' a b k = cell g a b k) ∧
    files.length = s.tEdges.length - 1 ∧
    ∀ k f, files[k]? = some f → k < s.tEdges.length - 1 ∧ s.tEdges[k]? = some f.start ∧
      s.tEdges[k + 1]? = some f.stop ∧
      f.x = (pad.getD (⟨none, none⟩, ⟨none, none⟩)).1.apply (cellCentres s.xedge) ∧
      f.y = ((pad.getD (⟨none, none⟩, ⟨none, none⟩)).2.apply (cellCentres s.yedge)).reverse ∧
      inferScene s.table f.x f.y = .ok (f.scene, f.resolution) ∧
      f.name = s.fileName f.scene f.start f.stop ∧
      f.fields = (fieldList s g).map fun q =>
        (q.2, imageOf g' (pad.getD (⟨none, none⟩, ⟨none, none⟩)).1
          (pad.getD (⟨none, none⟩, ⟨none, none⟩)).2 k q.1) := by
  unfold writeImagery at h
  simp only at h
  generalize pad.getD (⟨none, none⟩, ⟨none, none⟩) = sl at h ⊢
  have hfst : ((List.range (pairwise s.tEdges).length).zip (pairwise s.tEdges)).map Prod.fst =
      List.range (pairwise s.tEdges).length := by
    rw [List.map_fst_zip]
    simp
  obtain ⟨h1, h2, h3, h4⟩ := writeFrames_ok (by rw [hfst]; exact List.nodup_range) h
  rw [hfst, pairwise_length] at h2 h3
  simp only [List.mem_range] at h2 h3
  refine ⟨h1, h2, h3, ?_, ?_⟩
  · have := h4.length_eq
    rw [List.length_zip, List.length_range, Nat.min_self, pairwise_length] at this
    exact this.symm
  · intro k f hf
    have hk : k < files.length := (List.getElem?_eq_some_iff.mp hf).1
    have hk2 : k < s.tEdges.length - 1 := by
      have := h4.length_eq
      rw [List.length_zip, List.length_range, Nat.min_self, pairwise_length] at this
      omega
    have hk3 : k < (pairwise s.tEdges).length := by rw [pairwise_length]; exact hk2
    have := (List.forall₂_iff_get.mp h4).2 k (by simpa using hk3) hk
    simp only [List.get_eq_getElem, List.getElem_zip, List.getElem_range] at this
    have hfe : files[k] = f := (List.getElem?_eq_some_iff.mp hf).2
    rw [hfe] at this
    obtain ⟨b1, b2, b3, b4, b5, b6, b7⟩ := this
    have hp := (pairwise_getElem? s.tEdges k _).mp (List.getElem?_eq_getElem hk3)
    rw [b1, b2]
    exact ⟨hk2, hp.1, hp.2, b3, b4, b5, by rw [b6, b1, b2], b7⟩

/-- The value of a pixel in terms of the cell that it shows. -/
theorem pixel_value {s : ImageSetup} {pad : Option (PySlice × PySlice)} {sc : Bool}
    {g g' : Grids} {files : List ImageFile} (h : writeImagery s pad sc g = .ok (files, g'))
    {k : Nat} {f : ImageFile} (hf : files[k]? = some f) {q : Nat × String}
    (r c : Nat) (hr : r < (written g pad).2.2 - (written g pad).2.1)
    (hc : c < (written g pad).1.2 - (written g pad).1.1) :
    (imageOf g' (pad.getD (⟨none, none⟩, ⟨none, none⟩)).1
      (pad.getD (⟨none, none⟩, ⟨none, none⟩)).2 k q.1).val r c =
    (finalCell sc s.divide (fieldList s g) (cell g ((written g pad).1.1 + c)
      ((written g pad).2.2 - 1 - r) k)).getD q.1 0 := by
  obtain ⟨h1, h2, h3, h4, h5⟩ := writeImagery_ok h
  obtain ⟨hk, -⟩ := h5 k f hf
  unfold written at hr hc ⊢
  simp only at hr hc ⊢
  generalize pad.getD (⟨none, none⟩, ⟨none, none⟩) = sl at *
  obtain ⟨e1, e2⟩ := imageOf_shape g' sl.1 sl.2 k q.1
  have := imageOf_val g' sl.1 sl.2 k q.1 r c (by rw [e1, h1.ny]; exact hr) (by rw [e2, h1.nx]; exact hc)
  rw [this.2, h1.nx, h1.ny, h2 _ _ k hk]
  have hin := (InRegion.congr h1).mp this.1
  rw [h1.nx, h1.ny] at hin
  exact hin

/-! ## C41 -/

/-- C41: one file per pair of consecutive time edges, in order, and each file starts where the one
before it ends. -/
theorem C41_frames (s : ImageSetup) (pad : Option (PySlice × PySlice)) (sc : Bool) (g g' : Grids)
    (files : List ImageFile) (h : writeImagery s pad sc g = .ok (files, g')) :
    files.length = s.tEdges.length - 1 ∧
    (∀ k f, files[k]? = some f → s.tEdges[k]? = some f.start ∧ s.tEdges[k + 1]? = some f.stop) ∧
    ∀ k f f', files[k]? = some f → files[k + 1]? = some f' → f'.start = f.stop := by
  obtain ⟨-, -, -, h4, h5⟩ := writeImagery_ok h
  refine ⟨h4, fun k f hf => ⟨(h5 k f hf).2.1, (h5 k f hf).2.2.1⟩, ?_⟩
  intro k f f' hf hf'
  have a := (h5 k f hf).2.2.1
  have b := (h5 (k + 1) f' hf').2.1
  rw [a] at b
  exact (Option.some.inj b).symm

/-! ## C40 -/

/-- `v` is the centre of cell `i` of the axis with the given edges. -/
def IsCentre (edges : List Rat) (i : Nat) (v : Rat) : Prop :=
  ∃ lo hi, edges[i]? = some lo ∧ edges[i + 1]? = some hi ∧ v = (lo + hi) / 2

theorem cellCentres_length (e : List Rat) : (cellCentres e).length = e.length - 1 := by
  simp [cellCentres]

theorem cellCentres_getElem? {e : List Rat} {i : Nat} {v : Rat} (h : (cellCentres e)[i]? = some v) :
    IsCentre e i v := by
  obtain ⟨hi, hv⟩ := List.getElem?_eq_some_iff.mp h
  rw [cellCentres_length] at hi
  refine ⟨e[i], e[i + 1], List.getElem?_eq_getElem _, List.getElem?_eq_getElem _, ?_⟩
  rw [← hv]
  simp [cellCentres]

theorem slice_apply_getElem? {β : Type} (s : PySlice) (l : List β) (k : Nat)
    (hk : k < (s.bounds l.length).2 - (s.bounds l.length).1) :
    (s.apply l)[k]? = l[(s.bounds l.length).1 + k]? := by
  unfold PySlice.apply slice
  rw [List.getElem?_take, if_pos (by omega), List.getElem?_drop]

theorem clampIndex_le (n : Nat) (i : Int) : clampIndex n i ≤ n := Nat.min_le_left _ _

theorem bounds_le (s : PySlice) (n : Nat) : (s.bounds n).2 ≤ n := by
  unfold PySlice.bounds
  cases s.stop with
  | none => exact Nat.le_refl n
  | some i => exact clampIndex_le n i

theorem slice_apply_length {β : Type} (s : PySlice) (l : List β) :
    (s.apply l).length = (s.bounds l.length).2 - (s.bounds l.length).1 := by
  unfold PySlice.apply slice
  rw [List.length_take, List.length_drop]
  have := bounds_le s l.length
  omega

/-- C40: pixel `(r, c)` of every image shows the cell of the grids with index
`(first + c, last - r)` in x and y; its coordinates in the file are the centre of that cell, and
its value is the value of that cell: of the accumulated grid, if it is written unscaled and not an
average. -/
theorem C40_orientation (s : ImageSetup) (pad : Option (PySlice × PySlice)) (sc : Bool)
    (g g' : Grids) (files : List ImageFile) (h : writeImagery s pad sc g = .ok (files, g'))
    (hx : s.xedge.length = g.nx + 1) (hy : s.yedge.length = g.ny + 1) (k : Nat) (f : ImageFile)
    (hf : files[k]? = some f) (r c : Nat)
    (hr : r < (written g pad).2.2 - (written g pad).2.1)
    (hc : c < (written g pad).1.2 - (written g pad).1.1) :
    (∃ vx, f.x[c]? = some vx ∧ IsCentre s.xedge ((written g pad).1.1 + c) vx) ∧
    (∃ vy, f.y[r]? = some vy ∧ IsCentre s.yedge ((written g pad).2.2 - 1 - r) vy) ∧
    (∀ i name img, f.fields[i]? = some (name, img) →
      img.rows = (written g pad).2.2 - (written g pad).2.1 ∧
      img.cols = (written g pad).1.2 - (written g pad).1.1 ∧
      s.names[i]? = some name ∧ ∃ field field', g.fields[i]? = some field ∧
        g'.fields[i]? = some field' ∧
        img.val r c = field' ((written g pad).1.1 + c) ((written g pad).2.2 - 1 - r) k ∧
        (sc = false → s.divide.lookup i = none →
          img.val r c = field ((written g pad).1.1 + c) ((written g pad).2.2 - 1 - r) k)) := by
  obtain ⟨h1, h2, h3, h4, h5⟩ := writeImagery_ok h
  obtain ⟨hk, -, -, b3, b4, -, -, b7⟩ := h5 k f hf
  have hpix := fun (q : Nat × String) => pixel_value h hf (q := q) r c hr hc
  unfold written at hr hc hpix ⊢
  simp only at hr hc hpix ⊢
  generalize pad.getD (⟨none, none⟩, ⟨none, none⟩) = sl at *
  have lx : (cellCentres s.xedge).length = g.nx := by rw [cellCentres_length, hx]; rfl
  have ly : (cellCentres s.yedge).length = g.ny := by rw [cellCentres_length, hy]; rfl
  have bx := bounds_le sl.1 g.nx
  have by' := bounds_le sl.2 g.ny
  refine ⟨?_, ?_, ?_⟩
  · have e := slice_apply_getElem? sl.1 (cellCentres s.xedge) c (by rw [lx]; exact hc)
    rw [lx] at e
    have hlt : (sl.1.bounds g.nx).1 + c < (cellCentres s.xedge).length := by rw [lx]; omega
    refine ⟨(cellCentres s.xedge)[(sl.1.bounds g.nx).1 + c], ?_, ?_⟩
    · rw [b3, e]; exact List.getElem?_eq_getElem hlt
    · exact cellCentres_getElem? (List.getElem?_eq_getElem hlt)
  · have hlen := slice_apply_length sl.2 (cellCentres s.yedge)
    rw [ly] at hlen
    have hlt : (sl.2.bounds g.ny).2 - 1 - r < (cellCentres s.yedge).length := by rw [ly]; omega
    refine ⟨(cellCentres s.yedge)[(sl.2.bounds g.ny).2 - 1 - r], ?_, ?_⟩
    · rw [b4, List.getElem?_reverse (by rw [hlen]; exact hr), hlen]
      have e := slice_apply_getElem? sl.2 (cellCentres s.yedge)
        ((sl.2.bounds g.ny).2 - (sl.2.bounds g.ny).1 - 1 - r) (by rw [ly]; omega)
      rw [ly] at e
      rw [e]
      have : (sl.2.bounds g.ny).1 + ((sl.2.bounds g.ny).2 - (sl.2.bounds g.ny).1 - 1 - r) =
          (sl.2.bounds g.ny).2 - 1 - r := by omega
      rw [this]
      exact List.getElem?_eq_getElem hlt
    · exact cellCentres_getElem? (List.getElem?_eq_getElem hlt)
  · intro i name img hi
    rw [b7, List.getElem?_map] at hi
    cases hq : (fieldList s g)[i]? with
    | none => rw [hq] at hi; cases hi
    | some q =>
      rw [hq] at hi
      simp only [Option.map_some, Option.some.injEq, Prod.mk.injEq] at hi
      obtain ⟨e1, e2⟩ := hi
      have hqz := List.getElem?_zip_eq_some.mp hq
      have hqi : q.1 = i ∧ i < min g.fields.length s.names.length := by
        have := hqz.1
        rw [List.getElem?_eq_some_iff] at this
        obtain ⟨hlt, hv⟩ := this
        rw [List.getElem_range] at hv
        rw [List.length_range] at hlt
        exact ⟨hv.symm, hlt⟩
      have hil : i < g.fields.length := lt_of_lt_of_le hqi.2 (Nat.min_le_left _ _)
      have hil' : i < g'.fields.length := by rw [h1.len]; exact hil
      have himg := imageOf_shape g' sl.1 sl.2 k q.1
      refine ⟨by rw [← e2, himg.1, h1.ny], by rw [← e2, himg.2, h1.nx], by rw [← e1]; exact hqz.2,
        g.fields[i], g'.fields[i], List.getElem?_eq_getElem hil, List.getElem?_eq_getElem hil', ?_, ?_⟩
      · have hv := imageOf_val g' sl.1 sl.2 k q.1 r c (by rw [himg.1, h1.ny]; exact hr)
          (by rw [himg.2, h1.nx]; exact hc)
        rw [← e2, hv.2, h1.nx, h1.ny, hqi.1, getD_cell, List.getElem?_eq_getElem hil']
        rfl
      · intro hsc hdiv
        subst hsc
        rw [← e2, hpix q, hqi.1]
        have : ∀ l : List (Nat × String), ∀ v : List Rat,
            (finalCell false s.divide l v).getD i 0 = v.getD i 0 := by
          intro l
          induction l with
          | nil => intro v; rfl
          | cons p l ih =>
            intro v
            show (finalCell false s.divide l (stepCell false s.divide v p)).getD i 0 = _
            rw [ih, stepCell, List.getD_eq_getElem?_getD, List.getD_eq_getElem?_getD,
              List.getElem?_set]
            split
            · rename_i hp
              split
              · rw [stepValue, hp, hdiv]
                simp [raiseTiny, scalingFor]
              · rename_i hlt
                rw [List.getElem?_eq_none (by omega)]
            · rfl
        rw [this, getD_cell, List.getElem?_eq_getElem hil]
        rfl

/-- Every cell of the part that is written is shown by exactly one pixel. -/
theorem C40_onto (g : Grids) (pad : Option (PySlice × PySlice)) (a b : Nat)
    (ha : (written g pad).1.1 ≤ a ∧ a < (written g pad).1.2)
    (hb : (written g pad).2.1 ≤ b ∧ b < (written g pad).2.2) :
    ∃! p : Nat × Nat, p.1 < (written g pad).2.2 - (written g pad).2.1 ∧
      p.2 < (written g pad).1.2 - (written g pad).1.1 ∧
      (written g pad).1.1 + p.2 = a ∧ (written g pad).2.2 - 1 - p.1 = b := by
  refine ⟨((written g pad).2.2 - 1 - b, a - (written g pad).1.1), ⟨?_, ?_, ?_, ?_⟩, ?_⟩
  · show _ < _; simp only; omega
  · show _ < _; simp only; omega
  · simp only; omega
  · simp only; omega
  · rintro ⟨p, q⟩ ⟨h1, h2, h3, h4⟩
    simp only at h1 h2 h3 h4
    simp only [Prod.mk.injEq]
    omega

/-- x increases and y decreases along the axes of the image, for increasing edges. -/
theorem C40_directions (s : ImageSetup) (pad : Option (PySlice × PySlice)) (sc : Bool)
    (g g' : Grids) (files : List ImageFile) (h : writeImagery s pad sc g = .ok (files, g'))
    (hx : s.xedge.Pairwise (· < ·)) (hy : s.yedge.Pairwise (· < ·)) (f : ImageFile)
    (hf : f ∈ files) : f.x.Pairwise (· < ·) ∧ f.y.Pairwise (· > ·) := by
  obtain ⟨k, hk, he⟩ := List.getElem_of_mem hf
  obtain ⟨-, -, -, -, h5⟩ := writeImagery_ok h
  obtain ⟨-, -, -, b3, b4, -⟩ := h5 k f (by rw [List.getElem?_eq_getElem hk, he])
  have mono : ∀ e : List Rat, e.Pairwise (· < ·) → (cellCentres e).Pairwise (· < ·) := by
    intro e he
    rw [List.pairwise_iff_getElem] at he ⊢
    intro i j hi hj hij
    rw [cellCentres_length] at hi hj
    simp only [cellCentres, List.getElem_zipWith, List.getElem_dropLast, List.getElem_tail]
    have a := he i j (by omega) (by omega) hij
    have b := he (i + 1) (j + 1) (by omega) (by omega) (by omega)
    linarith
  have sub : ∀ (s : PySlice) (l : List Rat), (s.apply l).Sublist l := by
    intro s l
    exact (List.take_sublist _ _).trans (List.drop_sublist _ _)
  rw [b3, b4, List.pairwise_reverse]
  exact ⟨(mono _ hx).sublist (sub _ _), (mono _ hy).sublist (sub _ _)⟩

theorem writeFrames_exists (s : ImageSetup) (xs ys : PySlice) (sc : Bool)
    (hx : 2 ≤ (xs.apply (cellCentres s.xedge)).length)
    (hy : 1 ≤ (ys.apply (cellCentres s.yedge)).length) (l : List (Nat × (Rat × Rat))) :
    ∀ g : Grids, (∀ p ∈ l, p.1 < g.nt) →
    (∀ i k, s.divide.lookup i = some k → k < g.fields.length) →
    ∃ out, writeFrames s xs ys sc g l = .ok out := by
  induction l with
  | nil => intro g _ _; exact ⟨_, rfl⟩
  | cons p l ih =>
    obtain ⟨ti, t⟩ := p
    intro g h1 h2
    obtain ⟨sc', hsc⟩ : ∃ out, inferScene s.table (xs.apply (cellCentres s.xedge))
        (ys.apply (cellCentres s.yedge)).reverse = .ok out := by
      match hX : xs.apply (cellCentres s.xedge), hY : (ys.apply (cellCentres s.yedge)).reverse with
      | x0 :: x1 :: xs', y0 :: ys' => exact ⟨_, rfl⟩
      | [], _ => rw [hX] at hx; simp at hx
      | [x0], _ => rw [hX] at hx; simp at hx
      | _, [] => rw [List.reverse_eq_nil_iff] at hY; rw [hY] at hy; simp at hy
    obtain ⟨nm, hnm⟩ : ∃ nm, sceneAttrs sc'.1 = .ok nm := by
      cases sc'.1 <;> exact ⟨_, rfl⟩
    obtain ⟨r, hr⟩ := writeFields_exists xs ys sc (divide := s.divide) (ti := ti)
      (l := fieldList s g) (g := g) (h1 (ti, t) List.mem_cons_self) (by
        intro p hp
        have := (List.of_mem_zip hp).1
        rw [List.mem_range] at this
        omega) h2
    have hw : ∃ f, writeFrame s xs ys sc g ti t = .ok (f, r.2) := by
      unfold writeFrame
      unfold fieldList at hr
      simp only [bind, Except.bind, pure, Except.pure, hsc, hnm, hr]
      exact ⟨_, rfl⟩
    obtain ⟨f, hf⟩ := hw
    obtain ⟨hshape, -⟩ := writeFrame_ok hf
    obtain ⟨rs, hrs⟩ := ih r.2 (fun p hp => by rw [hshape.nt]; exact h1 p (List.mem_cons_of_mem _ hp))
      (fun i k hik => by rw [hshape.len]; exact h2 i k hik)
    unfold writeFrames
    simp only [bind, Except.bind, pure, Except.pure, hf, hrs]
    exact ⟨_, rfl⟩

/-- The files are written whenever at least two columns and one row are to be written, there are as
many frames in the grids as in the time edges, and the averages name existing grids. -/
theorem C41_written (s : ImageSetup) (pad : Option (PySlice × PySlice)) (sc : Bool) (g : Grids)
    (hx : s.xedge.length = g.nx + 1) (hy : s.yedge.length = g.ny + 1)
    (ht : s.tEdges.length ≤ g.nt + 1)
    (hc : 2 ≤ (written g pad).1.2 - (written g pad).1.1)
    (hr : 1 ≤ (written g pad).2.2 - (written g pad).2.1)
    (hd : ∀ i k, s.divide.lookup i = some k → k < g.fields.length) :
    ∃ files g', writeImagery s pad sc g = .ok (files, g') := by
  unfold writeImagery written at *
  simp only at *
  generalize pad.getD (⟨none, none⟩, ⟨none, none⟩) = sl at *
  have lx : (cellCentres s.xedge).length = g.nx := by rw [cellCentres_length, hx]; rfl
  have ly : (cellCentres s.yedge).length = g.ny := by rw [cellCentres_length, hy]; rfl
  obtain ⟨out, ho⟩ := writeFrames_exists s sl.1 sl.2 sc
    (by rw [slice_apply_length, lx]; exact hc) (by rw [slice_apply_length, ly]; exact hr)
    ((List.range (pairwise s.tEdges).length).zip (pairwise s.tEdges)) g (by
      intro p hp
      have := (List.of_mem_zip hp).1
      rw [List.mem_range, pairwise_length] at this
      omega) hd
  exact ⟨out.1, out.2, ho⟩

/-- Three columns, two rows, two frames; the value of a cell tells its indices. -/
def indexSetup : ImageSetup where
  table := ⟨(1, 1), (1, 1), (1, 1), []⟩
  fileName := fun _ _ _ => "image.nc"
  xedge := [0, 2, 4, 6]
  yedge := [0, 10, 20]
  tEdges := [0, 60, 120]
  names := ["flash_extent_density"]
  divide := []

def indexGrids : Grids := ⟨3, 2, 2, [fun i j k => 100 * i + 10 * j + k]⟩

example : (writeImagery indexSetup none false indexGrids).toOption.map (fun o =>
    o.1.map fun f => [[[f.start, f.stop]], [f.x], [f.y]] ++ f.fields.map fun p =>
      [[p.2.val 0 0, p.2.val 0 1, p.2.val 0 2], [p.2.val 1 0, p.2.val 1 1, p.2.val 1 2]]) =
    some [[[[0, 60]], [[1, 3, 5]], [[15, 5]], [[10, 110, 210], [0, 100, 200]]],
      [[[60, 120]], [[1, 3, 5]], [[15, 5]], [[11, 111, 211], [1, 101, 201]]]] := by decide +kernel

/-- With the last column and the first row trimmed. -/
example : (writeImagery indexSetup (some (⟨some 0, some (-1)⟩, ⟨some 1, none⟩)) false
    indexGrids).toOption.map (fun o =>
    o.1.map fun f => [[[f.start, f.stop]], [f.x], [f.y]] ++ f.fields.map fun p =>
      [[p.2.val 0 0, p.2.val 0 1]]) =
    some [[[[0, 60]], [[1, 3]], [[15]], [[10, 110]]], [[[60, 120]], [[1, 3]], [[15]], [[11, 111]]]] := by
  decide +kernel

/-! ## C39 -/

theorem npAround_bounds (q : Rat) : (npAround q : Rat) - q ≤ 1 / 2 ∧ q - npAround q ≤ 1 / 2 := by
  have h1 := Int.floor_le q
  have h2 := Int.lt_floor_add_one q
  unfold npAround
  simp only
  split_ifs <;> push_cast <;> constructor <;> linarith

theorem npAround_int (n : Int) : npAround n = n := by
  unfold npAround
  simp

theorem npAround_mono_int {q : Rat} {n : Int} : ((n : Rat) ≤ q → n ≤ npAround q) ∧
    (q ≤ n → npAround q ≤ n) := by
  have hb := npAround_bounds q
  constructor
  · intro h
    by_contra hc
    have h1 : npAround q + 1 ≤ n := by omega
    have h2 : ((npAround q : Int) : Rat) + 1 ≤ n := by exact_mod_cast h1
    linarith
  · intro h
    by_contra hc
    have h1 : n + 1 ≤ npAround q := by omega
    have h2 : (n : Rat) + 1 ≤ ((npAround q : Int) : Rat) := by exact_mod_cast h1
    linarith

/-- C39 for any scale without offset: 0 is stored as the missing value; every positive value up to
the largest storable one is stored as a count that is not 0, and is read as a value within half a
step, or as one step if it was smaller. -/
theorem C39_scaling (step v : Rat) (hs : 0 < step) (hv : 0 ≤ v) (hmax : v ≤ 65535 * step) :
    ∃ n, cfEncode ⟨step, 0⟩ (raiseTiny (some ⟨step, 0⟩) v) = some n ∧
      (n = 0 ↔ v = 0) ∧ (cfDecode ⟨step, 0⟩ n = none ↔ v = 0) ∧
      (v ≠ 0 → ∃ w, cfDecode ⟨step, 0⟩ n = some w ∧ (v < step → w = step) ∧
        (step ≤ v → |w - v| ≤ step / 2)) := by
  by_cases h0 : v = 0
  · subst h0
    refine ⟨0, ?_, by simp, by simp [cfDecode], fun h => absurd rfl h⟩
    unfold cfEncode raiseTiny
    simp only [gt_iff_lt, lt_irrefl, false_and, if_false, sub_zero, zero_div]
    have : npAround 0 = 0 := npAround_int 0
    rw [this]
    decide
  · have hpos : 0 < v := lt_of_le_of_ne hv (Ne.symm h0)
    -- the value after raising
    obtain ⟨u, hu⟩ : ∃ u, u = raiseTiny (some ⟨step, 0⟩) v := ⟨_, rfl⟩
    have hu1 : (v < step → u = step) ∧ (step ≤ v → u = v) := by
      rw [hu]
      unfold raiseTiny
      simp only [gt_iff_lt, add_zero]
      constructor
      · intro h; rw [if_pos ⟨hpos, h.le⟩]
      · intro h
        split
        · rename_i hh; exact le_antisymm h hh.2
        · rfl
    have hu2 : step ≤ u ∧ u ≤ 65535 * step := by
      rcases lt_or_ge v step with h | h
      · rw [hu1.1 h]; constructor <;> linarith
      · rw [hu1.2 h]; exact ⟨h, hmax⟩
    have hq1 : (1 : Rat) ≤ u / step := by rw [le_div_iff₀ hs]; linarith
    have hq2 : u / step ≤ (65535 : Rat) := by rw [div_le_iff₀ hs]; exact hu2.2
    have hn1 : 1 ≤ npAround (u / step) := npAround_mono_int.1 (by exact_mod_cast hq1)
    have hn2 : npAround (u / step) ≤ 65535 := npAround_mono_int.2 (by exact_mod_cast hq2)
    have hb := npAround_bounds (u / step)
    have hnat : ((npAround (u / step)).toNat : Int) = npAround (u / step) :=
      Int.toNat_of_nonneg (by omega)
    have hne : (npAround (u / step)).toNat ≠ 0 := by omega
    refine ⟨(npAround (u / step)).toNat, ?_, ⟨fun h => absurd h hne, fun h => absurd h h0⟩, ?_, ?_⟩
    · rw [← hu]
      unfold cfEncode
      simp only [sub_zero]
      rw [if_pos ⟨by omega, by omega⟩]
    · unfold cfDecode
      rw [if_neg hne]
      simp [h0]
    · intro _
      have hcast : (((npAround (u / step)).toNat : Nat) : Rat) = ((npAround (u / step) : Int) : Rat) := by
        exact_mod_cast congrArg (Int.cast : Int → Rat) hnat
      refine ⟨_, by unfold cfDecode; rw [if_neg hne], ?_, ?_⟩
      · intro h
        rw [hu1.1 h, div_self hs.ne'] at hcast ⊢
        have h1 : npAround 1 = 1 := npAround_int 1
        simp [h1]
      · intro h
        rw [hu1.2 h] at hb hcast ⊢
        simp only [hcast, add_zero]
        have hv' : v = v / step * step := by field_simp
        rw [abs_le]
        constructor
        · nlinarith
        · nlinarith

/-- Every field that is scaled has a positive step and no offset, so that C39 applies to it. -/
theorem C39_tables : ∀ p ∈ glmScaling, ∃ step, 0 < step ∧ p.2 = ⟨step, 0⟩ := by
  intro p hp
  simp only [glmScaling, List.mem_cons, List.not_mem_nil, or_false] at hp
  rcases hp with rfl | rfl | rfl | rfl | rfl | rfl | rfl | rfl | rfl <;>
    exact ⟨_, by norm_num, rfl⟩

example : cfEncode ⟨1/16, 0⟩ (raiseTiny (some ⟨1/16, 0⟩) (1/1000)) = some 1 := by decide +kernel
example : cfEncode ⟨1/16, 0⟩ (raiseTiny (some ⟨1/16, 0⟩) (5/32)) = some 2 := by decide +kernel
/-- Without raising, small values would be stored as missing. -/
example : cfEncode ⟨1/16, 0⟩ (1/1000) = some 0 := by decide +kernel

/-! ## C37 -/

/-- The gridder for clipped events: the grids by name. -/
structure LutGrids (s : ImageSetup) (g : Grids)
    (fed fcd flashArea energy ged gcd groupArea minArea : Nat → Nat → Nat → Rat) : Prop where
  names : ∃ label, s.names = (lutOutputSetup label).names
  divide : ∃ label, s.divide = (lutOutputSetup label).divide
  fields : g.fields = [fed, fcd, flashArea, energy, ged, gcd, groupArea, minArea]

/-- The average: total over density, 0 where nothing was accumulated. -/
def averageOf (total density : Rat) : Rat := if density = 0 then 0 else total / density

/-- C37: the average areas in the file are the accumulated areas over the accumulated densities. -/
def C37_full : Prop := ∀ (s : ImageSetup) (pad : Option (PySlice × PySlice)) (sc : Bool)
  (g g' : Grids) (files : List ImageFile)
  (fed fcd flashArea energy ged gcd groupArea minArea : Nat → Nat → Nat → Rat),
  LutGrids s g fed fcd flashArea energy ged gcd groupArea minArea →
  writeImagery s pad sc g = .ok (files, g') → ∀ k f, files[k]? = some f →
  ∀ r c, r < (written g pad).2.2 - (written g pad).2.1 →
    c < (written g pad).1.2 - (written g pad).1.1 →
  (∀ img, ("average_flash_area", img) ∈ f.fields → img.val r c =
    averageOf (flashArea ((written g pad).1.1 + c) ((written g pad).2.2 - 1 - r) k)
      (fed ((written g pad).1.1 + c) ((written g pad).2.2 - 1 - r) k)) ∧
  (∀ img, ("average_group_area", img) ∈ f.fields → img.val r c =
    averageOf (groupArea ((written g pad).1.1 + c) ((written g pad).2.2 - 1 - r) k)
      (ged ((written g pad).1.1 + c) ((written g pad).2.2 - 1 - r) k))

theorem quotient_eq (a d : Rat) : quotient a d = averageOf a d := by
  unfold quotient averageOf
  by_cases hd : d = 0
  · simp [hd]
  · by_cases ha : a = 0
    · simp [ha]
    · simp [hd, ha]

/-- A positive value is at least one step. -/
def atLeastStep (sc : Bool) (step v : Rat) : Rat := if sc = true ∧ 0 < v ∧ v < step then step else v

theorem raiseTiny_eq {name : String} {step : Rat} (h : glmScaling.lookup name = some ⟨step, 0⟩)
    (sc : Bool) (v : Rat) : raiseTiny (scalingFor name sc) v = atLeastStep sc step v := by
  unfold scalingFor atLeastStep
  cases sc with
  | false => simp [raiseTiny]
  | true =>
    rw [if_pos rfl, h]
    simp only [raiseTiny, gt_iff_lt, add_zero, true_and]
    by_cases hv : 0 < v
    · rcases lt_trichotomy v step with h1 | h1 | h1
      · rw [if_pos ⟨hv, h1.le⟩, if_pos ⟨hv, h1⟩]
      · rw [if_pos ⟨hv, h1.le⟩, if_neg (by rintro ⟨-, h⟩; linarith), h1]
      · rw [if_neg (by rintro ⟨-, h⟩; linarith), if_neg (by rintro ⟨-, h⟩; linarith)]
    · rw [if_neg (fun h => hv h.1), if_neg (fun h => hv h.1)]

theorem lut_fieldList {s : ImageSetup} {g : Grids}
    {fed fcd flashArea energy ged gcd groupArea minArea : Nat → Nat → Nat → Rat}
    (hg : LutGrids s g fed fcd flashArea energy ged gcd groupArea minArea) :
    fieldList s g = [(0, "flash_extent_density"), (1, "flash_centroid_density"),
      (2, "average_flash_area"), (3, "total_energy"), (4, "group_extent_density"),
      (5, "group_centroid_density"), (6, "average_group_area"), (7, "minimum_flash_area")] := by
  obtain ⟨⟨l, h1⟩, -, h3⟩ := hg
  unfold fieldList
  rw [h1, h3]
  rfl

/-- What the loop leaves in a cell of the gridder for clipped events. -/
theorem lut_finalCell {s : ImageSetup} {g : Grids} (sc : Bool)
    {fed fcd flashArea energy ged gcd groupArea minArea : Nat → Nat → Nat → Rat}
    (hg : LutGrids s g fed fcd flashArea energy ged gcd groupArea minArea) (v : List Rat)
    (v0 v1 v2 v3 v4 v5 v6 v7 : Rat) (hv : v = [v0, v1, v2, v3, v4, v5, v6, v7]) :
    finalCell sc s.divide (fieldList s g) v =
      [atLeastStep sc (1/16) v0, atLeastStep sc 1 v1,
       atLeastStep sc 10 (averageOf v2 (atLeastStep sc (1/16) v0)),
       atLeastStep sc (152597 / 100000000000) v3, atLeastStep sc (1/4) v4, atLeastStep sc 1 v5,
       atLeastStep sc 1 (averageOf v6 (atLeastStep sc (1/4) v4)), atLeastStep sc 10 v7] := by
  rw [lut_fieldList hg, hv]
  obtain ⟨-, ⟨l, h2⟩, -⟩ := hg
  rw [h2]
  have e0 := fun v => raiseTiny_eq (name := "flash_extent_density") (step := 1/16) (by decide +kernel) sc v
  have e1 := fun v => raiseTiny_eq (name := "flash_centroid_density") (step := 1) (by decide +kernel) sc v
  have e2 := fun v => raiseTiny_eq (name := "average_flash_area") (step := 10) (by decide +kernel) sc v
  have e3 := fun v => raiseTiny_eq (name := "total_energy") (step := 152597 / 100000000000)
    (by decide +kernel) sc v
  have e4 := fun v => raiseTiny_eq (name := "group_extent_density") (step := 1/4) (by decide +kernel) sc v
  have e5 := fun v => raiseTiny_eq (name := "group_centroid_density") (step := 1) (by decide +kernel) sc v
  have e6 := fun v => raiseTiny_eq (name := "average_group_area") (step := 1) (by decide +kernel) sc v
  have e7 := fun v => raiseTiny_eq (name := "minimum_flash_area") (step := 10) (by decide +kernel) sc v
  simp only [finalCell, List.foldl_cons, List.foldl_nil, stepCell, stepValue, e0, e1, e2, e3, e4, e5,
    e6, e7, lutOutputSetup, quotient_eq]
  rfl

/-- All eight fields of a file. -/
theorem lut_pixels {s : ImageSetup} {pad : Option (PySlice × PySlice)} {sc : Bool}
    {g g' : Grids} {files : List ImageFile}
    {fed fcd flashArea energy ged gcd groupArea minArea : Nat → Nat → Nat → Rat}
    (hg : LutGrids s g fed fcd flashArea energy ged gcd groupArea minArea)
    (h : writeImagery s pad sc g = .ok (files, g')) {k : Nat} {f : ImageFile}
    (hf : files[k]? = some f) {name : String} {img : Image} (hm : (name, img) ∈ f.fields)
    {r c : Nat} (hr : r < (written g pad).2.2 - (written g pad).2.1)
    (hc : c < (written g pad).1.2 - (written g pad).1.1) {a b : Nat}
    (ha : a = (written g pad).1.1 + c) (hb : b = (written g pad).2.2 - 1 - r) :
    (name, img.val r c) ∈
      [("flash_extent_density", atLeastStep sc (1/16) (fed a b k)),
       ("flash_centroid_density", atLeastStep sc 1 (fcd a b k)),
       ("average_flash_area",
         atLeastStep sc 10 (averageOf (flashArea a b k) (atLeastStep sc (1/16) (fed a b k)))),
       ("total_energy", atLeastStep sc (152597 / 100000000000) (energy a b k)),
       ("group_extent_density", atLeastStep sc (1/4) (ged a b k)),
       ("group_centroid_density", atLeastStep sc 1 (gcd a b k)),
       ("average_group_area",
         atLeastStep sc 1 (averageOf (groupArea a b k) (atLeastStep sc (1/4) (ged a b k)))),
       ("minimum_flash_area", atLeastStep sc 10 (minArea a b k))] := by
  obtain ⟨-, -, -, -, h5⟩ := writeImagery_ok h
  obtain ⟨-, -, -, -, -, -, -, b7⟩ := h5 k f hf
  rw [b7] at hm
  obtain ⟨q, hq, he⟩ := List.mem_map.mp hm
  have hv := pixel_value h hf (q := q) r c hr hc
  rw [← ha, ← hb] at hv
  rw [lut_finalCell sc hg (cell g a b k) _ _ _ _ _ _ _ _ (by unfold cell; rw [hg.fields]; rfl)] at hv
  simp only [Prod.mk.injEq] at he
  obtain ⟨rfl, rfl⟩ := he
  rw [hv]
  rw [lut_fieldList hg] at hq
  simp only [List.mem_cons, List.not_mem_nil, or_false] at hq
  rcases hq with rfl | rfl | rfl | rfl | rfl | rfl | rfl | rfl <;> simp

/-- C37, exactly: the density in the denominator is the scaled one, where positive values below one
step have been raised, and the average itself is raised in the same way. -/
theorem C37_exact (s : ImageSetup) (pad : Option (PySlice × PySlice)) (sc : Bool)
    (g g' : Grids) (files : List ImageFile)
    (fed fcd flashArea energy ged gcd groupArea minArea : Nat → Nat → Nat → Rat)
    (hg : LutGrids s g fed fcd flashArea energy ged gcd groupArea minArea)
    (h : writeImagery s pad sc g = .ok (files, g')) (k : Nat) (f : ImageFile)
    (hf : files[k]? = some f) (r c : Nat) (hr : r < (written g pad).2.2 - (written g pad).2.1)
    (hc : c < (written g pad).1.2 - (written g pad).1.1) (a b : Nat)
    (ha : a = (written g pad).1.1 + c) (hb : b = (written g pad).2.2 - 1 - r) :
    (∀ img, ("average_flash_area", img) ∈ f.fields → img.val r c =
      atLeastStep sc 10 (averageOf (flashArea a b k) (atLeastStep sc (1/16) (fed a b k)))) ∧
    (∀ img, ("average_group_area", img) ∈ f.fields → img.val r c =
      atLeastStep sc 1 (averageOf (groupArea a b k) (atLeastStep sc (1/4) (ged a b k)))) := by
  constructor <;>
  · intro img hm
    have := lut_pixels hg h hf hm hr hc ha hb
    simpa using this

/-- C37, the part that holds: unscaled always; scaled where the density is not below one step and
the average neither (and where nothing was accumulated).  Missing: smaller densities. -/
theorem C37_partial (s : ImageSetup) (pad : Option (PySlice × PySlice)) (sc : Bool)
    (g g' : Grids) (files : List ImageFile)
    (fed fcd flashArea energy ged gcd groupArea minArea : Nat → Nat → Nat → Rat)
    (hg : LutGrids s g fed fcd flashArea energy ged gcd groupArea minArea)
    (h : writeImagery s pad sc g = .ok (files, g')) (k : Nat) (f : ImageFile)
    (hf : files[k]? = some f) (r c : Nat) (hr : r < (written g pad).2.2 - (written g pad).2.1)
    (hc : c < (written g pad).1.2 - (written g pad).1.1) (a b : Nat)
    (ha : a = (written g pad).1.1 + c) (hb : b = (written g pad).2.2 - 1 - r) :
    ((sc = true → (fed a b k ≤ 0 ∨ 1/16 ≤ fed a b k) ∧
        (averageOf (flashArea a b k) (fed a b k) ≤ 0 ∨ 10 ≤ averageOf (flashArea a b k) (fed a b k))) →
      ∀ img, ("average_flash_area", img) ∈ f.fields → img.val r c =
        averageOf (flashArea a b k) (fed a b k)) ∧
    ((sc = true → (ged a b k ≤ 0 ∨ 1/4 ≤ ged a b k) ∧
        (averageOf (groupArea a b k) (ged a b k) ≤ 0 ∨ 1 ≤ averageOf (groupArea a b k) (ged a b k))) →
      ∀ img, ("average_group_area", img) ∈ f.fields → img.val r c =
        averageOf (groupArea a b k) (ged a b k)) := by
  obtain ⟨h1, h2⟩ := C37_exact s pad sc g g' files fed fcd flashArea energy ged gcd groupArea minArea
    hg h k f hf r c hr hc a b ha hb
  have keep : ∀ step v : Rat, (sc = true → v ≤ 0 ∨ step ≤ v) → atLeastStep sc step v = v := by
    intro step v hh
    unfold atLeastStep
    rw [if_neg]
    rintro ⟨hs, h1, h2⟩
    rcases hh hs with h | h <;> linarith
  constructor
  · intro hh img hm
    rw [h1 img hm, keep _ (fed a b k) (fun hs => (hh hs).1), keep _ _ (fun hs => (hh hs).2)]
  · intro hh img hm
    rw [h2 img hm, keep _ (ged a b k) (fun hs => (hh hs).1), keep _ _ (fun hs => (hh hs).2)]

/-- A setup with two columns, one row and one frame. -/
def tinySetup : ImageSetup where
  table := ⟨(1, 1), (1, 1), (1, 1), []⟩
  fileName := fun _ _ _ => "image.nc"
  xedge := [0, 1, 2]
  yedge := [0, 1]
  tEdges := [0, 60]
  names := (lutOutputSetup "").names
  divide := (lutOutputSetup "").divide

/-- Grids with a constant in every cell. -/
def tinyGrids (density area : Rat) : Grids where
  nx := 2
  ny := 1
  nt := 1
  fields := [density, 1, area, 1, 4, 1, 100, 300].map fun v _ _ _ => v

theorem tiny_lut (density area : Rat) : LutGrids tinySetup (tinyGrids density area)
    (fun _ _ _ => density) (fun _ _ _ => 1) (fun _ _ _ => area) (fun _ _ _ => 1) (fun _ _ _ => 4)
    (fun _ _ _ => 1) (fun _ _ _ => 100) (fun _ _ _ => 300) :=
  ⟨⟨"", rfl⟩, ⟨"", rfl⟩, rfl⟩

/-- What is read off below. -/
def tinyView (out : List ImageFile × Grids) : List (String × Rat) :=
  out.1.flatMap fun f => f.fields.map fun p => (p.1, p.2.val 0 0)

/-- A flash of 100 square kilometres that covers a thirty-second part of a cell: the average that is
written with scaling is 50. -/
example : (writeImagery tinySetup none true (tinyGrids (1/32) (100/32))).toOption.map tinyView =
    some [("flash_extent_density", 1/16), ("flash_centroid_density", 1), ("average_flash_area", 50),
      ("total_energy", 1), ("group_extent_density", 4), ("group_centroid_density", 1),
      ("average_group_area", 25), ("minimum_flash_area", 300)] := by decide +kernel

theorem C37_full_false : ¬ C37_full := by
  intro hfull
  have hv : (writeImagery tinySetup none true (tinyGrids (1/32) (100/32))).toOption.map
      (fun o => (o.1.length, o.1.map fun f => f.fields.map fun p => (p.1, p.2.val 0 0))) =
    some (1, [[("flash_extent_density", 1/16), ("flash_centroid_density", 1),
      ("average_flash_area", 50), ("total_energy", 1), ("group_extent_density", 4),
      ("group_centroid_density", 1), ("average_group_area", 25), ("minimum_flash_area", 300)]]) := by
    decide +kernel
  cases hw : writeImagery tinySetup none true (tinyGrids (1/32) (100/32)) with
  | error e => rw [hw] at hv; cases hv
  | ok o =>
    obtain ⟨files, g'⟩ := o
    rw [hw] at hv
    simp only [Except.toOption, Option.map_some, Option.some.injEq, Prod.mk.injEq] at hv
    obtain ⟨f, hf⟩ : ∃ f, files = [f] := List.length_eq_one_iff.mp hv.1
    subst hf
    have hm : f.fields.map (fun p => (p.1, p.2.val 0 0)) = _ := List.singleton_inj.mp hv.2
    have hm2 : ("average_flash_area", (50 : Rat)) ∈ f.fields.map (fun p => (p.1, p.2.val 0 0)) := by
      rw [hm]; simp
    obtain ⟨⟨n, img⟩, hp, he⟩ := List.mem_map.mp hm2
    simp only [Prod.mk.injEq] at he
    obtain ⟨rfl, he⟩ := he
    have := (hfull tinySetup none true _ _ _ _ _ _ _ _ _ _ _ (tiny_lut _ _) hw 0 f rfl 0 0
      (by decide) (by decide)).1 img hp
    rw [he] at this
    unfold averageOf at this
    norm_num at this

/-! ## C38 -/

/-- C38: a second call writes the same images. -/
def C38_full : Prop := ∀ (s : ImageSetup) (pad : Option (PySlice × PySlice)) (sc : Bool)
  (g g' g'' : Grids) (files files' : List ImageFile)
  (fed fcd flashArea energy ged gcd groupArea minArea : Nat → Nat → Nat → Rat),
  LutGrids s g fed fcd flashArea energy ged gcd groupArea minArea →
  writeImagery s pad sc g = .ok (files, g') → writeImagery s pad sc g' = .ok (files', g'') →
  ∀ (k : Nat) (f f' : ImageFile), files[k]? = some f → files'[k]? = some f' →
    ∀ (name : String) (img img' : Image), (name, img) ∈ f.fields → (name, img') ∈ f'.fields →
    ∀ r c, r < (written g pad).2.2 - (written g pad).2.1 →
      c < (written g pad).1.2 - (written g pad).1.1 → img'.val r c = img.val r c

theorem eight_of_length {α : Type} {l : List α} (h : l.length = 8) :
    ∃ a b c d e f g i, l = [a, b, c, d, e, f, g, i] := by
  match l, h with
  | [a, b, c, d, e, f, g, i], _ => exact ⟨a, b, c, d, e, f, g, i, rfl⟩

theorem atLeastStep_idem (sc : Bool) (step v : Rat) :
    atLeastStep sc step (atLeastStep sc step v) = atLeastStep sc step v := by
  unfold atLeastStep
  split_ifs <;> rfl

/-- C38, exactly: the second call writes the same densities, energies and minimum areas, but it
divides the average areas by the (scaled) densities once more. -/
theorem C38_exact (s : ImageSetup) (pad : Option (PySlice × PySlice)) (sc : Bool)
    (g g' g'' : Grids) (files files' : List ImageFile)
    (fed fcd flashArea energy ged gcd groupArea minArea : Nat → Nat → Nat → Rat)
    (hg : LutGrids s g fed fcd flashArea energy ged gcd groupArea minArea)
    (h : writeImagery s pad sc g = .ok (files, g'))
    (h' : writeImagery s pad sc g' = .ok (files', g'')) (k : Nat) (f f' : ImageFile)
    (hf : files[k]? = some f) (hf' : files'[k]? = some f') (name : String) (img img' : Image)
    (hi : (name, img) ∈ f.fields) (hi' : (name, img') ∈ f'.fields) (r c : Nat)
    (hr : r < (written g pad).2.2 - (written g pad).2.1)
    (hc : c < (written g pad).1.2 - (written g pad).1.1) (a b : Nat)
    (ha : a = (written g pad).1.1 + c) (hb : b = (written g pad).2.2 - 1 - r) :
    img'.val r c =
      if name = "average_flash_area" then
        atLeastStep sc 10 (averageOf (img.val r c) (atLeastStep sc (1/16) (fed a b k)))
      else if name = "average_group_area" then
        atLeastStep sc 1 (averageOf (img.val r c) (atLeastStep sc (1/4) (ged a b k)))
      else img.val r c := by
  obtain ⟨h1, h2, h3, h4, h5⟩ := writeImagery_ok h
  have hlen : g'.fields.length = 8 := by rw [h1.len, hg.fields]; rfl
  obtain ⟨p0, p1, p2, p3, p4, p5, p6, p7, hp⟩ := eight_of_length hlen
  have hg' : LutGrids s g' p0 p1 p2 p3 p4 p5 p6 p7 := ⟨hg.names, hg.divide, hp⟩
  have hw : written g' pad = written g pad := by unfold written; rw [h1.nx, h1.ny]
  have hreg : InRegion g (pad.getD (⟨none, none⟩, ⟨none, none⟩)).1
      (pad.getD (⟨none, none⟩, ⟨none, none⟩)).2 a b := by
    unfold written at ha hb hr hc
    simp only at ha hb hr hc
    refine ⟨⟨?_, ?_⟩, ?_, ?_⟩ <;> omega
  have hcell := h2 a b k (h5 k f hf).1 hreg
  rw [lut_finalCell sc hg (cell g a b k) _ _ _ _ _ _ _ _ (by unfold cell; rw [hg.fields]; rfl)] at hcell
  unfold cell at hcell
  rw [hp] at hcell
  simp only [List.map_cons, List.map_nil, List.cons.injEq, and_true] at hcell
  obtain ⟨c0, c1, c2, c3, c4, c5, c6, c7⟩ := hcell
  have m1 := lut_pixels hg h hf hi hr hc ha hb
  have m2 := lut_pixels (a := a) (b := b) hg' h' hf' hi' (by rw [hw]; exact hr) (by rw [hw]; exact hc)
    (by rw [hw]; exact ha) (by rw [hw]; exact hb)
  simp only [c0, c1, c2, c3, c4, c5, c6, c7, atLeastStep_idem] at m2
  have hn : name ∈ ["flash_extent_density", "flash_centroid_density", "average_flash_area",
      "total_energy", "group_extent_density", "group_centroid_density", "average_group_area",
      "minimum_flash_area"] := by
    have := List.mem_map_of_mem (f := Prod.fst) m1
    simpa using this
  simp only [List.mem_cons, List.not_mem_nil, or_false] at hn
  rcases hn with rfl | rfl | rfl | rfl | rfl | rfl | rfl | rfl <;>
    simp at m1 m2 <;> simp [m1, m2]

/-- C38, the part that holds: everything but the two average areas.  Missing: the averages, for which
`C38_exact` says what is written instead. -/
theorem C38_partial (s : ImageSetup) (pad : Option (PySlice × PySlice)) (sc : Bool)
    (g g' g'' : Grids) (files files' : List ImageFile)
    (fed fcd flashArea energy ged gcd groupArea minArea : Nat → Nat → Nat → Rat)
    (hg : LutGrids s g fed fcd flashArea energy ged gcd groupArea minArea)
    (h : writeImagery s pad sc g = .ok (files, g'))
    (h' : writeImagery s pad sc g' = .ok (files', g'')) (k : Nat) (f f' : ImageFile)
    (hf : files[k]? = some f) (hf' : files'[k]? = some f') (name : String)
    (hname : name ≠ "average_flash_area" ∧ name ≠ "average_group_area") (img img' : Image)
    (hi : (name, img) ∈ f.fields) (hi' : (name, img') ∈ f'.fields) (r c : Nat)
    (hr : r < (written g pad).2.2 - (written g pad).2.1)
    (hc : c < (written g pad).1.2 - (written g pad).1.1) : img'.val r c = img.val r c := by
  rw [C38_exact s pad sc g g' g'' files files' fed fcd flashArea energy ged gcd groupArea minArea hg h
    h' k f f' hf hf' name img img' hi hi' r c hr hc _ _ rfl rfl, if_neg hname.1, if_neg hname.2]

/-- Two calls. -/
def writeTwice (s : ImageSetup) (sc : Bool) (g : Grids) :
    Except Err (List ImageFile × List ImageFile) := do
  let o ← writeImagery s none sc g
  let o' ← writeImagery s none sc o.2
  pure (o.1, o'.1)

/-- Two flashes of 100 square kilometres: the second file says 50. -/
theorem twice_sample : (writeTwice tinySetup false (tinyGrids 2 200)).toOption.map (fun o =>
    (o.1.map (fun f => f.fields.map fun p => (p.1, p.2.val 0 0)),
     o.2.map (fun f => f.fields.map fun p => (p.1, p.2.val 0 0)))) =
    some ([[("flash_extent_density", 2), ("flash_centroid_density", 1), ("average_flash_area", 100),
      ("total_energy", 1), ("group_extent_density", 4), ("group_centroid_density", 1),
      ("average_group_area", 25), ("minimum_flash_area", 300)]],
     [[("flash_extent_density", 2), ("flash_centroid_density", 1), ("average_flash_area", 50),
      ("total_energy", 1), ("group_extent_density", 4), ("group_centroid_density", 1),
      ("average_group_area", 25/4), ("minimum_flash_area", 300)]]) := by decide +kernel

theorem C38_full_false : ¬ C38_full := by
  intro hfull
  have hv := twice_sample
  unfold writeTwice at hv
  simp only [bind, Except.bind] at hv
  cases h1 : writeImagery tinySetup none false (tinyGrids 2 200) with
  | error e => rw [h1] at hv; cases hv
  | ok o =>
    rw [h1] at hv
    simp only at hv
    cases h2 : writeImagery tinySetup none false o.2 with
    | error e => rw [h2] at hv; cases hv
    | ok o' =>
      rw [h2] at hv
      simp only [pure, Except.pure, Except.toOption, Option.map_some, Option.some.injEq,
        Prod.mk.injEq] at hv
      obtain ⟨e1, e2⟩ := hv
      have l1 : o.1.length = 1 := by rw [← List.length_map, e1]; rfl
      have l2 : o'.1.length = 1 := by rw [← List.length_map, e2]; rfl
      obtain ⟨f, hf⟩ := List.length_eq_one_iff.mp l1
      obtain ⟨f', hf'⟩ := List.length_eq_one_iff.mp l2
      rw [hf, List.map_singleton, List.singleton_inj] at e1
      rw [hf', List.map_singleton, List.singleton_inj] at e2
      have m1 : ("average_flash_area", (100 : Rat)) ∈ f.fields.map (fun p => (p.1, p.2.val 0 0)) := by
        rw [e1]; simp
      have m2 : ("average_flash_area", (50 : Rat)) ∈ f'.fields.map (fun p => (p.1, p.2.val 0 0)) := by
        rw [e2]; simp
      obtain ⟨⟨n, img⟩, hp, he⟩ := List.mem_map.mp m1
      obtain ⟨⟨n', img'⟩, hp', he'⟩ := List.mem_map.mp m2
      simp only [Prod.mk.injEq] at he he'
      obtain ⟨rfl, he⟩ := he
      obtain ⟨rfl, he'⟩ := he'
      have := hfull tinySetup none false _ o.2 o'.2 o.1 o'.1 _ _ _ _ _ _ _ _ (tiny_lut 2 200) h1 h2
        0 f f' (by rw [hf]; rfl) (by rw [hf']; rfl) _ img img' hp hp' 0 0 (by decide) (by decide)
      rw [he, he'] at this
      norm_num at this

/-! ## C44 -/

/-- C44: the inference of the scene answers for all coordinates of an image. -/
def C44_full : Prop := ∀ (t : SceneTable) (x y : List Rat), x ≠ [] → y ≠ [] →
  ∃ out, inferScene t x y = .ok out ∧ out.1 ∈ [Scene.full, .conus, .meso1, .other] ∧
    ∃ names, sceneAttrs out.1 = .ok names

/-- C44 is violated by an image with one column. -/
theorem C44_full_false : ¬ C44_full := by
  intro h
  obtain ⟨out, h1, -⟩ := h ⟨(1, 1), (1, 1), (1, 1), []⟩ [0] [0] (by simp) (by simp)
  cases h1

/-- Close to a span of a known scene: within one percent and 1e-8. -/
def Near (v ref : Rat) : Prop := |v - ref| ≤ 1 / 100000000 + 1 / 100 * |ref|

/-- `w` is the difference of the greatest and the least element. -/
def IsSpan (l : List Rat) (w : Rat) : Prop :=
  ∃ lo ∈ l, ∃ hi ∈ l, (∀ v ∈ l, lo ≤ v ∧ v ≤ hi) ∧ w = hi - lo

theorem foldl_max_spec (l : List Rat) : ∀ a : Rat,
    (l.foldl max a ∈ a :: l) ∧ ∀ v ∈ a :: l, v ≤ l.foldl max a := by
  induction l with
  | nil => intro a; simp
  | cons b l ih =>
    intro a
    obtain ⟨h1, h2⟩ := ih (max a b)
    simp only [List.foldl_cons]
    constructor
    · rcases List.mem_cons.mp h1 with h | h
      · rw [h]
        rcases max_choice a b with e | e <;> simp [e]
      · simp [h]
    · intro v hv
      have hm := h2 (max a b) (by simp)
      rcases List.mem_cons.mp hv with rfl | hv
      · exact le_trans (le_max_left _ _) hm
      · rcases List.mem_cons.mp hv with rfl | hv
        · exact le_trans (le_max_right _ _) hm
        · exact h2 v (by simp [hv])

theorem foldl_min_spec (l : List Rat) : ∀ a : Rat,
    (l.foldl min a ∈ a :: l) ∧ ∀ v ∈ a :: l, l.foldl min a ≤ v := by
  induction l with
  | nil => intro a; simp
  | cons b l ih =>
    intro a
    obtain ⟨h1, h2⟩ := ih (min a b)
    simp only [List.foldl_cons]
    constructor
    · rcases List.mem_cons.mp h1 with h | h
      · rw [h]
        rcases min_choice a b with e | e <;> simp [e]
      · simp [h]
    · intro v hv
      have hm := h2 (min a b) (by simp)
      rcases List.mem_cons.mp hv with rfl | hv
      · exact le_trans hm (min_le_left _ _)
      · rcases List.mem_cons.mp hv with rfl | hv
        · exact le_trans hm (min_le_right _ _)
        · exact h2 v (by simp [hv])

theorem span_spec {l : List Rat} {w : Rat} (h : span l = .ok w) : IsSpan l w := by
  cases l with
  | nil => cases h
  | cons a l =>
    cases h
    obtain ⟨h1, h2⟩ := foldl_max_spec l a
    obtain ⟨h3, h4⟩ := foldl_min_spec l a
    exact ⟨_, h3, _, h1, fun v hv => ⟨h4 v hv, h2 v hv⟩, rfl⟩

/-- C44, exactly: with at least two columns and one row there is an answer, in the documented
priority, and it can be named; with fewer there is an exception. -/
theorem C44_exact (t : SceneTable) (x y : List Rat) :
    (2 ≤ x.length ∧ 1 ≤ y.length → ∃ scene res spanEW spanNS, inferScene t x y = .ok (scene, res) ∧
      IsSpan x spanEW ∧ IsSpan y spanNS ∧ (∃ names, sceneAttrs scene = .ok names) ∧
      let isFull := Near spanEW t.full.1 ∧ Near spanNS t.full.2
      let isConus := Near spanEW t.conus.1 ∧ Near spanNS t.conus.2
      let isMeso := Near spanEW t.meso.1 ∧ Near spanNS t.meso.2
      let isExpanded := Near spanEW (172732 / 1000000)
      (scene = .full ↔ isFull) ∧
      (scene = .conus ↔ ¬ isFull ∧ (isConus ∨ ¬ isMeso ∧ isExpanded)) ∧
      (scene = .meso1 ↔ ¬ isFull ∧ ¬ isConus ∧ isMeso) ∧
      (scene = .other ↔ ¬ isFull ∧ ¬ isConus ∧ ¬ isMeso ∧ ¬ isExpanded) ∧ scene ≠ .meso2) ∧
    (¬ (2 ≤ x.length ∧ 1 ≤ y.length) → ∃ e, inferScene t x y = .error e) := by
  constructor
  · rintro ⟨hx, hy⟩
    match x, y, hx, hy with
    | x0 :: x1 :: xs, y0 :: ys, _, _ =>
      obtain ⟨wx, hwx⟩ : ∃ w, span (x0 :: x1 :: xs) = .ok w := ⟨_, rfl⟩
      obtain ⟨wy, hwy⟩ : ∃ w, span (y0 :: ys) = .ok w := ⟨_, rfl⟩
      unfold inferScene
      simp only [List.getElem?_cons_succ, List.getElem?_cons_zero, bind, Except.bind, hwx, hwy, pure,
        Except.pure]
      refine ⟨_, _, wx, wy, rfl, span_spec hwx, span_spec hwy, ?_, ?_⟩
      · split_ifs <;> exact ⟨_, rfl⟩
      · have hn : ∀ a b, allclose a b = true ↔ Near a b := fun a b => by simp [allclose, Near]
        simp only [← hn]
        split_ifs <;> simp_all
  · intro h
    match x, y, h with
    | [], _, _ => exact ⟨_, rfl⟩
    | [x0], _, _ => exact ⟨_, rfl⟩
    | x0 :: x1 :: xs, [], _ => exact ⟨_, rfl⟩
    | x0 :: x1 :: xs, y0 :: ys, h => exact absurd ⟨by simp, by simp⟩ h

/-- C44, the part that holds. -/
theorem C44_partial (t : SceneTable) (x y : List Rat) (hx : 2 ≤ x.length) (hy : y ≠ []) :
    ∃ out, inferScene t x y = .ok out ∧ out.1 ∈ [Scene.full, .conus, .meso1, .other] ∧
      ∃ names, sceneAttrs out.1 = .ok names := by
  obtain ⟨scene, res, a, b, h1, -, -, h2, h3⟩ :=
    (C44_exact t x y).1 ⟨hx, List.length_pos_iff.mpr hy⟩
  refine ⟨_, h1, ?_, h2⟩
  have := h3.2.2.2.2
  cases scene <;> simp_all

/-- The spans of lmatools.grid.fixed, for the instances below. -/
def goesTable : SceneTable :=
  ⟨(303744/1000000, 303744/1000000), (14 / 100, 84 / 1000), (28 / 1000, 28 / 1000),
    [("2.0km", 56 / 1000000), ("10.0km", 280 / 1000000)]⟩

example : (inferScene goesTable [0, 1 / 100, 28 / 1000] [28 / 1000, 0]).toOption =
    some (.meso1, .microradians 10000) := by decide +kernel
example : (inferScene goesTable [0, 56 / 1000000, 172732 / 1000000] [1, 0]).toOption =
    some (.conus, .known "2.0km") := by decide +kernel
example : (inferScene goesTable [0, 1] [1, 0]).toOption = some (.other, .microradians 1000000) := by
  decide +kernel

end Verif.Props
