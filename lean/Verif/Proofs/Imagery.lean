import Verif.Model.Imagery

/-!
# What the loops of `write_goes_imagery` do to one cell
-/

namespace Verif.Proofs

open Verif.Py Verif.Model

/-- The values of all fields in one cell at one time. -/
def cell (g : Grids) (a b t : Nat) : List Rat := g.fields.map fun f => f a b t

/-- The value that one turn of the loop leaves in field `i`. -/
def stepValue (sc : Bool) (divide : List (Nat × Nat)) (i : Nat) (name : String) (v : List Rat) : Rat :=
  raiseTiny (scalingFor name sc) (match divide.lookup i with
    | none => v.getD i 0
    | some k => quotient (v.getD i 0) (v.getD k 0))

/-- One turn of the loop on one cell. -/
def stepCell (sc : Bool) (divide : List (Nat × Nat)) (v : List Rat) (p : Nat × String) : List Rat :=
  v.set p.1 (stepValue sc divide p.1 p.2 v)

/-- The whole loop on one cell. -/
def finalCell (sc : Bool) (divide : List (Nat × Nat)) (l : List (Nat × String)) (v : List Rat) :
    List Rat := l.foldl (stepCell sc divide) v

/-- The cell is in the part that is written. -/
def InRegion (g : Grids) (xs ys : PySlice) (a b : Nat) : Prop :=
  ((xs.bounds g.nx).1 ≤ a ∧ a < (xs.bounds g.nx).2) ∧ (ys.bounds g.ny).1 ≤ b ∧ b < (ys.bounds g.ny).2

/-- The number of images of one kind, and the part of the grid, are unchanged. -/
structure SameShape (g g' : Grids) : Prop where
  nx : g'.nx = g.nx
  ny : g'.ny = g.ny
  nt : g'.nt = g.nt
  len : g'.fields.length = g.fields.length

theorem SameShape.refl (g : Grids) : SameShape g g := ⟨rfl, rfl, rfl, rfl⟩

theorem SameShape.trans {a b c : Grids} (h : SameShape a b) (k : SameShape b c) : SameShape a c :=
  ⟨k.nx.trans h.nx, k.ny.trans h.ny, k.nt.trans h.nt, k.len.trans h.len⟩

theorem getD_cell (g : Grids) (a b t i : Nat) :
    (cell g a b t).getD i 0 = ((g.fields[i]?).map fun f => f a b t).getD 0 := by
  rw [List.getD_eq_getElem?_getD, cell, List.getElem?_map]

/-- The image of a field. -/
def imageOf (g : Grids) (xs ys : PySlice) (ti i : Nat) : Image :=
  ((Grid.mk g.nx g.ny fun a b => (cell g a b ti).getD i 0).slice xs ys).toImage

theorem writeField_ok {xs ys : PySlice} {sc : Bool} {divide : List (Nat × Nat)} {ti i : Nat}
    {name : String} {g g' : Grids} {img : Image}
    (h : writeField xs ys sc divide ti g i name = .ok (img, g')) :
    ti < g.nt ∧ i < g.fields.length ∧ SameShape g g' ∧
    (∀ a b, InRegion g xs ys a b → cell g' a b ti = stepCell sc divide (cell g a b ti) (i, name)) ∧
    (∀ a b t, ¬ (t = ti ∧ InRegion g xs ys a b) → cell g' a b t = cell g a b t) ∧
    img = imageOf g' xs ys ti i := by
  unfold writeField at h
  simp only [bind, Except.bind, pure, Except.pure] at h
  by_cases hti : g.nt ≤ ti
  · rw [if_pos hti] at h; cases h
  rw [if_neg hti] at h
  cases hf : g.fields[i]? with
  | none => rw [hf] at h; cases h
  | some f =>
    rw [hf] at h
    have hi : i < g.fields.length := (List.getElem?_eq_some_iff.mp hf).1
    have hfi : g.fields[i] = f := (List.getElem?_eq_some_iff.mp hf).2
    simp only at h
    -- the common part: `q` is what the division leaves
    have key : ∀ q : Nat → Nat → Rat, ∀ f' : Nat → Nat → Nat → Rat,
        (f' = f ∧ (∀ a b, q a b = f a b ti) ∨ f' = updateRegion g.nx g.ny xs ys ti f q) →
        (∀ a b, InRegion g xs ys a b → stepValue sc divide i name (cell g a b ti) =
          raiseTiny (scalingFor name sc) (q a b)) →
        ((Grid.slice ⟨g.nx, g.ny, fun a b => updateRegion g.nx g.ny xs ys ti f'
            (fun a b => raiseTiny (scalingFor name sc) (f' a b ti)) a b ti⟩ xs ys).toImage,
          { g with fields := g.fields.set i (updateRegion g.nx g.ny xs ys ti f'
            (fun a b => raiseTiny (scalingFor name sc) (f' a b ti))) }) = (img, g') →
        ti < g.nt ∧ i < g.fields.length ∧ SameShape g g' ∧
        (∀ a b, InRegion g xs ys a b → cell g' a b ti = stepCell sc divide (cell g a b ti) (i, name)) ∧
        (∀ a b t, ¬ (t = ti ∧ InRegion g xs ys a b) → cell g' a b t = cell g a b t) ∧
        img = imageOf g' xs ys ti i := by
      intro q f' hq hs he
      have hf' : ∀ a b, InRegion g xs ys a b → f' a b ti = q a b := by
        intro a b hr
        rcases hq with ⟨e, e2⟩ | e
        · rw [e, e2]
        · rw [e, updateRegion, if_pos ⟨rfl, hr.1.1, hr.1.2, hr.2.1, hr.2.2⟩]
      have hf'' : ∀ a b t, ¬ (t = ti ∧ InRegion g xs ys a b) → f' a b t = f a b t := by
        intro a b t hr
        rcases hq with ⟨e, e2⟩ | e
        · rw [e]
        · rw [e, updateRegion, if_neg]
          exact fun hh => hr ⟨hh.1, ⟨hh.2.1, hh.2.2.1⟩, hh.2.2.2⟩
      injection he with e1 e2
      subst e1 e2
      refine ⟨by omega, hi, ⟨rfl, rfl, rfl, by simp⟩, ?_, ?_, ?_⟩
      · intro a b hr
        show List.map _ _ = _
        rw [List.map_set]
        show _ = List.set _ _ _
        congr 1
        rw [hs a b hr, updateRegion, if_pos ⟨rfl, hr.1.1, hr.1.2, hr.2.1, hr.2.2⟩, hf' a b hr]
      · intro a b t hr
        show List.map _ _ = List.map _ _
        rw [List.map_set, updateRegion, if_neg (fun hh => hr ⟨hh.1, ⟨hh.2.1, hh.2.2.1⟩, hh.2.2.2⟩),
          hf'' a b t hr, ← hfi]
        conv_rhs => rw [← List.set_getElem_self (as := List.map (fun f => f a b t) g.fields) (i := i) (by simpa using hi)]
        rw [List.getElem_map]
      · unfold imageOf
        congr 2
        simp only [Grid.mk.injEq, true_and]
        funext a b
        rw [getD_cell, List.getElem?_set_self hi]
        rfl
    cases hl : divide.lookup i with
    | none =>
      rw [hl] at h
      simp only [Except.ok.injEq] at h
      refine key (fun a b => f a b ti) f (Or.inl ⟨rfl, fun _ _ => rfl⟩) ?_ h
      intro a b _
      rw [stepValue, hl, getD_cell, hf]
      rfl
    | some k =>
      rw [hl] at h
      simp only at h
      cases hk : g.fields[k]? with
      | none => rw [hk] at h; cases h
      | some d =>
        rw [hk] at h
        simp only [Except.ok.injEq] at h
        refine key (fun a b => quotient (f a b ti) (d a b ti)) _ (Or.inr rfl) ?_ h
        intro a b _
        rw [stepValue, hl]
        simp only [getD_cell, hf, hk]
        rfl

theorem InRegion.congr {g g' : Grids} (h : SameShape g g') {xs ys : PySlice} {a b : Nat} :
    InRegion g' xs ys a b ↔ InRegion g xs ys a b := by
  unfold InRegion; rw [h.nx, h.ny]

theorem finalCell_length (sc : Bool) (divide : List (Nat × Nat)) (l : List (Nat × String)) :
    ∀ v : List Rat, (finalCell sc divide l v).length = v.length := by
  induction l with
  | nil => intro v; rfl
  | cons p l ih => intro v; show (finalCell sc divide l (stepCell sc divide v p)).length = _; rw [ih]; simp [stepCell]

theorem finalCell_getD_ne {sc : Bool} {divide : List (Nat × Nat)} {l : List (Nat × String)} {i : Nat}
    (h : i ∉ l.map Prod.fst) : ∀ v : List Rat, (finalCell sc divide l v).getD i 0 = v.getD i 0 := by
  induction l with
  | nil => intro v; rfl
  | cons p l ih =>
    intro v
    simp only [List.map_cons, List.mem_cons, not_or] at h
    show (finalCell sc divide l (stepCell sc divide v p)).getD i 0 = _
    rw [ih h.2, stepCell, List.getD_eq_getElem?_getD, List.getD_eq_getElem?_getD,
      List.getElem?_set_ne (fun e => h.1 e.symm)]

theorem imageOf_congr {g g' : Grids} (h : SameShape g g') {xs ys : PySlice} {ti i : Nat}
    (hc : ∀ a b, (cell g' a b ti).getD i 0 = (cell g a b ti).getD i 0) :
    imageOf g' xs ys ti i = imageOf g xs ys ti i := by
  unfold imageOf
  congr 2
  simp only [Grid.mk.injEq]
  exact ⟨h.nx, h.ny, by funext a b; exact hc a b⟩

theorem writeFields_ok {xs ys : PySlice} {sc : Bool} {divide : List (Nat × Nat)} {ti : Nat}
    {l : List (Nat × String)} :
    ∀ {g g' : Grids} {imgs : List (String × Image)}, (l.map Prod.fst).Nodup →
      writeFields xs ys sc divide ti g l = .ok (imgs, g') →
      SameShape g g' ∧
      (∀ a b, InRegion g xs ys a b → cell g' a b ti = finalCell sc divide l (cell g a b ti)) ∧
      (∀ a b t, ¬ (t = ti ∧ InRegion g xs ys a b) → cell g' a b t = cell g a b t) ∧
      imgs = l.map fun p => (p.2, imageOf g' xs ys ti p.1) := by
  induction l with
  | nil =>
    intro g g' imgs _ h
    cases h
    exact ⟨SameShape.refl _, fun _ _ _ => rfl, fun _ _ _ _ => rfl, rfl⟩
  | cons p l ih =>
    obtain ⟨i, name⟩ := p
    intro g g' imgs hn h
    rw [writeFields] at h
    simp only [bind, Except.bind] at h
    cases h1 : writeField xs ys sc divide ti g i name with
    | error e => rw [h1] at h; cases h
    | ok r =>
      rw [h1] at h
      simp only at h
      cases h2 : writeFields xs ys sc divide ti r.2 l with
      | error e => rw [h2] at h; cases h
      | ok rs =>
        rw [h2] at h
        simp only [pure, Except.pure, Except.ok.injEq] at h
        injection h with e1 e2
        subst e1 e2
        rw [List.map_cons, List.nodup_cons] at hn
        obtain ⟨-, -, s1, c1, u1, m1⟩ := writeField_ok (img := r.1) (g' := r.2) h1
        obtain ⟨s2, c2, u2, m2⟩ := ih (g' := rs.2) (imgs := rs.1) hn.2 h2
        refine ⟨s1.trans s2, ?_, ?_, ?_⟩
        · intro a b hr
          rw [c2 a b ((InRegion.congr s1).mpr hr), c1 a b hr]
          rfl
        · intro a b t hr
          rw [u2 a b t (fun hh => hr ⟨hh.1, (InRegion.congr s1).mp hh.2⟩), u1 a b t hr]
        · rw [List.map_cons, m2, m1]
          congr 2
          refine (imageOf_congr s2 ?_).symm
          intro a b
          by_cases hr : InRegion g xs ys a b
          · rw [c2 a b ((InRegion.congr s1).mpr hr)]
            exact finalCell_getD_ne hn.1 _
          · rw [u2 a b ti (fun hh => hr ((InRegion.congr s1).mp hh.2))]

theorem writeField_exists (xs ys : PySlice) (sc : Bool) {divide : List (Nat × Nat)} {ti i : Nat}
    (name : String) {g : Grids} (h1 : ti < g.nt) (h2 : i < g.fields.length)
    (h3 : ∀ k, divide.lookup i = some k → k < g.fields.length) :
    ∃ r, writeField xs ys sc divide ti g i name = .ok r := by
  unfold writeField
  simp only [bind, Except.bind, pure, Except.pure]
  rw [if_neg (by omega), List.getElem?_eq_getElem h2]
  simp only
  cases hl : divide.lookup i with
  | none => exact ⟨_, rfl⟩
  | some k =>
    simp only [List.getElem?_eq_getElem (h3 k hl)]
    exact ⟨_, rfl⟩

theorem writeFields_exists (xs ys : PySlice) (sc : Bool) {divide : List (Nat × Nat)} {ti : Nat}
    {l : List (Nat × String)} : ∀ {g : Grids}, ti < g.nt → (∀ p ∈ l, p.1 < g.fields.length) →
    (∀ i k, divide.lookup i = some k → k < g.fields.length) →
    ∃ r, writeFields xs ys sc divide ti g l = .ok r := by
  induction l with
  | nil => intro g _ _ _; exact ⟨_, rfl⟩
  | cons p l ih =>
    obtain ⟨i, name⟩ := p
    intro g h1 h2 h3
    obtain ⟨r, hr⟩ := writeField_exists xs ys sc name h1 (h2 (i, name) List.mem_cons_self) (h3 i)
    obtain ⟨-, -, s, -⟩ := writeField_ok (img := r.1) (g' := r.2) hr
    obtain ⟨rs, hrs⟩ := ih (g := r.2) (by rw [s.nt]; exact h1)
      (fun p hp => by rw [s.len]; exact h2 p (List.mem_cons_of_mem _ hp))
      (fun i k hk => by rw [s.len]; exact h3 i k hk)
    rw [writeFields, hr]
    simp only [bind, Except.bind, hrs]
    exact ⟨_, rfl⟩

/-- The fields in the order of the loop. -/
def fieldList (s : ImageSetup) (g : Grids) : List (Nat × String) :=
  (List.range (min g.fields.length s.names.length)).zip s.names

theorem fieldList_congr {s : ImageSetup} {g g' : Grids} (h : SameShape g g') :
    fieldList s g' = fieldList s g := by unfold fieldList; rw [h.len]

theorem fieldList_fst (s : ImageSetup) (g : Grids) :
    (fieldList s g).map Prod.fst = List.range (min g.fields.length s.names.length) := by
  unfold fieldList
  rw [List.map_fst_zip]
  simp

theorem fieldList_nodup (s : ImageSetup) (g : Grids) : ((fieldList s g).map Prod.fst).Nodup := by
  rw [fieldList_fst]; exact List.nodup_range

theorem writeFrame_ok {s : ImageSetup} {xs ys : PySlice} {sc : Bool} {g g' : Grids} {ti : Nat}
    {t : Rat × Rat} {f : ImageFile} (h : writeFrame s xs ys sc g ti t = .ok (f, g')) :
    SameShape g g' ∧
    (∀ a b, InRegion g xs ys a b →
      cell g' a b ti = finalCell sc s.divide (fieldList s g) (cell g a b ti)) ∧
    (∀ a b t, ¬ (t = ti ∧ InRegion g xs ys a b) → cell g' a b t = cell g a b t) ∧
    f.start = t.1 ∧ f.stop = t.2 ∧ f.x = xs.apply (cellCentres s.xedge) ∧
    f.y = (ys.apply (cellCentres s.yedge)).reverse ∧
    inferScene s.table f.x f.y = .ok (f.scene, f.resolution) ∧
    f.name = s.fileName f.scene f.start f.stop ∧
    f.fields = (fieldList s g).map fun p => (p.2, imageOf g' xs ys ti p.1) := by
  unfold writeFrame at h
  simp only [bind, Except.bind] at h
  cases h0 : inferScene s.table (xs.apply (cellCentres s.xedge))
      (ys.apply (cellCentres s.yedge)).reverse with
  | error e => rw [h0] at h; cases h
  | ok sc0 =>
    rw [h0] at h
    simp only at h
    cases h1 : sceneAttrs sc0.1 with
    | error e => rw [h1] at h; cases h
    | ok _ =>
      rw [h1] at h
      simp only at h
      cases h2 : writeFields xs ys sc s.divide ti g
          ((List.range (min g.fields.length s.names.length)).zip s.names) with
      | error e => rw [h2] at h; cases h
      | ok r =>
        rw [h2] at h
        simp only [pure, Except.pure, Except.ok.injEq] at h
        injection h with e1 e2
        subst e1 e2
        obtain ⟨a1, a2, a3, a4⟩ := writeFields_ok (fieldList_nodup s g) (imgs := r.1) (g' := r.2) h2
        exact ⟨a1, a2, a3, rfl, rfl, rfl, rfl, h0, rfl, a4⟩

theorem writeFrames_ok {s : ImageSetup} {xs ys : PySlice} {sc : Bool}
    {l : List (Nat × (Rat × Rat))} :
    ∀ {g g' : Grids} {files : List ImageFile}, (l.map Prod.fst).Nodup →
      writeFrames s xs ys sc g l = .ok (files, g') →
      SameShape g g' ∧
      (∀ a b ti, ti ∈ l.map Prod.fst → InRegion g xs ys a b →
        cell g' a b ti = finalCell sc s.divide (fieldList s g) (cell g a b ti)) ∧
      (∀ a b t, ¬ (t ∈ l.map Prod.fst ∧ InRegion g xs ys a b) → cell g' a b t = cell g a b t) ∧
      List.Forall₂ (fun (p : Nat × (Rat × Rat)) (f : ImageFile) =>
        f.start = p.2.1 ∧ f.stop = p.2.2 ∧ f.x = xs.apply (cellCentres s.xedge) ∧
        f.y = (ys.apply (cellCentres s.yedge)).reverse ∧
        inferScene s.table f.x f.y = .ok (f.scene, f.resolution) ∧
        f.name = s.fileName f.scene f.start f.stop ∧
        f.fields = (fieldList s g).map fun q => (q.2, imageOf g' xs ys p.1 q.1)) l files := by
  induction l with
  | nil =>
    intro g g' files _ h
    cases h
    exact ⟨SameShape.refl _, fun _ _ _ h => absurd h (List.not_mem_nil), fun _ _ _ _ => rfl,
      List.Forall₂.nil⟩
  | cons p l ih =>
    obtain ⟨ti, t⟩ := p
    intro g g' files hn h
    rw [writeFrames] at h
    simp only [bind, Except.bind] at h
    cases h1 : writeFrame s xs ys sc g ti t with
    | error e => rw [h1] at h; cases h
    | ok r =>
      rw [h1] at h
      simp only at h
      cases h2 : writeFrames s xs ys sc r.2 l with
      | error e => rw [h2] at h; cases h
      | ok rs =>
        rw [h2] at h
        simp only [pure, Except.pure, Except.ok.injEq] at h
        injection h with e1 e2
        subst e1 e2
        rw [List.map_cons, List.nodup_cons] at hn
        obtain ⟨s1, c1, u1, b1, b2, b3, b4, b5, b6, b7⟩ := writeFrame_ok (f := r.1) (g' := r.2) h1
        obtain ⟨s2, c2, u2, m2⟩ := ih (g' := rs.2) (files := rs.1) hn.2 h2
        have hlast : ∀ a b, cell rs.2 a b ti = cell r.2 a b ti := by
          intro a b
          exact u2 a b ti fun hh => hn.1 hh.1
        refine ⟨s1.trans s2, ?_, ?_, List.Forall₂.cons ?_ ?_⟩
        · intro a b t' ht' hr
          rw [List.map_cons] at ht'
          rcases List.mem_cons.mp ht' with e | ht'
          · subst e
            rw [hlast, c1 a b hr]
          · have hne : t' ≠ ti := fun e => hn.1 (e ▸ ht')
            rw [c2 a b t' ht' ((InRegion.congr s1).mpr hr), fieldList_congr s1,
              u1 a b t' (fun hh => hne hh.1)]
        · intro a b t' hr
          rw [List.map_cons] at hr
          rw [u2 a b t' (fun hh => hr ⟨List.mem_cons_of_mem _ hh.1, (InRegion.congr s1).mp hh.2⟩),
            u1 a b t' (fun hh => hr ⟨by rw [hh.1]; exact List.mem_cons_self, hh.2⟩)]
        · refine ⟨b1, b2, b3, b4, b5, b6, ?_⟩
          rw [b7]
          apply List.map_congr_left
          intro q _
          rw [imageOf_congr s2 (fun a b => by rw [hlast])]
        · refine m2.imp ?_
          rintro q f ⟨a1, a2, a3, a4, a5, a6, a7⟩
          exact ⟨a1, a2, a3, a4, a5, a6, by rw [a7, fieldList_congr s1]⟩

end Verif.Proofs
