import Verif.Props.Traversal

/-!
# C156: reducing in steps

`reduce_to_entities` returns a dataset that may be reduced again. Two steps down the tree (or on one level) give exactly the
dataset of one step with the ids that meet both; in the other order every level has the same rows, possibly in another order.
-/

namespace Verif.Props

open Verif.Py Verif.Model Verif.Spec Verif.Proofs Verif.Samples

variable {α : Type}

/-! ## Reducing what is reduced -/

theorem blocks_twice {ids jds : List Int} (f : Row α → Int) (rows : List (Row α)) (hn : ids.Nodup) :
    (jds.flatMap fun i => (ids.flatMap fun k => rows.filter fun r => f r = k).filter fun r => f r = i) =
      (jds.filter (· ∈ ids)).flatMap fun k => rows.filter fun r => f r = k := by
  induction jds with
  | nil => rfl
  | cons j jds ih =>
    rw [List.flatMap_cons, ih, filter_blocks f rows j hn, List.filter_cons]
    by_cases hj : j ∈ ids
    · simp [hj]
    · simp [hj]

theorem rowsInOrder_twice {ids jds : List Int} (rows : List (Row α)) (hn : ids.Nodup) :
    rowsInOrder jds (rowsInOrder ids rows) = rowsInOrder (jds.filter (· ∈ ids)) rows := blocks_twice Row.id rows hn

theorem childrenInOrder_twice {ids jds : List Int} (rows : List (Row α)) (hn : ids.Nodup) :
    childrenInOrder jds (childrenInOrder ids rows) = childrenInOrder (jds.filter (· ∈ ids)) rows := blocks_twice Row.pid rows hn

/-- The levels below, in two steps. -/
theorem belowLevels_twice (ids jds : List Int) (hn : ids.Nodup) (below : List (Level α)) (hu : ∀ l ∈ below, UniqueIds l.rows) :
    belowLevels jds (belowLevels ids below) = belowLevels (jds.filter (· ∈ ids)) below := by
  induction below generalizing ids jds with
  | nil => rfl
  | cons a l ih =>
    simp only [belowLevels, childrenInOrder_twice _ hn]
    rw [ih _ _ (childrenInOrder_unique hn (hu a (by simp))) fun m hm => hu m (by simp [hm])]
    congr 2
    rw [List.filter_eq_self]
    intro i hi
    rw [decide_eq_true_eq]
    obtain ⟨r, hr, rfl⟩ := List.mem_map.mp hi
    rw [mem_childrenInOrder, List.mem_filter, decide_eq_true_eq] at hr
    exact List.mem_map.mpr ⟨r, mem_childrenInOrder.mpr ⟨hr.1, hr.2.2⟩, rfl⟩

/-- Levels that keep the parents of the rows `c`, their parents and so on, nearest first. -/
inductive ClosedUp : List (Row α) → List (Level α) → List (Level α) → Prop
  | nil (c : List (Row α)) : ClosedUp c [] []
  | cons {c : List (Row α)} {p : Level α} {rows : List (Row α)} {xs' xs : List (Level α)} (hsub : ∀ r ∈ rows, r ∈ p.rows)
      (hu : UniqueIds p.rows) (hu' : UniqueIds rows) (hp : ∀ r ∈ c, ∀ q ∈ p.rows, q.id = r.pid → q ∈ rows)
      (h : ClosedUp rows xs' xs) : ClosedUp c ({ p with rows := rows } :: xs') (p :: xs)

theorem unique_filter {rows : List (Row α)} (hu : UniqueIds rows) {r : Row α} (hr : r ∈ rows) :
    (rows.filter fun q => q.id = r.id) = [r] := by
  obtain ⟨q, hq, hq2, hq3⟩ := filter_unique_spec hu (i := r.id) (List.mem_map.mpr ⟨r, hr, rfl⟩)
  rw [hq3, List.inj_on_of_nodup_map hu hq hr hq2]

theorem rowsInOrder_closed {ids : List Int} {rows rows' : List (Row α)} (hsub : ∀ r ∈ rows', r ∈ rows) (hu : UniqueIds rows)
    (hu' : UniqueIds rows') (h : ∀ q ∈ rows, q.id ∈ ids → q ∈ rows') : rowsInOrder ids rows' = rowsInOrder ids rows := by
  unfold rowsInOrder
  rw [List.flatMap_def, List.flatMap_def]
  congr 1
  refine List.map_congr_left fun i hi => ?_
  by_cases hq : ∃ q ∈ rows, q.id = i
  · obtain ⟨q, hq, rfl⟩ := hq
    rw [unique_filter hu hq, unique_filter hu' (h q hq hi)]
  · have e : ∀ l : List (Row α), (∀ r ∈ l, r ∈ rows) → (l.filter fun r => r.id = i) = [] := by
      intro l hl
      rw [List.filter_eq_nil_iff]
      intro r hr
      rw [decide_eq_true_eq]
      exact fun h0 => hq ⟨r, hl r hr, h0⟩
    rw [e _ hsub, e _ fun _ h => h]

theorem ClosedUp.above {c : List (Row α)} {xs' xs : List (Level α)} (h : ClosedUp c xs' xs) {kept : List (Row α)}
    (hk : ∀ r ∈ kept, r ∈ c) : aboveLevels (kept.map Row.pid) xs' = aboveLevels (kept.map Row.pid) xs := by
  induction h generalizing kept with
  | nil => rfl
  | cons hsub hu hu' hp h ih =>
    have e := rowsInOrder_closed (ids := npUnique (kept.map Row.pid)) hsub hu hu' fun q hq hi => by
      rw [mem_npUnique] at hi
      obtain ⟨r, hr, hr2⟩ := List.mem_map.mp hi
      exact hp r (hk r hr) q hq hr2.symm
    simp only [aboveLevels]
    rw [← e, ih fun r hr => (mem_rowsInOrder.mp hr).1]

theorem closedUp_above (c : List (Row α)) (xs : List (Level α)) (hu : ∀ l ∈ xs, UniqueIds l.rows) :
    ClosedUp c (aboveLevels (c.map Row.pid) xs) xs := by
  induction xs generalizing c with
  | nil => exact .nil c
  | cons p xs ih =>
    refine .cons (fun r hr => (mem_rowsInOrder.mp hr).1) (hu p (by simp))
      (rowsInOrder_unique (npUnique_nodup _) (hu p (by simp))) (fun r hr q hq hid => ?_) (ih _ fun l hl => hu l (by simp [hl]))
    exact mem_rowsInOrder.mpr ⟨hq, mem_npUnique.mpr (hid ▸ List.mem_map.mpr ⟨r, hr, rfl⟩)⟩

/-- The levels between two levels are kept closed, too. -/
theorem closedUp_below {P : Level α} {rows : List (Row α)} {ids : List Int} {ups' ups : List (Level α)} (mid : List (Level α))
    (hsub : ∀ r ∈ rows, r ∈ P.rows) (huP : UniqueIds P.rows) (hu' : UniqueIds rows) (hn : ids.Nodup)
    (hids : ∀ q ∈ P.rows, q.id ∈ ids → q ∈ rows) (hu : ∀ l ∈ mid, UniqueIds l.rows) (h : ClosedUp rows ups' ups)
    {M : Level α} (hM : UniqueIds M.rows) (below : List (Level α)) :
    ∃ mid' rowsM ids', belowLevels ids (mid ++ M :: below) = mid' ++ { M with rows := rowsM } :: belowLevels ids' below ∧
      ids' = rowsM.map Row.id ∧ mid'.length = mid.length ∧ UniqueIds rowsM ∧ (∀ r ∈ rowsM, r ∈ M.rows) ∧
      ClosedUp rowsM (mid'.reverse ++ { P with rows := rows } :: ups') (mid.reverse ++ P :: ups) := by
  induction mid generalizing P rows ids ups' ups with
  | nil =>
    refine ⟨[], childrenInOrder ids M.rows, _, rfl, rfl, rfl, childrenInOrder_unique hn hM,
      fun r hr => (mem_childrenInOrder.mp hr).1, .cons hsub huP hu' (fun r hr q hq hid => ?_) h⟩
    exact hids q hq (hid ▸ (mem_childrenInOrder.mp hr).2)
  | cons a mid ih =>
    have huc := childrenInOrder_unique hn (hu a (by simp))
    obtain ⟨mid', rowsM, ids', h1, h2, h3, h4, h5, h6⟩ := ih (P := a) (rows := childrenInOrder ids a.rows)
      (ids := (childrenInOrder ids a.rows).map Row.id) (fun r hr => (mem_childrenInOrder.mp hr).1) (hu a (by simp)) huc huc
      (fun q hq hi => by
        obtain ⟨r, hr, hr2⟩ := List.mem_map.mp hi
        rw [← List.inj_on_of_nodup_map (hu a (by simp)) (mem_childrenInOrder.mp hr).1 hq hr2]
        exact hr)
      (fun l hl => hu l (by simp [hl]))
      (.cons hsub huP hu' (fun r hr q hq hid => hids q hq (hid ▸ (mem_childrenInOrder.mp hr).2)) h)
    refine ⟨{ a with rows := childrenInOrder ids a.rows } :: mid', rowsM, ids', ?_, h2, by simp [h3], h4, h5, ?_⟩
    · rw [List.cons_append, List.cons_append, ← h1]
      rfl
    · simpa using h6

theorem rowsInOrder_known (jds : List Int) (rows : List (Row α)) :
    rowsInOrder jds rows = rowsInOrder (jds.filter (· ∈ rows.map Row.id)) rows := by
  unfold rowsInOrder
  induction jds with
  | nil => rfl
  | cons j jds ih =>
    rw [List.flatMap_cons, ih, List.filter_cons]
    by_cases hj : j ∈ rows.map Row.id
    · simp only [hj, decide_true, if_true, List.flatMap_cons]
    · have : (rows.filter fun r => r.id = j) = [] := by
        rw [List.filter_eq_nil_iff]
        intro r hr h0
        rw [decide_eq_true_eq] at h0
        exact hj (List.mem_map.mpr ⟨r, hr, h0⟩)
      simp only [hj, decide_false, this, List.nil_append, Bool.false_eq_true, if_false]

/-! ## C156 -/

open Classical in
/-- C156: to reduce to entities and then to entities of a level below is to reduce to those of the latter that descend from the
former. -/
theorem C156_down {t above mid below : List (Level α)} {L M : Level α} (ids jds : List Int) (wf : WellFormed t)
    (ht : t = above ++ L :: (mid ++ M :: below)) (hne : NoEmptyLevel t) (hu : ∀ l ∈ t, UniqueIds l.rows) (hn : ids.Nodup) :
    ∃ t1, reduceToEntities t L.evar ids = .ok t1 ∧ (NoEmptyLevel t1 →
      ∃ t2, reduceToEntities t1 M.evar jds = .ok t2 ∧
        reduceToEntities t M.evar
          (jds.filter fun j => ∃ r ∈ M.rows, r.id = j ∧ Descends ids (mid.reverse.map Level.rows) r) = .ok t2) := by
  refine ⟨_, reduce_closed ids wf ht hne, fun hne1 => ?_⟩
  have wf' : WellFormed (reduced above L (mid ++ M :: below) ids) := by
    apply wf_of_names wf
    rw [reduced_names, ht]
  have huL : UniqueIds L.rows := hu L (by simp [ht])
  obtain ⟨mid', rowsM, ids', h1, h2, h3, h4, h5, h6⟩ := closedUp_below (P := L) (rows := rowsInOrder ids L.rows) (ids := ids)
    (M := M) mid (fun r hr => (mem_rowsInOrder.mp hr).1) huL (rowsInOrder_unique hn huL) hn
    (fun q hq hi => mem_rowsInOrder.mpr ⟨hq, hi⟩) (fun l hl => hu l (by simp [ht, hl]))
    (closedUp_above (rowsInOrder ids L.rows) above.reverse fun l hl => hu l (by simp [ht, List.mem_reverse.mp hl]))
    (hu M (by simp [ht])) below
  have hmem : ∀ r, r ∈ rowsM ↔ r ∈ M.rows ∧ Descends ids (mid.reverse.map Level.rows) r := by
    intro r
    have := belowLevels_mem ids (mid ++ M :: below) mid.length (by simp) (by rw [belowLevels_length]; simp) r
    simp only [h1] at this
    rw [List.getElem_append_right (by omega), List.getElem_append_right (by omega)] at this
    simpa [h3] using this
  have hfil : (jds.filter fun j => ∃ r ∈ M.rows, r.id = j ∧ Descends ids (mid.reverse.map Level.rows) r) =
      jds.filter (· ∈ rowsM.map Row.id) := by
    refine List.filter_congr fun j _ => ?_
    rw [decide_eq_decide, List.mem_map]
    constructor
    · rintro ⟨r, hr, hj, hd⟩; exact ⟨r, (hmem r).mpr ⟨hr, hd⟩, hj⟩
    · rintro ⟨r, hr, hj⟩; exact ⟨r, ((hmem r).mp hr).1, hj, ((hmem r).mp hr).2⟩
  have e1 : reduced above L (mid ++ M :: below) ids =
      ((aboveLevels ((rowsInOrder ids L.rows).map Row.pid) above.reverse).reverse ++ entityLevel L ids :: mid') ++
        { M with rows := rowsM } :: belowLevels ids' below := by
    rw [reduced, h1]
    simp
  have r1 := reduce_closed (L := { M with rows := rowsM }) jds wf' e1 hne1
  have ht2 : t = (above ++ L :: mid) ++ M :: below := by rw [ht]; simp
  have r2 := reduce_closed (jds.filter (· ∈ rowsM.map Row.id)) wf ht2 hne
  rw [hfil]
  refine ⟨_, r1, ?_⟩
  rw [r2]
  congr 1
  have hrows : rowsInOrder jds rowsM = rowsInOrder (jds.filter (· ∈ rowsM.map Row.id)) M.rows := by
    rw [rowsInOrder_known]
    refine rowsInOrder_closed h5 (hu M (by simp [ht])) h4 fun q hq hi => ?_
    rw [List.mem_filter, decide_eq_true_eq] at hi
    obtain ⟨r, hr, hr2⟩ := List.mem_map.mp hi.2
    rw [← List.inj_on_of_nodup_map (hu M (by simp [ht])) (h5 r hr) hq hr2]
    exact hr
  have hup := h6.above (kept := rowsInOrder jds rowsM) fun r hr => (mem_rowsInOrder.mp hr).1
  unfold reduced entityLevel
  simp only [hrows, List.reverse_append, List.reverse_cons, List.reverse_reverse, List.append_assoc, List.singleton_append] at hup ⊢
  rw [show ({ L with rows := rowsInOrder ids L.rows } : Level α) = entityLevel L ids from rfl] at hup
  rw [belowLevels_twice _ _ (h2 ▸ h4) below fun l hl => hu l (by simp [ht, hl]), h2]
  congr 2
  exact hup.symm

/-- C156 for one level: to reduce twice is to reduce to what both ask for. -/
theorem C156_same_level {t above below : List (Level α)} {L : Level α} (ids jds : List Int) (wf : WellFormed t)
    (ht : t = above ++ L :: below) (hne : NoEmptyLevel t) (hu : ∀ l ∈ t, UniqueIds l.rows) (hn : ids.Nodup) :
    ∃ t1, reduceToEntities t L.evar ids = .ok t1 ∧ (NoEmptyLevel t1 →
      ∃ t2, reduceToEntities t1 L.evar jds = .ok t2 ∧ reduceToEntities t L.evar (jds.filter (· ∈ ids)) = .ok t2) := by
  refine ⟨_, reduce_closed ids wf ht hne, fun hne1 => ?_⟩
  have wf' : WellFormed (reduced above L below ids) := by
    apply wf_of_names wf
    rw [reduced_names, ht]
  have r1 := reduce_closed (L := entityLevel L ids) jds wf' (reduced_eq above L below ids) hne1
  refine ⟨_, r1, ?_⟩
  rw [reduce_closed (jds.filter (· ∈ ids)) wf ht hne]
  congr 1
  have hup := (closedUp_above (rowsInOrder ids L.rows) above.reverse fun l hl =>
    hu l (by simp [ht, List.mem_reverse.mp hl])).above (kept := rowsInOrder jds (rowsInOrder ids L.rows)) fun r hr =>
    (mem_rowsInOrder.mp hr).1
  unfold reduced entityLevel
  simp only [Level.pids, List.reverse_reverse]
  rw [belowLevels_twice _ _ hn below fun l hl => hu l (by simp [ht, hl]), hup, rowsInOrder_twice _ hn]

/-! ## The other order -/

theorem aboveLevels_append (kept : List (Row α)) (xs : List (Level α)) (L : Level α) (ys : List (Level α)) :
    ∃ rowsL, aboveLevels (kept.map Row.pid) (xs ++ L :: ys) =
        aboveLevels (kept.map Row.pid) xs ++ { L with rows := rowsL } :: aboveLevels (rowsL.map Row.pid) ys ∧
      ∀ r, r ∈ rowsL ↔ r ∈ L.rows ∧ IsAncestor kept (xs.reverse.map Level.rows) r := by
  induction xs generalizing kept with
  | nil =>
    refine ⟨rowsInOrder (npUnique (kept.map Row.pid)) L.rows, rfl, fun r => ?_⟩
    rw [mem_rowsInOrder, mem_npUnique, List.mem_map]
    rfl
  | cons a xs ih =>
    obtain ⟨rowsL, h1, h2⟩ := ih (rowsInOrder (npUnique (kept.map Row.pid)) a.rows)
    refine ⟨rowsL, ?_, fun r => ?_⟩
    · rw [List.cons_append]
      simp only [aboveLevels]
      rw [h1]
      rfl
    · rw [h2, List.reverse_cons, List.map_append, List.map_cons, List.map_nil]
      refine and_congr_right fun _ => (isAncestor_append kept a.rows _ r _ fun x => ?_).symm
      rw [mem_rowsInOrder, mem_npUnique, List.mem_map]

theorem belowLevels_append (ids : List Int) (xs : List (Level α)) (M : Level α) (ys : List (Level α)) :
    ∃ rowsM, belowLevels ids (xs ++ M :: ys) =
        belowLevels ids xs ++ { M with rows := rowsM } :: belowLevels (rowsM.map Row.id) ys ∧
      ∀ r, r ∈ rowsM ↔ r ∈ M.rows ∧ Descends ids (xs.reverse.map Level.rows) r := by
  induction xs generalizing ids with
  | nil => exact ⟨childrenInOrder ids M.rows, rfl, fun r => mem_childrenInOrder⟩
  | cons a xs ih =>
    obtain ⟨rowsM, h1, h2⟩ := ih ((childrenInOrder ids a.rows).map Row.id)
    refine ⟨rowsM, ?_, fun r => ?_⟩
    · rw [List.cons_append]
      simp only [belowLevels]
      rw [h1]
      rfl
    · rw [h2, List.reverse_cons, List.map_append, List.map_cons, List.map_nil, descends_append]

theorem isAncestor_one {kept : List (Row α)} {mids : List (List (Row α))} {r : Row α} :
    IsAncestor kept mids r ↔ ∃ m ∈ kept, IsAncestor [m] mids r := by
  induction mids generalizing r with
  | nil => simp [IsAncestor]
  | cons d ds ih =>
    simp only [IsAncestor, ih]
    constructor
    · rintro ⟨c, hc, h1, m, hm, h2⟩; exact ⟨m, hm, c, hc, h1, h2⟩
    · rintro ⟨m, hm, c, hc, h1, h2⟩; exact ⟨c, hc, h1, m, hm, h2⟩

/-- A row and its ancestor have the same ancestors further up. -/
theorem ancestor_descends {ids : List Int} {m r : Row α} {X : List (Row α)} {down up : List (List (Row α))} (hX : UniqueIds X)
    (hd : ∀ l ∈ down, UniqueIds l) (hr : r ∈ X) (h : IsAncestor [m] down r) :
    Descends ids (down.reverse ++ X :: up) m ↔ Descends ids up r := by
  have one : ∀ {X : List (Row α)} {c r : Row α} {up : List (List (Row α))}, UniqueIds X → r ∈ X → c.pid = r.id →
      (Descends ids (X :: up) c ↔ Descends ids up r) := by
    intro X c r up hX hr hid
    constructor
    · rintro ⟨p, hp, hp2, hp3⟩
      rwa [← List.inj_on_of_nodup_map hX hp hr (hp2.trans hid)]
    · exact fun h => ⟨r, hr, hid.symm, h⟩
  induction down generalizing r X up with
  | nil =>
    obtain ⟨c, hc, hid⟩ := h
    rw [List.mem_singleton] at hc
    subst hc
    exact one hX hr hid
  | cons d ds ih =>
    obtain ⟨c, hc, hid, h⟩ := h
    rw [List.reverse_cons, List.append_assoc, List.singleton_append]
    exact (ih (up := X :: up) (hd d (by simp)) (fun l hl => hd l (by simp [hl])) hc h).trans (one hX hr hid)

theorem ancestor_asked {ids : List Int} {m r : Row α} {down : List (List (Row α))} (hd : ∀ l ∈ down, UniqueIds l)
    (h : IsAncestor [m] down r) : Descends ids down.reverse m ↔ r.id ∈ ids := by
  cases down with
  | nil =>
    obtain ⟨c, hc, hid⟩ := h
    rw [List.mem_singleton] at hc
    subst hc
    rw [← hid]
    rfl
  | cons d ds =>
    obtain ⟨c, hc, hid, h⟩ := h
    rw [List.reverse_cons, ← hid]
    exact ancestor_descends (up := []) (hd d (by simp)) (fun l hl => hd l (by simp [hl])) hc h

theorem ClosedUp.descends {c : List (Row α)} {xs' xs : List (Level α)} (h : ClosedUp c xs' xs) {ids : List Int} {r : Row α}
    (hr : r ∈ c) : Descends ids (xs'.map Level.rows) r ↔ Descends ids (xs.map Level.rows) r := by
  induction h generalizing r with
  | nil => rfl
  | cons hsub hu hu' hp h ih =>
    simp only [List.map_cons, Descends]
    constructor
    · rintro ⟨p, hp1, hp2, hp3⟩
      exact ⟨p, hsub p hp1, hp2, (ih hp1).mp hp3⟩
    · rintro ⟨p, hp1, hp2, hp3⟩
      have := hp r hr p hp1 hp2
      exact ⟨p, this, hp2, (ih this).mpr hp3⟩

theorem belowLevels_both {P Q R : List Int} (h : ∀ i, i ∈ R ↔ i ∈ P ∧ i ∈ Q) (below : List (Level α)) :
    List.Forall₂ (fun l m => l.evar = m.evar ∧ ∀ r, r ∈ l.rows ↔ r ∈ m.rows) (belowLevels P (belowLevels Q below))
      (belowLevels R below) := by
  induction below generalizing P Q R with
  | nil => exact .nil
  | cons a l ih =>
    have e : ∀ r, r ∈ childrenInOrder P (childrenInOrder Q a.rows) ↔ r ∈ childrenInOrder R a.rows := by
      intro r
      simp only [mem_childrenInOrder, h]
      tauto
    refine .cons ⟨rfl, e⟩ (ih fun i => ?_)
    simp only [List.mem_map]
    constructor
    · rintro ⟨r, hr, rfl⟩
      exact ⟨⟨r, (e r).mpr hr, rfl⟩, r, (mem_childrenInOrder.mp ((e r).mpr hr)).1, rfl⟩
    · rintro ⟨⟨r, hr, rfl⟩, -⟩
      exact ⟨r, (e r).mp hr, rfl⟩

theorem aboveLevels_congr {P Q : List Int} (h : ∀ i, i ∈ P ↔ i ∈ Q) (xs : List (Level α)) : aboveLevels P xs = aboveLevels Q xs := by
  cases xs with
  | nil => rfl
  | cons a l => simp only [aboveLevels, npUnique_congr h]

/-- The levels between, from above and from below. -/
theorem between_same {ids : List Int} {kept kept' : List (Row α)} (mid : List (Level α)) (hu : ∀ l ∈ mid, UniqueIds l.rows)
    (hk : ∀ r, r ∈ kept' ↔ r ∈ kept ∧ Descends ids (mid.reverse.map Level.rows) r) :
    List.Forall₂ (fun l m => l.evar = m.evar ∧ ∀ r, r ∈ l.rows ↔ r ∈ m.rows)
      (belowLevels ids (aboveLevels (kept.map Row.pid) mid.reverse).reverse)
      (aboveLevels (kept'.map Row.pid) mid.reverse).reverse := by
  have hlen : (belowLevels ids (aboveLevels (kept.map Row.pid) mid.reverse).reverse).length = mid.length := by
    rw [belowLevels_length, List.length_reverse, aboveLevels_length, List.length_reverse]
  rw [List.forall₂_iff_get]
  refine ⟨by rw [hlen, List.length_reverse, aboveLevels_length, List.length_reverse], fun i h1 h2 => ?_⟩
  have hi : i < mid.length := hlen ▸ h1
  obtain ⟨m1, X, m2, hm, hl⟩ : ∃ m1 X m2, mid = m1 ++ X :: m2 ∧ m1.length = i :=
    ⟨mid.take i, mid[i], mid.drop (i + 1), by rw [List.getElem_cons_drop]; exact (List.take_append_drop i mid).symm,
      by simp [hi.le]⟩
  have hrev : mid.reverse = m2.reverse ++ X :: m1.reverse := by rw [hm]; simp
  obtain ⟨rX, e1, e2⟩ := aboveLevels_append kept m2.reverse X m1.reverse
  obtain ⟨rX', e1', e2'⟩ := aboveLevels_append kept' m2.reverse X m1.reverse
  obtain ⟨rD, d1, d2⟩ := belowLevels_append ids (aboveLevels (rX.map Row.pid) m1.reverse).reverse { X with rows := rX }
    (aboveLevels (kept.map Row.pid) m2.reverse).reverse
  have hl1 : (belowLevels ids (aboveLevels (rX.map Row.pid) m1.reverse).reverse).length = i := by
    rw [belowLevels_length, List.length_reverse, aboveLevels_length, List.length_reverse, hl]
  have hl2 : (aboveLevels (rX'.map Row.pid) m1.reverse).reverse.length = i := by
    rw [List.length_reverse, aboveLevels_length, List.length_reverse, hl]
  have f1 : belowLevels ids (aboveLevels (kept.map Row.pid) mid.reverse).reverse =
      belowLevels ids (aboveLevels (rX.map Row.pid) m1.reverse).reverse ++ { X with rows := rD } ::
        belowLevels (rD.map Row.id) (aboveLevels (kept.map Row.pid) m2.reverse).reverse := by
    rw [hrev, e1, ← d1]
    simp
  have f2 : (aboveLevels (kept'.map Row.pid) mid.reverse).reverse =
      (aboveLevels (rX'.map Row.pid) m1.reverse).reverse ++ { X with rows := rX' } ::
        (aboveLevels (kept'.map Row.pid) m2.reverse).reverse := by
    rw [hrev, e1']
    simp
  have g1 : (belowLevels ids (aboveLevels (kept.map Row.pid) mid.reverse).reverse).get ⟨i, h1⟩ = { X with rows := rD } := by
    simp only [f1, List.get_eq_getElem]
    rw [List.getElem_append_right (by omega)]
    simp [hl1]
  have g2 : (aboveLevels (kept'.map Row.pid) mid.reverse).reverse.get ⟨i, h2⟩ = { X with rows := rX' } := by
    simp only [f2, List.get_eq_getElem]
    rw [List.getElem_append_right (by omega)]
    simp [hl2]
  rw [g1, g2]
  refine ⟨rfl, fun r => ?_⟩
  have huX : UniqueIds X.rows := hu X (by simp [hm])
  have hdown : ∀ l ∈ m2.map Level.rows, UniqueIds l := by
    intro l hl
    obtain ⟨y, hy, rfl⟩ := List.mem_map.mp hl
    exact hu y (by simp [hm, hy])
  have hpath : mid.reverse.map Level.rows = (m2.map Level.rows).reverse ++ X.rows :: m1.reverse.map Level.rows := by
    rw [hrev]
    simp [List.map_reverse]
  have hcl := closedUp_above rX m1.reverse fun l hl => hu l (by simp [hm, List.mem_reverse.mp hl])
  simp only [List.reverse_reverse] at e2 e2' d2
  rw [d2, e2', e2]
  constructor
  · rintro ⟨⟨hX, hA⟩, hD⟩
    refine ⟨hX, ?_⟩
    obtain ⟨m, hm1, hm2⟩ := isAncestor_one.mp hA
    refine isAncestor_one.mpr ⟨m, (hk m).mpr ⟨hm1, ?_⟩, hm2⟩
    rw [hpath, ancestor_descends huX hdown hX hm2]
    exact (hcl.descends ((e2 r).mpr ⟨hX, hA⟩)).mp hD
  · rintro ⟨hX, hA⟩
    obtain ⟨m, hm1, hm2⟩ := isAncestor_one.mp hA
    have hA' : IsAncestor kept (m2.map Level.rows) r := isAncestor_one.mpr ⟨m, ((hk m).mp hm1).1, hm2⟩
    refine ⟨⟨hX, hA'⟩, (hcl.descends ((e2 r).mpr ⟨hX, hA'⟩)).mpr ?_⟩
    have := ((hk m).mp hm1).2
    rwa [hpath, ancestor_descends huX hdown hX hm2] at this

open Classical in
/-- C156 in the other order: to reduce to entities and then to entities of a level above keeps the same rows in every level. -/
theorem C156_up {t above mid below : List (Level α)} {L M : Level α} (ids jds : List Int) (wf : WellFormed t)
    (ht : t = above ++ L :: (mid ++ M :: below)) (hne : NoEmptyLevel t) (hu : ∀ l ∈ t, UniqueIds l.rows) :
    ∃ t1, reduceToEntities t M.evar jds = .ok t1 ∧ (NoEmptyLevel t1 →
      ∃ t2 t3, reduceToEntities t1 L.evar ids = .ok t2 ∧
        reduceToEntities t M.evar
          (jds.filter fun j => ∃ r ∈ M.rows, r.id = j ∧ Descends ids (mid.reverse.map Level.rows) r) = .ok t3 ∧
        List.Forall₂ (fun l m => l.evar = m.evar ∧ ∀ r, r ∈ l.rows ↔ r ∈ m.rows) t2 t3) := by
  have ht2 : t = (above ++ L :: mid) ++ M :: below := by rw [ht]; simp
  have hrev : (above ++ L :: mid).reverse = mid.reverse ++ L :: above.reverse := by simp
  have huM : UniqueIds M.rows := hu M (by simp [ht])
  have huL : UniqueIds L.rows := hu L (by simp [ht])
  have humid : ∀ l ∈ mid, UniqueIds l.rows := fun l hl => hu l (by simp [ht, hl])
  have huab : ∀ l ∈ above.reverse, UniqueIds l.rows := fun l hl => hu l (by simp [ht, List.mem_reverse.mp hl])
  generalize hj : (jds.filter fun j => ∃ r ∈ M.rows, r.id = j ∧ Descends ids (mid.reverse.map Level.rows) r) = jds'
  have hk : ∀ r, r ∈ rowsInOrder jds' M.rows ↔ r ∈ rowsInOrder jds M.rows ∧ Descends ids (mid.reverse.map Level.rows) r := by
    intro r
    rw [mem_rowsInOrder, mem_rowsInOrder, ← hj, List.mem_filter, decide_eq_true_eq]
    constructor
    · rintro ⟨hr, h1, q, hq, hq2, hq3⟩
      rw [List.inj_on_of_nodup_map huM hq hr hq2] at hq3
      exact ⟨⟨hr, h1⟩, hq3⟩
    · rintro ⟨⟨hr, h1⟩, h2⟩
      exact ⟨hr, h1, r, hr, rfl, h2⟩
  refine ⟨_, reduce_closed jds wf ht2 hne, fun hne1 => ?_⟩
  have wf' : WellFormed (reduced (above ++ L :: mid) M below jds) := by
    apply wf_of_names wf
    rw [reduced_names, ht2]
  obtain ⟨rL, e1, e2⟩ := aboveLevels_append (rowsInOrder jds M.rows) mid.reverse L above.reverse
  obtain ⟨rL', e1', e2'⟩ := aboveLevels_append (rowsInOrder jds' M.rows) mid.reverse L above.reverse
  have ht1 : reduced (above ++ L :: mid) M below jds =
      (aboveLevels (rL.map Row.pid) above.reverse).reverse ++ { L with rows := rL } ::
        ((aboveLevels ((rowsInOrder jds M.rows).map Row.pid) mid.reverse).reverse ++ entityLevel M jds :: belowLevels jds below) := by
    unfold reduced
    rw [hrev, e1]
    simp
  have r1 := reduce_closed (L := { L with rows := rL }) ids wf' ht1 hne1
  have r2 := reduce_closed jds' wf ht2 hne
  refine ⟨_, _, r1, r2, ?_⟩
  obtain ⟨rM, d1, d2⟩ := belowLevels_append ids (aboveLevels ((rowsInOrder jds M.rows).map Row.pid) mid.reverse).reverse
    (entityLevel M jds) (belowLevels jds below)
  have ht3 : reduced (above ++ L :: mid) M below jds' =
      (aboveLevels (rL'.map Row.pid) above.reverse).reverse ++ { L with rows := rL' } ::
        ((aboveLevels ((rowsInOrder jds' M.rows).map Row.pid) mid.reverse).reverse ++ entityLevel M jds' :: belowLevels jds' below) := by
    unfold reduced
    rw [hrev, e1']
    simp
  rw [ht3]
  unfold reduced
  rw [d1, List.reverse_reverse]
  have hL : ∀ r, r ∈ rowsInOrder ids rL ↔ r ∈ rL' := by
    intro r
    have hdown : ∀ l ∈ mid.map Level.rows, UniqueIds l := by
      intro l hl
      obtain ⟨y, hy, rfl⟩ := List.mem_map.mp hl
      exact humid y hy
    rw [mem_rowsInOrder, e2, e2', List.reverse_reverse]
    rw [List.map_reverse] at hk
    constructor
    · rintro ⟨⟨h1, hA⟩, hi⟩
      obtain ⟨m, hm1, hm2⟩ := isAncestor_one.mp hA
      exact ⟨h1, isAncestor_one.mpr ⟨m, (hk m).mpr ⟨hm1, (ancestor_asked hdown hm2).mpr hi⟩, hm2⟩⟩
    · rintro ⟨h1, hA⟩
      obtain ⟨m, hm1, hm2⟩ := isAncestor_one.mp hA
      exact ⟨⟨h1, isAncestor_one.mpr ⟨m, ((hk m).mp hm1).1, hm2⟩⟩, (ancestor_asked hdown hm2).mp ((hk m).mp hm1).2⟩
  have hM : ∀ r, r ∈ rM ↔ r ∈ rowsInOrder jds' M.rows := by
    intro r
    rw [d2, hk, List.reverse_reverse]
    refine and_congr_right fun hr => ?_
    exact (closedUp_above (rowsInOrder jds M.rows) mid.reverse fun l hl => humid l (List.mem_reverse.mp hl)).descends hr
  have hup := (closedUp_above rL above.reverse huab).above (kept := rowsInOrder ids rL) fun r hr => (mem_rowsInOrder.mp hr).1
  have hup2 : aboveLevels ((rowsInOrder ids rL).map Row.pid) above.reverse = aboveLevels (rL'.map Row.pid) above.reverse := by
    refine aboveLevels_congr (fun i => ?_) _
    simp only [List.mem_map, hL]
  simp only [hup, hup2]
  refine List.rel_append (List.forall₂_same.mpr fun l _ => ⟨rfl, fun r => Iff.rfl⟩) (.cons ⟨rfl, hL⟩ (List.rel_append
    (between_same mid humid hk) (.cons ⟨rfl, hM⟩ (belowLevels_both (fun i => ?_) below))))
  rw [List.mem_map, ← hj, List.mem_filter, decide_eq_true_eq]
  constructor
  · rintro ⟨h1, r, hr, rfl, h2⟩
    exact ⟨⟨r, (hM r).mpr ((hk r).mpr ⟨mem_rowsInOrder.mpr ⟨hr, h1⟩, h2⟩), rfl⟩, h1⟩
  · rintro ⟨⟨r, hr, rfl⟩, h1⟩
    have := (hk r).mp ((hM r).mp hr)
    exact ⟨h1, r, (mem_rowsInOrder.mp this.1).1, rfl, this.2⟩

/-- C156: the conditions are met by a dataset, and the steps in one order and in the other keep the same. -/
example : WellFormed good ∧ good = [] ++ flashes :: ([] ++ Samples.groups :: [events]) ∧ NoEmptyLevel good ∧
    (∀ l ∈ good, UniqueIds l.rows) ∧
    ((reduceToEntities good "flash_id" [3]).bind fun t => reduceToEntities t "group_id" [14, 12, 11]).map
        (fun t => t.map fun l => l.rows.map Row.id) =
      (reduceToEntities good "group_id" [14, 12]).map (fun t => t.map fun l => l.rows.map Row.id) ∧
    ((reduceToEntities good "group_id" [14, 12, 11]).bind fun t => reduceToEntities t "flash_id" [3]).map
        (fun t => t.map fun l => l.rows.map Row.id) = .ok [[3], [14, 12], [104, 102]] :=
  ⟨good_wf, rfl, good_nonempty, by unfold UniqueIds; decide, by rfl, by rfl⟩

/-- C156: in the other order the rows may be ordered differently. -/
example : ((reduceToEntities good "flash_id" [5, 3]).bind fun t => reduceToEntities t "group_id" [14, 11, 12]).map
      (fun t => t.map fun l => l.rows.map Row.id) = .ok [[3, 5], [14, 11, 12], [104, 101, 103, 102]] ∧
    ((reduceToEntities good "group_id" [14, 11, 12]).bind fun t => reduceToEntities t "flash_id" [5, 3]).map
      (fun t => t.map fun l => l.rows.map Row.id) = .ok [[5, 3], [11, 14, 12], [101, 103, 104, 102]] :=
  ⟨by rfl, by rfl⟩

/-- C156: when nothing is left after the first step, the second stops. -/
example : (match (reduceToEntities good "flash_id" [99]).bind fun t => reduceToEntities t "group_id" [14, 11, 12] with
      | .error .attributeError => true | _ => false) = true := by rfl

end Verif.Props
