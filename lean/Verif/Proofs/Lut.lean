import Verif.Proofs.Dataset
import Verif.Spec.Lut
import Mathlib.Algebra.BigOperators.Group.List.Lemmas
import Mathlib.Tactic.Linarith
import Mathlib.Tactic.FieldSimp

/-! Lemmas about the event lookup table. -/

namespace Verif.Proofs

open Verif.Py Verif.Model Verif.Spec

theorem mapM_ok_of_forall {ε β γ : Type} {f : β → Except ε γ} {P : β → γ → Prop} {l : List β}
    (h : ∀ x ∈ l, ∃ y, f x = .ok y ∧ P x y) : ∃ ys, l.mapM f = .ok ys ∧ List.Forall₂ P l ys := by
  induction l with
  | nil => exact ⟨[], rfl, List.Forall₂.nil⟩
  | cons a l ih =>
    obtain ⟨y, h1, h2⟩ := h a (by simp)
    obtain ⟨ys, h3, h4⟩ := ih fun x hx => h x (by simp [hx])
    exact ⟨y :: ys, by simp [List.mapM_cons, h1, h3, bind, Except.bind, pure, Except.pure], h4.cons h2⟩

theorem mapM_ok_forall₂ {ε β γ : Type} {f : β → Except ε γ} {l : List β} {ys : List γ}
    (h : l.mapM f = .ok ys) : List.Forall₂ (fun x y => f x = .ok y) l ys := by
  induction l generalizing ys with
  | nil =>
    simp only [List.mapM_nil, pure, Except.pure, Except.ok.injEq] at h
    subst h; exact List.Forall₂.nil
  | cons a l ih =>
    simp only [List.mapM_cons, bind, Except.bind, pure, Except.pure] at h
    cases h1 : f a with
    | error e => simp [h1] at h
    | ok y =>
      cases h2 : l.mapM f with
      | error e => simp [h1, h2] at h
      | ok zs =>
        simp only [h1, h2, Except.ok.injEq] at h
        subst h
        exact (ih h2).cons h1

theorem groupsOf_ok {keys ids : List Int} (h : ∀ i ∈ ids, i ∈ keys) :
    groupsOf (groups keys) ids = .ok (ids.map (positions keys)) := by
  simp only [groupsOf, dictGet_groups]
  induction ids with
  | nil => rfl
  | cons a l ih =>
    simp only [List.mapM_cons, h a (by simp), if_true, bind, Except.bind, pure,
      Except.pure]
    rw [ih fun i hi => h i (by simp [hi])]
    rfl

theorem groupsOf_error {keys ids : List Int} (h : ¬ ∀ i ∈ ids, i ∈ keys) :
    groupsOf (groups keys) ids = .error .keyError := by
  simp only [groupsOf, dictGet_groups]
  induction ids with
  | nil => simp at h
  | cons a l ih =>
    simp only [List.mapM_cons, bind, Except.bind, pure, Except.pure]
    by_cases ha : a ∈ keys
    · simp only [ha, if_true]
      rw [ih (by intro h'; apply h; simp only [List.mem_cons, forall_eq_or_imp]; exact ⟨ha, h'⟩)]
    · simp [ha]

theorem foldl_min (l : List Rat) (a : Rat) :
    (l.foldl min a = a ∨ l.foldl min a ∈ l) ∧ l.foldl min a ≤ a ∧ ∀ b ∈ l, l.foldl min a ≤ b := by
  induction l generalizing a with
  | nil => simp
  | cons c l ih =>
    obtain ⟨h1, h2, h3⟩ := ih (min a c)
    simp only [List.foldl_cons, List.mem_cons, forall_eq_or_imp]
    refine ⟨?_, h2.trans (min_le_left _ _), h2.trans (min_le_right _ _), h3⟩
    rcases h1 with h1 | h1
    · rw [h1]
      rcases min_choice a c with h | h <;> simp [h]
    · simp [h1]

theorem listMin_spec {l : List Rat} (h : l ≠ []) :
    ∃ m, listMin l = .ok m ∧ m ∈ l ∧ ∀ b ∈ l, m ≤ b := by
  cases l with
  | nil => simp at h
  | cons a l =>
    obtain ⟨h1, h2, h3⟩ := foldl_min l a
    refine ⟨_, rfl, ?_, ?_⟩
    · simp only [List.mem_cons]; exact h1
    · simp only [List.mem_cons, forall_eq_or_imp]; exact ⟨h2, h3⟩

/-! ### the events of a row -/

theorem take_eventsAt (loc : Rat → Rat → Int) (d : GFile) (k : Int) :
    take d.events (positions (d.events.map fun e => loc e.val.x e.val.y) k) = eventsAt loc d k := by
  rw [take_positions]; rfl

theorem lutRow_events {t : Int} {fg gg : List (Int × List Nat)} {loc : Rat → Rat → Int} {d : GFile}
    {k : Int} {r : LutRow} (hk : k ∈ d.events.map fun e => loc e.val.x e.val.y)
    (h : lutRow t fg gg d k (positions (d.events.map fun e => loc e.val.x e.val.y) k) = .ok r) :
    r.id = k ∧ r.time = t ∧ EventStats loc d r := by
  have hne : eventsAt loc d k ≠ [] := by
    obtain ⟨e, he, hek⟩ := List.mem_map.mp hk
    exact List.ne_nil_of_mem (List.mem_filter.mpr ⟨he, by simpa using hek⟩)
  have hl : ((eventsAt loc d k).length : Rat) ≠ 0 := by
    simpa using hne
  simp only [lutRow, take_eventsAt, bind, Except.bind, pure, Except.pure] at h
  revert h
  repeat' split
  all_goals intro h
  all_goals cases h
  refine ⟨rfl, rfl, hne, rfl, ?_, ?_, ?_⟩
  · rw [positions_length, count_map_eq]; rfl
  · exact div_mul_cancel₀ _ hl
  · exact div_mul_cancel₀ _ hl

/-- The rows of a table and the distinct locations, side by side. -/
theorem lut_rows {t : Int} {loc : Rat → Rat → Int} {d : GFile} {rows : List LutRow}
    (h : getLutevents t loc d = .ok rows) :
    List.Forall₂ (fun k (r : LutRow) => r.id = k ∧ r.time = t ∧ EventStats loc d r)
      (npUnique (d.events.map fun e => loc e.val.x e.val.y)) rows := by
  unfold getLutevents at h
  split at h
  · simp at h
  have h1 := mapM_ok_forall₂ h
  have hg : ∀ ks : List Int, groups ks = (npUnique ks).map fun k => (k, positions ks k) :=
    fun _ => rfl
  rw [hg (d.events.map _), List.forall₂_map_left_iff] at h1
  have h2 : ∀ k ∈ npUnique (d.events.map fun e => loc e.val.x e.val.y),
      k ∈ d.events.map fun e => loc e.val.x e.val.y := fun k hk => mem_npUnique.mp hk
  clear h
  generalize npUnique (d.events.map fun e => loc e.val.x e.val.y) = ks at h1 h2
  induction h1 with
  | nil => exact List.Forall₂.nil
  | cons ha _ ih =>
    exact List.Forall₂.cons (lutRow_events (h2 _ (by simp)) ha)
      (ih fun k hk => h2 k (by simp [hk]))

theorem lut_ids {t : Int} {loc : Rat → Rat → Int} {d : GFile} {rows : List LutRow}
    (h : getLutevents t loc d = .ok rows) :
    rows.map LutRow.id = npUnique (d.events.map fun e => loc e.val.x e.val.y) := by
  have := lut_rows h
  clear h
  generalize npUnique (d.events.map fun e => loc e.val.x e.val.y) = ks at this
  induction this with
  | nil => rfl
  | cons ha _ ih => simp [ih, ha.1]

theorem sum_blocks {β : Type} (l : List β) (f : β → Int) (q : β → Rat) {ks : List Int}
    (hn : ks.Nodup) (hm : ∀ x ∈ l, f x ∈ ks) :
    (ks.map fun k => ((l.filter fun x => f x = k).map q).sum).sum = (l.map q).sum := by
  induction l with
  | nil => simp
  | cons a l ih =>
    rw [List.map_cons, List.sum_cons, ← ih fun x hx => hm x (by simp [hx])]
    have ha := hm a (by simp)
    clear hm
    clear ih
    induction ks with
    | nil => simp at ha
    | cons c ks ih =>
      rw [List.nodup_cons] at hn
      simp only [List.map_cons, List.sum_cons]
      by_cases hc : f a = c
      · rw [List.filter_cons_of_pos (by simpa using hc)]
        have : ks.map (fun k => (((a :: l).filter fun x => f x = k).map q).sum) =
            ks.map fun k => ((l.filter fun x => f x = k).map q).sum := by
          apply List.map_congr_left
          intro k hk
          rw [List.filter_cons_of_neg]
          simp only [decide_eq_true_eq]
          rintro rfl
          exact hn.1 (hc ▸ hk)
        rw [this]
        simp only [List.map_cons, List.sum_cons]
        ring
      · have hk : f a ∈ ks := by
          rw [List.mem_cons] at ha; tauto
        rw [ih hn.2 hk, List.filter_cons_of_neg (by simpa using hc)]
        ring

/-! ### the parents of a row -/

theorem mem_eventsAt {loc : Rat → Rat → Int} {d : GFile} {k : Int} {e : Row GVal} :
    e ∈ eventsAt loc d k ↔ e ∈ d.events ∧ loc e.val.x e.val.y = k := by
  simp [eventsAt]

theorem groupUnique_pid {d : GFile} (hug : UniqueIds d.groups) {e : Row GVal} {i : Int}
    (h : EventOfFlash d e.val.flashOf e) : EventOfFlash d i e ↔ e.val.flashOf = i :=
  ⟨fun h' => eventOfFlash_unique hug h h', fun h' => h' ▸ h⟩

theorem flashesAt_eq {loc : Rat → Rat → Int} {d : GFile} (hd : Rooted d) (hug : UniqueIds d.groups)
    (k : Int) : flashesAt loc d k = d.flashes.filter fun f =>
      f.id ∈ npUnique ((eventsAt loc d k).map fun e => e.val.flashOf) := by
  unfold flashesAt
  apply List.filter_congr
  intro f _
  rw [decide_eq_decide, mem_npUnique, List.mem_map]
  constructor
  · rintro ⟨e, he, hf⟩
    exact ⟨e, he, (groupUnique_pid hug (hd.flashOf e (mem_eventsAt.mp he).1)).mp hf⟩
  · rintro ⟨e, he, hf⟩
    exact ⟨e, he, (groupUnique_pid hug (hd.flashOf e (mem_eventsAt.mp he).1)).mpr hf⟩

theorem groupsAt_eq {loc : Rat → Rat → Int} {d : GFile} (k : Int) :
    groupsAt loc d k = d.groups.filter fun g =>
      g.id ∈ npUnique ((eventsAt loc d k).map Row.pid) := by
  unfold groupsAt
  apply List.filter_congr
  intro f _
  rw [decide_eq_decide, mem_npUnique, List.mem_map]

theorem filter_ids_length {rows : List (Row GVal)} (hu : UniqueIds rows) {ids : List Int}
    (hn : ids.Nodup) (hs : ∀ i ∈ ids, ∃ r ∈ rows, r.id = i) :
    (rows.filter fun r => r.id ∈ ids).length = ids.length := by
  rw [← List.length_map (f := Row.id)]
  apply List.Perm.length_eq
  rw [List.perm_ext_iff_of_nodup]
  · intro i
    simp only [List.mem_map, List.mem_filter, decide_eq_true_eq]
    constructor
    · rintro ⟨r, ⟨_, h⟩, rfl⟩; exact h
    · intro hi
      obtain ⟨r, hr, rfl⟩ := hs i hi
      exact ⟨r, ⟨hr, hi⟩, rfl⟩
  · exact hu.sublist (List.Sublist.map _ List.filter_sublist)
  · exact hn

theorem flatten_positions (rows : List (Row GVal)) (ids : List Int) :
    take rows (ids.map (positions (rows.map Row.id))).flatten = rowsInOrder ids rows := by
  rw [take_flatten, List.map_map, rowsInOrder, List.flatMap_def]
  congr 1
  apply List.map_congr_left
  intro i _
  exact take_positions rows Row.id i

theorem lutRow_ok (t : Int) {loc : Rat → Rat → Int} {d : GFile} (hd : Rooted d)
    (huf : UniqueIds d.flashes) (hug : UniqueIds d.groups) {k : Int}
    (hk : k ∈ d.events.map fun e => loc e.val.x e.val.y) :
    ∃ r, lutRow t (groups (d.flashes.map Row.id)) (groups (d.groups.map Row.id)) d k
      (positions (d.events.map fun e => loc e.val.x e.val.y) k) = .ok r ∧
      r.id = k ∧ ParentStats loc d r := by
  set fids := npUnique ((eventsAt loc d k).map fun e => e.val.flashOf) with hfids
  set gids := npUnique ((eventsAt loc d k).map Row.pid) with hgids
  have hf : ∀ i ∈ fids, ∃ f ∈ d.flashes, f.id = i := by
    intro i hi
    rw [hfids, mem_npUnique, List.mem_map] at hi
    obtain ⟨e, he, rfl⟩ := hi
    obtain ⟨g, hg, _, hg2⟩ := hd.flashOf e (mem_eventsAt.mp he).1
    obtain ⟨f, hf, hf2⟩ := hd.groupHasFlash g hg
    exact ⟨f, hf, by rw [hf2, hg2]⟩
  have hg : ∀ i ∈ gids, ∃ g ∈ d.groups, g.id = i := by
    intro i hi
    rw [hgids, mem_npUnique, List.mem_map] at hi
    obtain ⟨e, he, rfl⟩ := hi
    obtain ⟨g, hg, hg1, _⟩ := hd.flashOf e (mem_eventsAt.mp he).1
    exact ⟨g, hg, hg1⟩
  have hf' : ∀ i ∈ fids, i ∈ d.flashes.map Row.id := fun i hi => List.mem_map.mpr (hf i hi)
  have hg' : ∀ i ∈ gids, i ∈ d.groups.map Row.id := fun i hi => List.mem_map.mpr (hg i hi)
  have hfne : fids ≠ [] := by
    obtain ⟨e, he, hek⟩ := List.mem_map.mp hk
    rw [hfids, Ne, npUnique_eq_nil, List.map_eq_nil_iff]
    exact List.ne_nil_of_mem (mem_eventsAt.mpr ⟨he, hek⟩)
  -- the minima flash by flash
  obtain ⟨ms, hms, hms2⟩ := mapM_ok_of_forall
    (f := fun idx => listMin ((take d.flashes idx).map fun f => f.val.area))
    (P := fun idx m => m ∈ (take d.flashes idx).map (fun f => f.val.area) ∧
      ∀ b ∈ (take d.flashes idx).map (fun f => f.val.area), m ≤ b)
    (l := fids.map (positions (d.flashes.map Row.id))) (by
      intro idx hidx
      obtain ⟨i, hi, rfl⟩ := List.mem_map.mp hidx
      rw [take_positions]
      apply listMin_spec
      obtain ⟨f, hf1, hf2⟩ := hf i hi
      simp only [ne_eq, List.map_eq_nil_iff]
      exact List.ne_nil_of_mem (List.mem_filter.mpr ⟨hf1, by simpa using hf2⟩))
  rw [List.forall₂_map_left_iff] at hms2
  have hlen := hms2.length_eq
  obtain ⟨m, hm, hm1, hm2⟩ := listMin_spec (l := ms) (by
    intro h0; rw [h0] at hlen; exact hfne (List.length_eq_zero_iff.mp hlen))
  have hrow : ∃ r, lutRow t (groups (d.flashes.map Row.id)) (groups (d.groups.map Row.id)) d k
      (positions (d.events.map fun e => loc e.val.x e.val.y) k) = .ok r ∧ r.id = k ∧
      r.flashCount = fids.length ∧ r.groupCount = gids.length ∧
      r.totalFlashArea = ((rowsInOrder fids d.flashes).map fun f => f.val.area).sum ∧
      r.totalGroupArea = ((rowsInOrder gids d.groups).map fun f => f.val.area).sum ∧
      r.minFlashArea = m := by
    simp only [lutRow, take_eventsAt, ← hfids, ← hgids, groupsOf_ok hf', groupsOf_ok hg', hms, hm,
      bind, Except.bind, pure, Except.pure, flatten_positions]
    exact ⟨_, rfl, rfl, rfl, rfl, rfl, rfl, rfl⟩
  obtain ⟨r, hr, rfl, hr1, hr2, hr3, hr4, hr5⟩ := hrow
  refine ⟨r, hr, rfl, ?_, ?_, ?_, ?_, ?_, ?_⟩
  · rw [flashesAt_eq hd hug, hr1]
    exact (filter_ids_length huf (npUnique_nodup _) hf).symm
  · rw [groupsAt_eq, hr2]
    exact (filter_ids_length hug (npUnique_nodup _) hg).symm
  · rw [flashesAt_eq hd hug, hr3]
    exact ((rowsInOrder_perm (npUnique_nodup _) _).map _).sum_eq
  · rw [groupsAt_eq, hr4]
    exact ((rowsInOrder_perm (npUnique_nodup _) _).map _).sum_eq
  · rw [flashesAt_eq hd hug, hr5]
    obtain ⟨n, hn, hn2⟩ := List.mem_iff_getElem.mp hm1
    have := hms2.get (by rw [hlen]; exact hn) hn
    simp only [List.get_eq_getElem, take_positions] at this
    obtain ⟨f, hf1, hf2⟩ := List.mem_map.mp this.1
    rw [List.mem_filter] at hf1
    refine ⟨f, ?_, by rw [hf2, hn2]⟩
    rw [List.mem_filter]
    refine ⟨hf1.1, ?_⟩
    have h2 := hf1.2
    simp only [decide_eq_true_eq] at h2 ⊢
    rw [h2]
    exact List.getElem_mem _
  · rw [flashesAt_eq hd hug, hr5]
    intro f hfm
    rw [List.mem_filter] at hfm
    have hid : f.id ∈ fids := by simpa using hfm.2
    obtain ⟨n, hn, hn2⟩ := List.mem_iff_getElem.mp hid
    have hn' : n < ms.length := by rw [← hlen]; exact hn
    have := hms2.get hn hn'
    simp only [List.get_eq_getElem, take_positions] at this
    refine (hm2 _ (List.getElem_mem hn')).trans (this.2 _ ?_)
    rw [List.mem_map]
    exact ⟨f, List.mem_filter.mpr ⟨hfm.1, by simp [hn2]⟩, rfl⟩

/-- The table of a rooted dataset. -/
theorem lut_ok (t : Int) (loc : Rat → Rat → Int) {d : GFile} (h : HasData d) (hd : Rooted d)
    (huf : UniqueIds d.flashes) (hug : UniqueIds d.groups) :
    ∃ rows, getLutevents t loc d = .ok rows ∧ ∀ r ∈ rows, ParentStats loc d r := by
  have hn : ¬ (d.events = [] ∨ d.flashes = [] ∨ d.groups = []) := by
    unfold HasData at h; tauto
  obtain ⟨rows, h1, h2⟩ := mapM_ok_of_forall
    (f := fun (kv : Int × List Nat) => lutRow t (groups (d.flashes.map Row.id)) (groups (d.groups.map Row.id)) d
      kv.1 kv.2)
    (P := fun _ r => ParentStats loc d r)
    (l := groups (d.events.map fun e => loc e.val.x e.val.y)) (by
      intro kv hkv
      obtain ⟨k, hk, rfl⟩ := List.mem_map.mp hkv
      rw [mem_npUnique] at hk
      obtain ⟨r, hr, _, hr2⟩ := lutRow_ok t hd huf hug hk
      exact ⟨r, hr, hr2⟩)
  refine ⟨rows, ?_, ?_⟩
  · rw [getLutevents, if_neg hn, h1]
  · intro r hr
    obtain ⟨n, hn, rfl⟩ := List.mem_iff_getElem.mp hr
    exact h2.get (by rw [h2.length_eq]; exact hn) hn

end Verif.Proofs
