import Verif.Proofs.Lut

/-! Lemmas about `np.array_split` and about chunks of flashes. -/

namespace Verif.Proofs

open Verif.Py Verif.Model Verif.Spec

/-! ### `np.array_split` -/

theorem splitSizes_flatten {β : Type} (ss : List Nat) (l : List β) (h : ss.sum = l.length) :
    (splitSizes l ss).flatten = l := by
  induction ss generalizing l with
  | nil =>
    simp only [List.sum_nil] at h
    have : l = [] := List.length_eq_zero_iff.mp h.symm
    simp [splitSizes, this]
  | cons s ss ih =>
    simp only [List.sum_cons] at h
    simp only [splitSizes, List.flatten_cons]
    rw [ih (l.drop s) (by simp; omega), List.take_append_drop]

theorem splitSizes_length {β : Type} (ss : List Nat) (l : List β) (h : ss.sum = l.length) :
    (splitSizes l ss).map List.length = ss := by
  induction ss generalizing l with
  | nil => rfl
  | cons s ss ih =>
    simp only [List.sum_cons] at h
    simp only [splitSizes, List.map_cons]
    rw [ih (l.drop s) (by simp; omega), List.length_take]
    congr 1
    omega

theorem sizes_sum (m n : Nat) (hn : 0 < n) :
    (List.replicate (m % n) (m / n + 1) ++ List.replicate (n - m % n) (m / n)).sum = m := by
  rw [List.sum_append, List.sum_replicate, List.sum_replicate]
  have h1 := Nat.mod_lt m hn
  have h2 := Nat.div_add_mod m n
  obtain ⟨j, hj⟩ : ∃ j, n = m % n + j := ⟨n - m % n, by omega⟩
  have h3 : n - m % n = j := by omega
  rw [h3]
  calc m % n * (m / n + 1) + j * (m / n) = (m % n + j) * (m / n) + m % n := by ring
    _ = m := by rw [← hj]; exact h2

theorem arraySplit_flatten {β : Type} (l : List β) {n : Nat} (hn : 0 < n) :
    (arraySplit l n).flatten = l := splitSizes_flatten _ _ (sizes_sum _ _ hn)

theorem arraySplit_length {β : Type} (l : List β) {n : Nat} (hn : 0 < n) :
    (arraySplit l n).length = n := by
  have := congrArg List.length (splitSizes_length _ l (sizes_sum l.length n hn))
  rw [List.length_map] at this
  have h1 := Nat.mod_lt l.length hn
  rw [arraySplit, this]
  simp
  omega

theorem arraySplit_sizes {β : Type} (l : List β) {n : Nat} (hn : 0 < n) {c : List β}
    (hc : c ∈ arraySplit l n) : c.length = l.length / n ∨
      (c.length = l.length / n + 1 ∧ l.length % n ≠ 0) := by
  have := splitSizes_length _ l (sizes_sum l.length n hn)
  have hc2 : c.length ∈ (arraySplit l n).map List.length := List.mem_map.mpr ⟨c, hc, rfl⟩
  rw [arraySplit, this, List.mem_append, List.mem_replicate, List.mem_replicate] at hc2
  rcases hc2 with ⟨h1, h2⟩ | ⟨h1, h2⟩
  · exact Or.inr ⟨h2, h1⟩
  · exact Or.inl h2

theorem chunk_bound {m n c : Nat} (hn : 0 < n) (hm : 0 < m)
    (h : c = m / max (m / n) 1 ∨ (c = m / max (m / n) 1 + 1 ∧ m % max (m / n) 1 ≠ 0)) :
    0 < c ∧ c < 2 * n := by
  by_cases hmn : m < n
  · have : m / n = 0 := Nat.div_eq_of_lt hmn
    simp only [this, zero_le, sup_of_le_right, Nat.div_one, Nat.mod_one, ne_eq, not_true_eq_false,
      and_false, or_false] at h
    omega
  · have hk : 0 < m / n := Nat.div_pos (by omega) hn
    have hmax : max (m / n) 1 = m / n := by omega
    rw [hmax] at h
    set k := m / n with hkdef
    have h1 : n * k + m % n = m := Nat.div_add_mod m n
    have h2 : m % n < n := Nat.mod_lt m hn
    have h3 : k * (m / k) + m % k = m := Nat.div_add_mod m k
    have h4 : m % k < k := Nat.mod_lt m hk
    have hpos : 0 < m / k := by
      apply Nat.div_pos _ hk
      calc k = 1 * k := by ring
        _ ≤ n * k := Nat.mul_le_mul_right _ hn
        _ ≤ m := by omega
    refine ⟨by omega, ?_⟩
    by_contra hcon
    have hcon : 2 * n ≤ c := by omega
    rcases h with rfl | ⟨rfl, hne⟩
    · have : k * (2 * n) ≤ k * (m / k) := Nat.mul_le_mul_left _ hcon
      have h5 : n ≤ n * k := Nat.le_mul_of_pos_right n hk
      have h6 : k * (2 * n) = n * k + n * k := by ring
      omega
    · have h7 : k * (2 * n) ≤ k * (m / k + 1) := Nat.mul_le_mul_left _ hcon
      have h8 : k * (m / k + 1) = k * (m / k) + k := by ring
      have h6 : k * (2 * n) = n * k + n * k := by ring
      have h9 : 0 < m % k := Nat.pos_of_ne_zero hne
      -- (n - 1) * (k - 1) >= 0
      have h10 : n + k ≤ n * k + 1 := by
        obtain ⟨a, rfl⟩ : ∃ a, n = a + 1 := ⟨n - 1, by omega⟩
        obtain ⟨b, hb⟩ : ∃ b, k = b + 1 := ⟨k - 1, by omega⟩
        rw [hb]
        have : (a + 1) * (b + 1) = a * b + a + b + 1 := by ring
        have h0 : 0 ≤ a * b := Nat.zero_le _
        omega
      omega

/-! ### a chunk of flashes -/

theorem rowsInOrder_ids {rows : List (Row GVal)} (hu : UniqueIds rows) {ids : List Int}
    (hs : ∀ i ∈ ids, ∃ r ∈ rows, r.id = i) : (rowsInOrder ids rows).map Row.id = ids := by
  induction ids with
  | nil => rfl
  | cons a l ih =>
    have h1 : (rows.filter fun r => r.id = a).map Row.id = [a] := by
      obtain ⟨r, hr, rfl⟩ := hs a (by simp)
      have hn : ((rows.filter fun x => x.id = r.id).map Row.id).Nodup :=
        hu.sublist (List.Sublist.map _ List.filter_sublist)
      have hall : ∀ x ∈ (rows.filter fun x => x.id = r.id).map Row.id, x = r.id := by
        intro x hx
        obtain ⟨y, hy, rfl⟩ := List.mem_map.mp hx
        simpa using (List.mem_filter.mp hy).2
      have hmem : r.id ∈ (rows.filter fun x => x.id = r.id).map Row.id :=
        List.mem_map.mpr ⟨r, List.mem_filter.mpr ⟨hr, by simp⟩, rfl⟩
      generalize ((rows.filter fun x => x.id = r.id).map Row.id) = L at hn hall hmem
      match L, hn, hall, hmem with
      | [x], _, hall, _ => simp [hall x (by simp)]
      | x :: y :: _, hn, hall, _ =>
        have := hall x (by simp)
        have := hall y (by simp)
        simp_all
    have ih := ih fun i hi => hs i (by simp [hi])
    rw [rowsInOrder] at ih ⊢
    rw [List.flatMap_cons, List.map_append, h1, ih]
    rfl

theorem kept_hasData {d : GFile} (hc : Consistent d) {ids : List Int} (hne : ids ≠ [])
    (hs : ∀ i ∈ ids, ∃ f ∈ d.flashes, f.id = i) : HasData (keptFlashes d ids) := by
  obtain ⟨i, hi⟩ := List.exists_mem_of_ne_nil ids hne
  obtain ⟨f, hf, rfl⟩ := hs i hi
  obtain ⟨g, hg, hg2⟩ := hc.flashHasGroup f hf
  obtain ⟨e, he, he2⟩ := hc.groupHasEvent g hg
  have h1 : f ∈ (keptFlashes d ids).flashes := mem_rowsInOrder.mpr ⟨hf, hi⟩
  have h2 : g ∈ (keptFlashes d ids).groups := mem_childrenInOrder.mpr ⟨hg, by rw [hg2]; exact hi⟩
  have h3 : e ∈ (keptFlashes d ids).events :=
    mem_childrenInOrder.mpr ⟨he, List.mem_map.mpr ⟨g, h2, he2.symm⟩⟩
  exact ⟨List.ne_nil_of_mem h1, List.ne_nil_of_mem h2, List.ne_nil_of_mem h3⟩

theorem kept_rooted {d : GFile} (hd : Rooted d) (ids : List Int) (hug : UniqueIds d.groups) :
    Rooted (keptFlashes d ids) := by
  constructor
  · intro g hg
    obtain ⟨hg1, hg2⟩ := mem_childrenInOrder.mp hg
    obtain ⟨f, hf, hf2⟩ := hd.groupHasFlash g hg1
    exact ⟨f, mem_rowsInOrder.mpr ⟨hf, by rw [hf2]; exact hg2⟩, hf2⟩
  · intro e he
    obtain ⟨he1, he2⟩ := mem_childrenInOrder.mp he
    obtain ⟨g, hg, hg2⟩ := List.mem_map.mp he2
    obtain ⟨g', hg', h1, h2⟩ := hd.flashOf e he1
    have : g' = g := List.inj_on_of_nodup_map hug hg' (mem_childrenInOrder.mp hg).1 (by rw [h1, hg2])
    subst this
    exact ⟨g', hg, h1, h2⟩

theorem kept_consistent {d : GFile} (hc : Consistent d) (ids : List Int) :
    Consistent (keptFlashes d ids) := by
  constructor
  · intro g hg
    obtain ⟨hg1, hg2⟩ := mem_childrenInOrder.mp hg
    obtain ⟨f, hf, hf2⟩ := hc.groupHasFlash g hg1
    exact ⟨f, mem_rowsInOrder.mpr ⟨hf, by rw [hf2]; exact hg2⟩, hf2⟩
  · intro e he
    obtain ⟨he1, he2⟩ := mem_childrenInOrder.mp he
    exact List.mem_map.mp he2
  · intro f hf
    obtain ⟨hf1, hf2⟩ := mem_rowsInOrder.mp hf
    obtain ⟨g, hg, hg2⟩ := hc.flashHasGroup f hf1
    exact ⟨g, mem_childrenInOrder.mpr ⟨hg, by rw [hg2]; exact hf2⟩, hg2⟩
  · intro g hg
    obtain ⟨hg1, hg2⟩ := mem_childrenInOrder.mp hg
    obtain ⟨e, he, he2⟩ := hc.groupHasEvent g hg1
    exact ⟨e, mem_childrenInOrder.mpr ⟨he, List.mem_map.mpr ⟨g, hg, he2.symm⟩⟩, he2⟩

theorem kept_unique {d : GFile} {ids : List Int} (hn : ids.Nodup) (huf : UniqueIds d.flashes)
    (hug : UniqueIds d.groups) :
    UniqueIds (keptFlashes d ids).flashes ∧ UniqueIds (keptFlashes d ids).groups :=
  ⟨rowsInOrder_unique hn huf, childrenInOrder_unique hn hug⟩

/-- An event of a kept dataset is one whose flash is kept. -/
theorem kept_events_perm {d : GFile} (hd : Rooted d) (hug : UniqueIds d.groups) {ids : List Int}
    (hn : ids.Nodup) :
    (keptFlashes d ids).events.Perm (d.events.filter fun e => e.val.flashOf ∈ ids) := by
  refine (childrenInOrder_perm (childrenInOrder_unique hn hug) _).trans (List.Perm.of_eq ?_)
  apply List.filter_congr
  intro e he
  rw [decide_eq_decide, List.mem_map]
  obtain ⟨g, hg, h1, h2⟩ := hd.flashOf e he
  constructor
  · rintro ⟨g', hg', h3⟩
    obtain ⟨hg1, hg2⟩ := mem_childrenInOrder.mp hg'
    have : g' = g := List.inj_on_of_nodup_map hug hg1 hg (by rw [h1, h3])
    subst this
    rw [← h2]; exact hg2
  · intro h
    exact ⟨g, mem_childrenInOrder.mpr ⟨hg, by rw [h2]; exact h⟩, h1⟩

/-- The part of the rows at location `k` that belongs to the flashes `ids`. -/
structure PartAt (loc : Rat → Rat → Int) (d s : GFile) (ids : List Int) (k : Int) : Prop where
  events : (eventsAt loc s k).Perm
    ((eventsAt loc d k).filter fun e => e.val.flashOf ∈ ids)
  flashes : (flashesAt loc s k).Perm ((flashesAt loc d k).filter fun f => f.id ∈ ids)
  groups : (groupsAt loc s k).Perm ((groupsAt loc d k).filter fun g => g.pid ∈ ids)

theorem kept_part (loc : Rat → Rat → Int) {d : GFile} (hd : Rooted d) (hug : UniqueIds d.groups)
    {ids : List Int} (hn : ids.Nodup) (k : Int) : PartAt loc d (keptFlashes d ids) ids k := by
  have hev : (eventsAt loc (keptFlashes d ids) k).Perm
      ((eventsAt loc d k).filter fun e => e.val.flashOf ∈ ids) := by
    refine ((kept_events_perm hd hug hn).filter _).trans (List.Perm.of_eq ?_)
    simp only [eventsAt, List.filter_filter]
    apply List.filter_congr
    intro e _
    rw [Bool.and_comm]
  have hke : ∀ e, e ∈ eventsAt loc (keptFlashes d ids) k ↔
      e ∈ eventsAt loc d k ∧ e.val.flashOf ∈ ids := by
    intro e; rw [hev.mem_iff]; simp
  refine ⟨hev, ?_, ?_⟩
  · rw [flashesAt_eq (kept_rooted hd ids hug) (kept_unique hn (d := ⟨[], d.groups, []⟩)
      (by simp [UniqueIds]) hug).2, flashesAt_eq hd hug]
    refine ((rowsInOrder_perm hn _).filter _).trans (List.Perm.of_eq ?_)
    simp only [List.filter_filter]
    apply List.filter_congr
    intro f _
    rw [Bool.eq_iff_iff]
    simp only [Bool.and_eq_true, decide_eq_true_eq, mem_npUnique, List.mem_map, hke]
    constructor
    · rintro ⟨⟨e, ⟨he, _⟩, h2⟩, h3⟩
      exact ⟨h3, e, he, h2⟩
    · rintro ⟨h3, e, he, h2⟩
      exact ⟨⟨e, ⟨he, by rw [h2]; exact h3⟩, h2⟩, h3⟩
  · unfold groupsAt
    refine ((childrenInOrder_perm hn _).filter _).trans (List.Perm.of_eq ?_)
    simp only [List.filter_filter]
    apply List.filter_congr
    intro g hg
    rw [Bool.eq_iff_iff]
    simp only [Bool.and_eq_true, decide_eq_true_eq, hke]
    have hpid : ∀ e ∈ eventsAt loc d k, e.pid = g.id → e.val.flashOf = g.pid := by
      intro e he h
      exact eventOfFlash_unique hug (hd.flashOf e (mem_eventsAt.mp he).1) ⟨g, hg, h.symm, rfl⟩
    constructor
    · rintro ⟨⟨e, ⟨he, _⟩, h2⟩, h3⟩
      exact ⟨h3, e, he, h2⟩
    · rintro ⟨h3, e, he, h2⟩
      exact ⟨⟨e, ⟨he, by rw [hpid e he h2]; exact h3⟩, h2⟩, h3⟩

theorem all_part (loc : Rat → Rat → Int) {d : GFile} (hd : Rooted d) (k : Int) :
    PartAt loc d d (d.flashes.map Row.id) k := by
  have hf : ∀ g ∈ d.groups, g.pid ∈ d.flashes.map Row.id := fun g hg =>
    List.mem_map.mpr (hd.groupHasFlash g hg)
  refine ⟨List.Perm.of_eq ?_, List.Perm.of_eq ?_, List.Perm.of_eq ?_⟩ <;> symm <;>
    rw [List.filter_eq_self]
  · intro e he
    obtain ⟨g, hg, _, h2⟩ := hd.flashOf e (mem_eventsAt.mp he).1
    simp only [decide_eq_true_eq]
    rw [← h2]; exact hf g hg
  · intro f hfm
    simp only [decide_eq_true_eq]
    exact List.mem_map.mpr ⟨f, (List.mem_filter.mp hfm).1, rfl⟩
  · intro g hg
    simp only [decide_eq_true_eq]
    exact hf g (List.mem_filter.mp hg).1

/-- Chunks without a common id split a sum. -/
theorem sum_chunks {β : Type} (l : List β) (key : β → Int) (q : β → Rat) (chunks : List (List Int))
    (hn : chunks.flatten.Nodup) :
    (chunks.map fun c => ((l.filter fun x => key x ∈ c).map q).sum).sum =
      ((l.filter fun x => key x ∈ chunks.flatten).map q).sum := by
  induction chunks with
  | nil => simp
  | cons c cs ih =>
    rw [List.flatten_cons, List.nodup_append] at hn
    rw [List.map_cons, List.sum_cons, ih hn.2.1, List.flatten_cons]
    clear ih
    induction l with
    | nil => simp
    | cons a l ih =>
      simp only [List.filter_cons, List.mem_append]
      by_cases h1 : key a ∈ c
      · have h2 : key a ∉ cs.flatten := fun h => hn.2.2 _ h1 _ h rfl
        simp only [h1, h2, decide_true, decide_false, if_true, or_false, List.map_cons,
          List.sum_cons, Bool.false_eq_true, if_false]
        simp only [List.mem_append] at ih
        rw [← ih]; ring
      · by_cases h2 : key a ∈ cs.flatten
        · simp only [h1, h2, decide_true, decide_false, if_true, or_true, List.map_cons,
            List.sum_cons, Bool.false_eq_true, if_false]
          simp only [List.mem_append] at ih
          rw [← ih]; ring
        · simp only [h1, h2, decide_false, or_self, Bool.false_eq_true, if_false]
          simp only [List.mem_append] at ih
          exact ih

/-- A statistic of the row at `k`, if it is a function of the row id. -/
theorem totalAt_eq {rows : List LutRow} (hn : (rows.map LutRow.id).Nodup) {q : LutRow → Rat}
    {F : Int → Rat} (hq : ∀ r ∈ rows, q r = F r.id) {k : Int}
    (hk : k ∉ rows.map LutRow.id → F k = 0) : totalAt q rows k = F k := by
  unfold totalAt
  by_cases h : k ∈ rows.map LutRow.id
  · clear hk
    induction rows with
    | nil => simp at h
    | cons a l ih =>
      rw [List.map_cons, List.nodup_cons] at hn
      by_cases ha : a.id = k
      · have : l.filter (fun r => r.id = k) = [] := by
          rw [List.filter_eq_nil_iff]
          intro r hr hrk
          simp only [decide_eq_true_eq] at hrk
          exact hn.1 (List.mem_map.mpr ⟨r, hr, by rw [hrk, ha]⟩)
        rw [List.filter_cons_of_pos (by simpa using ha), this]
        simp [hq a (by simp), ha]
      · rw [List.filter_cons_of_neg (by simpa using ha)]
        apply ih hn.2 (fun r hr => hq r (by simp [hr]))
        simp only [List.map_cons, List.mem_cons] at h
        rcases h with h | h
        · exact absurd h.symm ha
        · exact h
  · rw [hk h]
    have : rows.filter (fun r => r.id = k) = [] := by
      rw [List.filter_eq_nil_iff]
      intro r hr hrk
      simp only [decide_eq_true_eq] at hrk
      exact h (List.mem_map.mpr ⟨r, hr, hrk⟩)
    simp [this]

end Verif.Proofs
