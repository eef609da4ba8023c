import Verif.Proofs.Chunks
import Verif.Props.Dataset
import Mathlib.Tactic.FieldSimp
import Mathlib.Algebra.BigOperators.Ring.Finset

/-!
# C16 - C21: the event lookup table and reading flashes in chunks
-/

namespace Verif.Props

open Verif.Py Verif.Model Verif.Spec Verif.Proofs

/-! ## C16 -/

/-- Column (or row) of a coordinate when the axis is cut into steps of `scale` from `lo`. -/
def stepIndex (scale lo v : Rat) : Int := ⌊(v - lo) / scale⌋

/-- A discretisation whose ids fit in 64 bits. -/
structure Sizes (scale : Rat) (xr yr : Rat × Rat) : Prop where
  pos : 0 < scale
  x : (xr.2 - xr.1) / scale < 2 ^ 31
  y : (yr.2 - yr.1) / scale < 2 ^ 31

/-- `v` is in the closed range. -/
def Within (r : Rat × Rat) (v : Rat) : Prop := r.1 ≤ v ∧ v ≤ r.2

/-- The property: in range, same id iff same column and same row. -/
def C16_full : Prop := ∀ (scale : Rat) (xr yr : Rat × Rat) (x y x' y' : Rat), Sizes scale xr yr →
  Within xr x → Within yr y → Within xr x' → Within yr y' →
  (discretize scale xr yr x y = discretize scale xr yr x' y' ↔
    stepIndex scale xr.1 x = stepIndex scale xr.1 x' ∧
    stepIndex scale yr.1 y = stepIndex scale yr.1 y')

theorem toUint64_floor {q : Rat} (h0 : 0 ≤ q) (h1 : q < 2 ^ 31) :
    (toUint64 q : Int) = ⌊q⌋ ∧ toUint64 q < 2 ^ 31 := by
  have h2 : 0 ≤ ⌊q⌋ := Int.floor_nonneg.mpr h0
  have h3 : ⌊q⌋ < 2 ^ 31 := by
    rw [Int.floor_lt]; exact_mod_cast h1
  unfold toUint64
  rw [if_pos h0]
  constructor
  · rw [Int.toNat_of_nonneg (Int.emod_nonneg _ (by norm_num))]
    exact Int.emod_eq_of_lt h2 (by omega)
  · rw [Int.emod_eq_of_lt h2 (by omega)]
    omega

theorem within_step {scale : Rat} (hs : 0 < scale) {r : Rat × Rat} {v : Rat} (h : Within r v)
    (hr : (r.2 - r.1) / scale < 2 ^ 31) :
    (toUint64 ((v - r.1) / scale) : Int) = stepIndex scale r.1 v ∧
      toUint64 ((v - r.1) / scale) < 2 ^ 31 ∧
      toUint64 ((v - r.1) / scale) ≤ toUint64 ((r.2 - r.1) / scale) := by
  have h0 : 0 ≤ (v - r.1) / scale := div_nonneg (by linarith [h.1]) hs.le
  have hle : (v - r.1) / scale ≤ (r.2 - r.1) / scale :=
    div_le_div_of_nonneg_right (by linarith [h.2]) hs.le
  obtain ⟨h1, h2⟩ := toUint64_floor h0 (lt_of_le_of_lt hle hr)
  obtain ⟨h3, _⟩ := toUint64_floor (h0.trans hle) hr
  refine ⟨h1, h2, ?_⟩
  have := Int.floor_le_floor hle
  rw [← h1, ← h3] at this
  exact_mod_cast this

theorem discretize_closed {scale : Rat} {xr yr : Rat × Rat} (hs : Sizes scale xr yr) {x y : Rat}
    (hx : Within xr x) (hy : Within yr y) :
    (discretize scale xr yr x y : Int) = stepIndex scale xr.1 x +
      stepIndex scale yr.1 y * stepIndex scale xr.1 xr.2 ∧
    0 ≤ stepIndex scale xr.1 x ∧ stepIndex scale xr.1 x ≤ stepIndex scale xr.1 xr.2 ∧
    0 ≤ stepIndex scale yr.1 y := by
  have hxx : Within xr xr.2 := ⟨hx.1.trans hx.2, le_refl _⟩
  obtain ⟨a1, a2, a3⟩ := within_step hs.pos hx hs.x
  obtain ⟨b1, b2, b3⟩ := within_step hs.pos hy hs.y
  obtain ⟨c1, c2, c3⟩ := within_step hs.pos hxx hs.x
  unfold discretize
  dsimp only
  rw [Nat.mod_eq_of_lt]
  · push_cast
    rw [a1, b1, c1]
    refine ⟨rfl, ?_, ?_, ?_⟩
    · rw [← a1]; positivity
    · rw [← a1, ← c1]; exact_mod_cast a3
    · rw [← b1]; positivity
  · have h1 : toUint64 ((y - yr.1) / scale) * toUint64 ((xr.2 - xr.1) / scale) ≤
        (2 ^ 31 - 1) * (2 ^ 31 - 1) := Nat.mul_le_mul (by omega) (by omega)
    omega

theorem rowcol_inj {M c r c' r' : Int} (hc0 : 0 ≤ c) (hc : c < M) (hc0' : 0 ≤ c') (hc' : c' < M) :
    c + r * M = c' + r' * M ↔ c = c' ∧ r = r' := by
  constructor
  · intro h
    have h1 : (c + r * M) % M = c := by
      rw [Int.add_mul_emod_self_right]; exact Int.emod_eq_of_lt hc0 hc
    have h2 : (c' + r' * M) % M = c' := by
      rw [Int.add_mul_emod_self_right]; exact Int.emod_eq_of_lt hc0' hc'
    have hcc : c = c' := by rw [← h1, ← h2, h]
    refine ⟨hcc, ?_⟩
    subst hcc
    have : r * M = r' * M := by omega
    exact Int.eq_of_mul_eq_mul_right (by omega) this
  · rintro ⟨rfl, rfl⟩; rfl

/-- Ids identify the cell for all locations whose column is below the number of whole columns.
Missing from the full property: the last, incomplete column. -/
theorem C16_unique_partial {scale : Rat} {xr yr : Rat × Rat} (hs : Sizes scale xr yr)
    {x y x' y' : Rat} (hx : Within xr x) (hy : Within yr y) (hx' : Within xr x') (hy' : Within yr y')
    (hc : stepIndex scale xr.1 x < stepIndex scale xr.1 xr.2)
    (hc' : stepIndex scale xr.1 x' < stepIndex scale xr.1 xr.2) :
    discretize scale xr yr x y = discretize scale xr yr x' y' ↔
      stepIndex scale xr.1 x = stepIndex scale xr.1 x' ∧
      stepIndex scale yr.1 y = stepIndex scale yr.1 y' := by
  obtain ⟨a1, a2, a3, a4⟩ := discretize_closed hs hx hy
  obtain ⟨b1, b2, b3, b4⟩ := discretize_closed hs hx' hy'
  rw [← rowcol_inj a2 hc b2 hc', ← a1, ← b1]
  exact_mod_cast Iff.rfl

/-- The exact collisions: the last column of a row shares its ids with the first column of the
next row, and nothing else does. -/
theorem C16_collisions {scale : Rat} {xr yr : Rat × Rat} (hs : Sizes scale xr yr)
    (hw : 0 < stepIndex scale xr.1 xr.2)
    {x y x' y' : Rat} (hx : Within xr x) (hy : Within yr y) (hx' : Within xr x') (hy' : Within yr y') :
    discretize scale xr yr x y = discretize scale xr yr x' y' ↔
      (stepIndex scale xr.1 x = stepIndex scale xr.1 x' ∧
        stepIndex scale yr.1 y = stepIndex scale yr.1 y') ∨
      (stepIndex scale xr.1 x = stepIndex scale xr.1 xr.2 ∧ stepIndex scale xr.1 x' = 0 ∧
        stepIndex scale yr.1 y + 1 = stepIndex scale yr.1 y') ∨
      (stepIndex scale xr.1 x' = stepIndex scale xr.1 xr.2 ∧ stepIndex scale xr.1 x = 0 ∧
        stepIndex scale yr.1 y' + 1 = stepIndex scale yr.1 y) := by
  obtain ⟨a1, a2, a3, a4⟩ := discretize_closed hs hx hy
  obtain ⟨b1, b2, b3, b4⟩ := discretize_closed hs hx' hy'
  have e : discretize scale xr yr x y = discretize scale xr yr x' y' ↔
      stepIndex scale xr.1 x + stepIndex scale yr.1 y * stepIndex scale xr.1 xr.2 =
      stepIndex scale xr.1 x' + stepIndex scale yr.1 y' * stepIndex scale xr.1 xr.2 := by
    rw [← a1, ← b1]; exact_mod_cast Iff.rfl
  rw [e]
  generalize stepIndex scale xr.1 xr.2 = M at *
  generalize stepIndex scale xr.1 x = c at *
  generalize stepIndex scale xr.1 x' = c' at *
  generalize stepIndex scale yr.1 y = r at *
  generalize stepIndex scale yr.1 y' = r' at *
  rcases lt_or_eq_of_le a3 with h1 | h1 <;> rcases lt_or_eq_of_le b3 with h2 | h2
  · rw [rowcol_inj a2 h1 b2 h2]
    constructor
    · intro h; exact Or.inl h
    · rintro (h | ⟨h, _⟩ | ⟨h, _⟩)
      · exact h
      · omega
      · omega
  · subst h2
    have : c' + r' * c' = 0 + (r' + 1) * c' := by ring
    rw [this, rowcol_inj a2 h1 le_rfl hw]
    constructor
    · rintro ⟨h, h'⟩; right; right; exact ⟨rfl, h, h'.symm⟩
    · rintro (⟨h, _⟩ | ⟨h, _⟩ | ⟨_, h, h'⟩)
      · omega
      · omega
      · exact ⟨h, h'.symm⟩
  · subst h1
    have : c + r * c = 0 + (r + 1) * c := by ring
    rw [this, rowcol_inj le_rfl hw b2 h2]
    constructor
    · rintro ⟨h, h'⟩; right; left; exact ⟨rfl, h.symm, h'⟩
    · rintro (⟨h, _⟩ | ⟨_, h, h'⟩ | ⟨h, _⟩)
      · omega
      · exact ⟨h.symm, h'⟩
      · omega
  · subst h1
    subst h2
    constructor
    · intro h
      left
      refine ⟨rfl, ?_⟩
      have : r * c' = r' * c' := by omega
      exact Int.eq_of_mul_eq_mul_right (by omega) this
    · rintro (⟨_, h⟩ | ⟨_, h, _⟩ | ⟨_, h, _⟩)
      · rw [h]
      · omega
      · omega

theorem default_sizes : Sizes (28 / 1000000) (-(31 / 100), 31 / 100) (-(31 / 100), 31 / 100) := by
  constructor <;> norm_num

theorem default_width : stepIndex (28 / 1000000) (-(31 / 100)) (31 / 100) = 22142 := by
  rw [stepIndex, Int.floor_eq_iff]; norm_num

/-- With the default settings, ids identify 28 microradian cells everywhere in the field of view
that `subset_flashes` allows, and they fit in 31 bits. -/
theorem C16_field_of_view {x y x' y' : Rat} (hx : Within (-(1349 / 10000), 1349 / 10000) x)
    (hy : Within (-(1349 / 10000), 1349 / 10000) y)
    (hx' : Within (-(1349 / 10000), 1349 / 10000) x')
    (hy' : Within (-(1349 / 10000), 1349 / 10000) y') :
    (defaultLoc x y = defaultLoc x' y' ↔
      stepIndex (28 / 1000000) (-(31 / 100)) x = stepIndex (28 / 1000000) (-(31 / 100)) x' ∧
      stepIndex (28 / 1000000) (-(31 / 100)) y = stepIndex (28 / 1000000) (-(31 / 100)) y') ∧
    0 ≤ defaultLoc x y ∧ defaultLoc x y < 2 ^ 31 := by
  have w : ∀ v, Within (-(1349 / 10000), 1349 / 10000) v → Within (-(31 / 100), 31 / 100) v := by
    rintro v ⟨h1, h2⟩
    constructor
    · exact le_trans (by norm_num) h1
    · exact h2.trans (by norm_num)
  have s : ∀ v, Within (-(1349 / 10000), 1349 / 10000) v →
      stepIndex (28 / 1000000) (-(31 / 100)) v < 15890 := by
    rintro v ⟨_, h2⟩
    rw [stepIndex, Int.floor_lt, div_lt_iff₀ (by norm_num)]
    dsimp only at h2
    push_cast
    linarith
  have hb := discretize_closed default_sizes (w x hx) (w y hy)
  refine ⟨?_, ?_, ?_⟩
  · have := C16_unique_partial default_sizes (w x hx) (w y hy) (w x' hx') (w y' hy')
      (by rw [default_width]; linarith [s x hx]) (by rw [default_width]; linarith [s x' hx'])
    rw [← this]
    unfold defaultLoc
    exact_mod_cast Iff.rfl
  · unfold defaultLoc; positivity
  · unfold defaultLoc
    rw [hb.1]
    dsimp only
    rw [default_width]
    have := s x hx
    have := s y hy
    omega

theorem C16_full_false : ¬ C16_full := by
  intro hf
  have hs := default_sizes
  have h := hf _ _ _ (31 / 100) (-(31 / 100)) (-(31 / 100)) (-(31 / 100) + 28 / 1000000) hs
    ⟨by norm_num, by norm_num⟩ ⟨by norm_num, by norm_num⟩ ⟨by norm_num, by norm_num⟩
    ⟨by norm_num, by norm_num⟩
  have h0 : stepIndex (28 / 1000000) (-(31 / 100)) (-(31 / 100)) = 0 := by
    rw [stepIndex, Int.floor_eq_iff]; norm_num
  have h1 : stepIndex (28 / 1000000) (-(31 / 100)) (-(31 / 100) + 28 / 1000000) = 1 := by
    rw [stepIndex, Int.floor_eq_iff]; norm_num
  have hc := (C16_collisions hs (by dsimp only; rw [default_width]; norm_num)
    (x := 31 / 100) (y := -(31 / 100)) (x' := -(31 / 100)) (y' := -(31 / 100) + 28 / 1000000)
    ⟨by norm_num, by norm_num⟩ ⟨by norm_num, by norm_num⟩ ⟨by norm_num, by norm_num⟩
    ⟨by norm_num, by norm_num⟩).mpr (Or.inr (Or.inl ⟨rfl, h0, by dsimp only; rw [h0, h1]; rfl⟩))
  have := (h.mp hc).1
  dsimp only at this
  rw [default_width, h0] at this
  norm_num at this

/-- Two points one cell apart, in view: different ids. -/
example : defaultLoc 0 0 ≠ defaultLoc (28 / 1000000) 0 := by
  decide +kernel

/-! ## C17 -/

theorem mem_of_forall₂_right {β γ : Type} {R : β → γ → Prop} {l : List β} {m : List γ}
    (h : List.Forall₂ R l m) {y : γ} (hy : y ∈ m) : ∃ x ∈ l, R x y := by
  induction h with
  | nil => simp at hy
  | @cons a b _ _ hab _ ih =>
    rcases List.mem_cons.mp hy with rfl | hy
    · exact ⟨a, by simp, hab⟩
    · obtain ⟨x, hx, hr⟩ := ih hy
      exact ⟨x, by simp [hx], hr⟩

/-- Whenever a table is built, its ids increase, every event is in exactly one row, every row
describes exactly the events at its location, and energy and number of events are conserved. -/
theorem C17_conservation {t : Int} {loc : Rat → Rat → Int} {d : GFile} {rows : List LutRow}
    (h : getLutevents t loc d = .ok rows) :
    (rows.map LutRow.id).Pairwise (· < ·) ∧
    (∀ e ∈ d.events, ∃! r, r ∈ rows ∧ r.id = loc e.val.x e.val.y) ∧
    (∀ r ∈ rows, r.time = t ∧ EventStats loc d r) ∧
    (rows.map LutRow.energy).sum = (d.events.map fun e => e.val.energy).sum ∧
    (rows.map LutRow.count).sum = d.events.length := by
  have hids := lut_ids h
  have hst : ∀ r ∈ rows, r.time = t ∧ EventStats loc d r := by
    intro r hr
    obtain ⟨k, _, _, h2, h3⟩ := mem_of_forall₂_right (lut_rows h) hr
    exact ⟨h2, h3⟩
  have hsort : (rows.map LutRow.id).Pairwise (· < ·) := by
    rw [hids]; exact npUnique_sorted _
  have hnd : (rows.map LutRow.id).Nodup := by
    rw [hids]; exact npUnique_nodup _
  have hsum : ∀ (q : LutRow → Rat) (p : Row GVal → Rat),
      (∀ r ∈ rows, q r = ((eventsAt loc d r.id).map p).sum) →
      (rows.map q).sum = (d.events.map p).sum := by
    intro q p hq
    have h1 : rows.map q = (rows.map LutRow.id).map fun k => ((eventsAt loc d k).map p).sum := by
      rw [List.map_map]
      exact List.map_congr_left hq
    rw [h1, hids]
    apply sum_blocks d.events (fun e => loc e.val.x e.val.y) p (npUnique_nodup _)
    intro e he
    rw [mem_npUnique]
    exact List.mem_map.mpr ⟨e, he, rfl⟩
  refine ⟨hsort, ?_, hst, ?_, ?_⟩
  · intro e he
    have : loc e.val.x e.val.y ∈ rows.map LutRow.id := by
      rw [hids, mem_npUnique]
      exact List.mem_map.mpr ⟨e, he, rfl⟩
    obtain ⟨r, hr, hr2⟩ := List.mem_map.mp this
    refine ⟨r, ⟨hr, hr2⟩, ?_⟩
    rintro r' ⟨hr', hr2'⟩
    exact List.inj_on_of_nodup_map hnd hr' hr (by rw [hr2, hr2'])
  · exact hsum _ _ fun r hr => (hst r hr).2.energy
  · have := hsum (fun r => (r.count : Rat)) (fun _ => 1) (by
      intro r hr
      rw [(hst r hr).2.count]
      simp)
    simp only [List.map_const', List.sum_replicate, nsmul_eq_mul, mul_one] at this
    have h2 : ((rows.map LutRow.count).sum : Rat) = (rows.map fun r => (r.count : Rat)).sum := by
      rw [Nat.cast_list_sum, List.map_map]; rfl
    rw [← h2] at this
    exact_mod_cast this

/-! ## C18 -/

/-- On a consistent dataset the table can be built and the flash and group statistics count each
parent once. -/
theorem C18_parent_statistics (t : Int) (loc : Rat → Rat → Int) {d : GFile} (h : HasData d)
    (hc : Consistent d) (hd : Derived d) (huf : UniqueIds d.flashes) (hug : UniqueIds d.groups) :
    ∃ rows, getLutevents t loc d = .ok rows ∧ ∀ r ∈ rows, ParentStats loc d r :=
  lut_ok t loc h ⟨hc.groupHasFlash, hd.flashOf⟩ huf hug

/-- Without data there is no table: ValueError. -/
theorem C18_no_data (t : Int) (loc : Rat → Rat → Int) {d : GFile} (h : ¬ HasData d) :
    getLutevents t loc d = .error .valueError := by
  rw [getLutevents, if_pos]
  unfold HasData at h
  tauto

theorem mapM_error_of {α β : Type} {g : α → Except Err β} {e : Err} :
    ∀ l : List α, (∀ a ∈ l, (∃ b, g a = .ok b) ∨ g a = .error e) → (∃ a ∈ l, g a = .error e) →
      l.mapM g = .error e := by
  intro l
  induction l with
  | nil => rintro _ ⟨a, ha, -⟩; simp at ha
  | cons a l ih =>
    rintro h ⟨b, hb, hbe⟩
    rw [List.mapM_cons]
    rcases h a (by simp) with ⟨v, hv⟩ | hv
    · rcases List.mem_cons.mp hb with rfl | hb
      · rw [hv] at hbe; cases hbe
      · simp only [hv, ih (fun a ha => h a (by simp [ha])) ⟨b, hb, hbe⟩, bind, Except.bind]
    · simp only [hv, bind, Except.bind]

/-- One row of the table: it can be made if every event at the place has its flash and group in the
dataset, and is a KeyError otherwise. -/
theorem lutRow_cases (t : Int) {loc : Rat → Rat → Int} {d : GFile} {k : Int}
    (hk : k ∈ d.events.map fun e => loc e.val.x e.val.y) :
    ((∀ e ∈ eventsAt loc d k, e.val.flashOf ∈ d.flashes.map Row.id ∧ e.pid ∈ d.groups.map Row.id) →
      ∃ r, lutRow t (groups (d.flashes.map Row.id)) (groups (d.groups.map Row.id)) d k
        (positions (d.events.map fun e => loc e.val.x e.val.y) k) = .ok r) ∧
    (¬ (∀ e ∈ eventsAt loc d k, e.val.flashOf ∈ d.flashes.map Row.id ∧ e.pid ∈ d.groups.map Row.id) →
      lutRow t (groups (d.flashes.map Row.id)) (groups (d.groups.map Row.id)) d k
        (positions (d.events.map fun e => loc e.val.x e.val.y) k) = .error .keyError) := by
  set fids := npUnique ((eventsAt loc d k).map fun e => e.val.flashOf) with hfids
  set gids := npUnique ((eventsAt loc d k).map Row.pid) with hgids
  have hF : (∀ e ∈ eventsAt loc d k, e.val.flashOf ∈ d.flashes.map Row.id) ↔
      ∀ i ∈ fids, i ∈ d.flashes.map Row.id := by
    simp only [hfids, mem_npUnique, List.forall_mem_map]
  have hG : (∀ e ∈ eventsAt loc d k, e.pid ∈ d.groups.map Row.id) ↔
      ∀ i ∈ gids, i ∈ d.groups.map Row.id := by
    simp only [hgids, mem_npUnique, List.forall_mem_map]
  constructor
  · intro h
    have hf' := hF.mp fun e he => (h e he).1
    have hg' := hG.mp fun e he => (h e he).2
    have hfne : fids ≠ [] := by
      obtain ⟨e, he, hek⟩ := List.mem_map.mp hk
      rw [hfids, Ne, npUnique_eq_nil, List.map_eq_nil_iff]
      exact List.ne_nil_of_mem (mem_eventsAt.mpr ⟨he, hek⟩)
    obtain ⟨ms, hms, hms2⟩ := mapM_ok_of_forall
      (f := fun idx => listMin ((take d.flashes idx).map fun f => f.val.area))
      (P := fun _ _ => True)
      (l := fids.map (positions (d.flashes.map Row.id))) (by
        intro idx hidx
        obtain ⟨i, hi, rfl⟩ := List.mem_map.mp hidx
        rw [take_positions]
        obtain ⟨f, hf1, hf2⟩ := List.mem_map.mp (hf' i hi)
        obtain ⟨m, hm, -⟩ := listMin_spec (l := ((d.flashes.filter fun r => r.id = i).map fun f => f.val.area)) (by
          simp only [ne_eq, List.map_eq_nil_iff]
          exact List.ne_nil_of_mem (List.mem_filter.mpr ⟨hf1, by simpa using hf2⟩))
        exact ⟨m, hm, trivial⟩)
    have hlen := hms2.length_eq
    obtain ⟨m, hm, -⟩ := listMin_spec (l := ms) (by
      intro h0; rw [h0, List.length_map] at hlen; exact hfne (List.length_eq_zero_iff.mp hlen))
    simp only [lutRow, take_eventsAt, ← hfids, ← hgids, groupsOf_ok hf', groupsOf_ok hg', hms, hm,
      bind, Except.bind, pure, Except.pure]
    exact ⟨_, rfl⟩
  · intro h
    by_cases hf : ∀ i ∈ fids, i ∈ d.flashes.map Row.id
    · have hg : ¬ ∀ i ∈ gids, i ∈ d.groups.map Row.id := fun hg =>
        h fun e he => ⟨hF.mpr hf e he, hG.mpr hg e he⟩
      simp only [lutRow, take_eventsAt, ← hfids, ← hgids, groupsOf_ok hf, groupsOf_error hg,
        bind, Except.bind]
    · simp only [lutRow, take_eventsAt, ← hfids, groupsOf_error hf, bind, Except.bind]

/-- When the table can be built, for every dataset that is not empty: if every event names a flash and
a group of the dataset.  Otherwise there is a KeyError. -/
theorem C18_missing_parent (t : Int) (loc : Rat → Rat → Int) {d : GFile} (h : HasData d) :
    ((∀ e ∈ d.events, (∃ f ∈ d.flashes, f.id = e.val.flashOf) ∧ ∃ g ∈ d.groups, g.id = e.pid) →
      ∃ rows, getLutevents t loc d = .ok rows) ∧
    ((∃ e ∈ d.events, (∀ f ∈ d.flashes, f.id ≠ e.val.flashOf) ∨ ∀ g ∈ d.groups, g.id ≠ e.pid) →
      getLutevents t loc d = .error .keyError) := by
  have hn : ¬ (d.events = [] ∨ d.flashes = [] ∨ d.groups = []) := by
    unfold HasData at h; tauto
  have hkey : ∀ kv ∈ groups (d.events.map fun e => loc e.val.x e.val.y),
      kv.1 ∈ (d.events.map fun e => loc e.val.x e.val.y) ∧
      kv.2 = positions (d.events.map fun e => loc e.val.x e.val.y) kv.1 := by
    intro kv hkv
    unfold groups at hkv
    obtain ⟨k, hk, rfl⟩ := List.mem_map.mp hkv
    exact ⟨mem_npUnique.mp hk, rfl⟩
  constructor
  · intro hall
    obtain ⟨rows, h1, -⟩ := mapM_ok_of_forall
      (f := fun (kv : Int × List Nat) => lutRow t (groups (d.flashes.map Row.id))
        (groups (d.groups.map Row.id)) d kv.1 kv.2) (P := fun _ _ => True)
      (l := groups (d.events.map fun e => loc e.val.x e.val.y)) (by
        intro kv hkv
        obtain ⟨hk1, hk2⟩ := hkey kv hkv
        obtain ⟨r, hr⟩ := (lutRow_cases t hk1).1 fun e he => by
          obtain ⟨hf, hg⟩ := hall e (mem_eventsAt.mp he).1
          exact ⟨List.mem_map.mpr hf, List.mem_map.mpr hg⟩
        exact ⟨r, by rw [hk2]; exact hr, trivial⟩)
    exact ⟨rows, by rw [getLutevents, if_neg hn]; exact h1⟩
  · rintro ⟨e, he, hmiss⟩
    rw [getLutevents, if_neg hn]
    apply mapM_error_of
    · intro kv hkv
      obtain ⟨hk1, hk2⟩ := hkey kv hkv
      rw [hk2]
      by_cases hc : ∀ e ∈ eventsAt loc d kv.1, e.val.flashOf ∈ d.flashes.map Row.id ∧
          e.pid ∈ d.groups.map Row.id
      · exact Or.inl ((lutRow_cases t hk1).1 hc)
      · exact Or.inr ((lutRow_cases t hk1).2 hc)
    · have hk1 : loc e.val.x e.val.y ∈ d.events.map fun e => loc e.val.x e.val.y :=
        List.mem_map.mpr ⟨e, he, rfl⟩
      refine ⟨(loc e.val.x e.val.y, positions (d.events.map fun e => loc e.val.x e.val.y)
        (loc e.val.x e.val.y)), ?_, ?_⟩
      · unfold groups
        exact List.mem_map.mpr ⟨_, mem_npUnique.mpr hk1, rfl⟩
      · apply (lutRow_cases t hk1).2
        intro hall
        obtain ⟨h1, h2⟩ := hall e (mem_eventsAt.mpr ⟨he, rfl⟩)
        obtain ⟨f, hf, hf2⟩ := List.mem_map.mp h1
        obtain ⟨g, hg, hg2⟩ := List.mem_map.mp h2
        rcases hmiss with hm | hm
        · exact hm f hf hf2
        · exact hm g hg hg2

/-- The sample without one of its groups: both parts apply. -/
example : getLutevents 7 defaultLoc { openSample with groups := openSample.groups.drop 1 } =
    .error .keyError :=
  (C18_missing_parent 7 defaultLoc (by unfold HasData; decide +kernel)).2 (by decide +kernel)

theorem openSample_hyps : HasData openSample ∧ Consistent openSample ∧ Derived openSample ∧
    UniqueIds openSample.flashes ∧ UniqueIds openSample.groups := by
  refine ⟨openSample_derived.1, ?_, openSample_derived.2⟩
  decide +kernel

/-- The sample: events 100 and 101 of flash 5 share a location. -/
example : ((getLutevents 7 defaultLoc openSample).map fun rows => rows.map fun r =>
    (r.energy, r.count, r.flashCount, r.groupCount)).toOption =
    some [(4, 1, 1, 1), (5, 2, 1, 2), (5, 1, 1, 1)] := by
  decide +kernel

example : ((getLutevents 7 defaultLoc openSample).map fun rows => rows.map fun r =>
    (r.totalFlashArea, r.minFlashArea)).toOption = some [(60, 60), (100, 100), (60, 60)] := by
  decide +kernel

/-! ## C20, C21: `read_flashes` -/

/-- None of the six criteria is given. -/
def NoCriteria (c : Criteria) : Prop :=
  c.lon = none ∧ c.lat = none ∧ c.x = none ∧ c.y = none ∧ c.minEvents = none ∧ c.minGroups = none

theorem anyCriterion_iff (c : Criteria) : anyCriterion c = true ↔ ¬ NoCriteria c := by
  rcases c with ⟨_ | _, _ | _, _ | _, _ | _, _ | _, _ | _⟩ <;> simp [anyCriterion, NoCriteria]

open scoped Classical in
/-- The flashes a caller of `read_flashes` asks for: all, if there are no criteria; else those that
meet every criterion and have an event in view. -/
noncomputable def askedFor (d : GFile) (c : Criteria) : List (Row GVal) :=
  if NoCriteria c then d.flashes
  else d.flashes.filter fun f => Meets c f ∧ ∃ e ∈ d.events, EventOfFlash d f.id e ∧ InView c e

/-- The chunks for a list of selected ids. -/
theorem chunks_of_ids {d : GFile} (h : HasData d) (cs : List (List Int)) :
    cs.mapM (getFlashes d) = .ok (cs.map (keptFlashes d)) := by
  induction cs with
  | nil => rfl
  | cons a l ih =>
    simp [List.mapM_cons, getFlashes_ok h, ih, bind, Except.bind, pure, Except.pure]

/-- `read_flashes` in terms of the selected ids. -/
theorem readFlashes_ids {d : GFile} {order : List Int → List Int} (ho : ∀ l, (order l).Perm l)
    (c : Criteria) {n : Nat} (h : HasData d) (hd : Derived d)
    (huf : UniqueIds d.flashes) (hug : UniqueIds d.groups) :
    ∃ ids, ids.Nodup ∧ (∀ i ∈ ids, ∃ f ∈ d.flashes, f.id = i) ∧
      ids.Perm ((askedFor d c).map Row.id) ∧ (NoCriteria c → ids = d.flashes.map Row.id) ∧
      readFlashesChunks order d c n = .ok (if ids = [] then [] else
        (arraySplit ids (max (ids.length / n) 1)).map (keptFlashes d)) ∧
      (¬ NoCriteria c → subsetFlashes order d c true = .ok (keptFlashes d ids)) := by
  by_cases hc : NoCriteria c
  · have ha : anyCriterion c = false := by
      have := (anyCriterion_iff c).not
      simp only [not_not, Bool.not_eq_true] at this
      exact this.mpr hc
    refine ⟨d.flashes.map Row.id, huf, fun i hi => List.mem_map.mp hi, ?_, fun _ => rfl, ?_,
      fun hn => absurd hc hn⟩
    · rw [askedFor, if_pos hc]
    · simp only [readFlashesChunks, ha, Bool.false_eq_true, if_false, bind, Except.bind, pure,
        Except.pure]
      by_cases hf : d.flashes = []
      · simp [hf]
      · rw [if_pos (List.length_pos_iff.mpr hf), chunks_of_ids h, if_neg (by simpa using hf)]
  · have ha : anyCriterion c = true := (anyCriterion_iff c).mpr hc
    obtain ⟨d', h1, h2, -, -⟩ := C13_subset_flashes ho c h hd huf hug
    set ids := order ((npUnique ((d.flashes.filter (flashMask c)).map Row.id)).filter
      (· ∈ checkEventXY d (c.x.getD (-fovLimit, fovLimit)) (c.y.getD (-fovLimit, fovLimit))))
      with hids
    have hn : ids.Nodup := (ho _).nodup_iff.mpr ((npUnique_nodup _).filter _)
    have hs : ∀ i ∈ ids, ∃ f ∈ d.flashes, f.id = i := by
      intro i hi
      rw [hids, perm_mem_order ho, List.mem_filter, mem_npUnique, List.mem_map] at hi
      obtain ⟨⟨f, hf, hfi⟩, -⟩ := hi
      exact ⟨f, (List.mem_filter.mp hf).1, hfi⟩
    have hk : subsetFlashes order d c true = .ok (keptFlashes d ids) := by
      simp only [subsetFlashes, if_true, bind, Except.bind, pure, Except.pure]
      rw [← hids]
      exact getFlashes_ok h _
    have hd' : d' = keptFlashes d ids := by
      rw [h1] at hk; injection hk
    have hfl : (keptFlashes d ids).flashes.map Row.id = ids := rowsInOrder_ids huf hs
    refine ⟨ids, hn, hs, ?_, fun hc' => absurd hc' hc, ?_, fun _ => hk⟩
    · rw [askedFor, if_neg hc, ← hfl, ← hd']
      exact h2.map _
    · have hlen : (keptFlashes d ids).flashes.length = ids.length := by
        have := congrArg List.length hfl
        rw [List.length_map] at this
        exact this
      simp only [readFlashesChunks, ha, if_true, bind, Except.bind, pure, Except.pure, hk, hfl, hlen]
      by_cases hf : ids = []
      · simp [hf]
      · rw [if_pos (List.length_pos_iff.mpr hf), chunks_of_ids h, if_neg hf]

theorem flatMap_ids {d : GFile} (huf : UniqueIds d.flashes) (cs : List (List Int))
    (hs : ∀ i ∈ cs.flatten, ∃ f ∈ d.flashes, f.id = i) :
    ∀ c ∈ cs, ((keptFlashes d c).flashes.map Row.id) = c := by
  intro c hc
  exact rowsInOrder_ids huf fun i hi => hs i (List.mem_flatten.mpr ⟨c, hc, hi⟩)

/-- Every flash asked for is in exactly one chunk; no chunk is empty; chunk sizes differ by at most
one and stay below twice the chunk size. -/
theorem C20_chunks {d : GFile} {order : List Int → List Int} (ho : ∀ l, (order l).Perm l)
    (c : Criteria) {n : Nat} (hn : 0 < n) (h : HasData d) (hd : Derived d)
    (huf : UniqueIds d.flashes) (hug : UniqueIds d.groups) :
    ∃ chunks, readFlashesChunks order d c n = .ok chunks ∧
      (chunks.flatMap fun ch => ch.flashes).Perm (askedFor d c) ∧
      (∀ ch ∈ chunks, 0 < ch.flashes.length ∧ ch.flashes.length < 2 * n) ∧
      (∀ ch ∈ chunks, ∀ ch' ∈ chunks, ch.flashes.length ≤ ch'.flashes.length + 1) ∧
      (chunks ≠ [] → chunks.length = max ((askedFor d c).length / n) 1) := by
  obtain ⟨ids, hnd, hs, hp, -, hr, -⟩ := readFlashes_ids ho c (n := n) h hd huf hug
  have hlen : ids.length = (askedFor d c).length := by rw [hp.length_eq, List.length_map]
  have hask : UniqueIds (askedFor d c) ∧ ∀ f ∈ askedFor d c, f ∈ d.flashes := by
    unfold askedFor
    split
    · exact ⟨huf, fun f hf => hf⟩
    · exact ⟨huf.sublist (List.Sublist.map _ List.filter_sublist),
        fun f hf => (List.mem_filter.mp hf).1⟩
  refine ⟨_, hr, ?_⟩
  by_cases he : ids = []
  · simp only [he, if_true]
    have : askedFor d c = [] := by
      rw [he] at hlen
      exact List.length_eq_zero_iff.mp hlen.symm
    simp [this]
  · simp only [he, if_false]
    set k := max (ids.length / n) 1 with hk
    have hk0 : 0 < k := by omega
    have hfl := arraySplit_flatten ids hk0
    have hid := flatMap_ids huf (arraySplit ids k) (by rw [hfl]; exact hs)
    have hsz : ∀ ch ∈ (arraySplit ids k).map (keptFlashes d),
        ch.flashes.length = ids.length / k ∨
        (ch.flashes.length = ids.length / k + 1 ∧ ids.length % k ≠ 0) := by
      intro ch hch
      obtain ⟨cc, hcc, rfl⟩ := List.mem_map.mp hch
      have h1 := congrArg List.length (hid cc hcc)
      rw [List.length_map] at h1
      rw [h1]
      exact arraySplit_sizes ids hk0 hcc
    refine ⟨?_, ?_, ?_, ?_⟩
    · -- concatenation of the chunks
      have h1 : (((arraySplit ids k).map (keptFlashes d)).flatMap fun ch => ch.flashes) =
          rowsInOrder ids d.flashes := by
        have : rowsInOrder ids d.flashes = rowsInOrder (arraySplit ids k).flatten d.flashes := by
          rw [hfl]
        rw [this]
        generalize arraySplit ids k = cs
        induction cs with
        | nil => rfl
        | cons a l ih =>
          rw [List.map_cons, List.flatMap_cons, ih, List.flatten_cons]
          simp only [rowsInOrder, List.flatMap_append]
          rfl
      rw [h1]
      rw [List.perm_ext_iff_of_nodup (rowsInOrder_unique hnd huf).of_map hask.1.of_map]
      intro f
      rw [mem_rowsInOrder]
      constructor
      · rintro ⟨hf, hi⟩
        rw [hp.mem_iff] at hi
        obtain ⟨f', hf', hi'⟩ := List.mem_map.mp hi
        have : f' = f := List.inj_on_of_nodup_map huf (hask.2 f' hf') hf hi'
        rw [← this]; exact hf'
      · intro hf
        exact ⟨hask.2 f hf, by rw [hp.mem_iff]; exact List.mem_map.mpr ⟨f, hf, rfl⟩⟩
    · intro ch hch
      exact chunk_bound hn (List.length_pos_iff.mpr he) (hsz ch hch)
    · intro ch hch ch' hch'
      have h1 := hsz ch hch
      have h2 := hsz ch' hch'
      omega
    · intro _
      rw [List.length_map, arraySplit_length ids hk0, hk, hlen]

theorem filter_own_id {rows : List (Row GVal)} (hu : UniqueIds rows) {r : Row GVal} (hr : r ∈ rows) :
    (rows.filter fun q => q.id = r.id) = [r] := by
  induction rows with
  | nil => simp at hr
  | cons a l ih =>
    have hu' := List.nodup_cons.mp (show (a.id :: l.map Row.id).Nodup from hu)
    rcases List.mem_cons.mp hr with rfl | hr
    · have : (l.filter fun q => q.id = r.id) = [] := by
        rw [List.filter_eq_nil_iff]
        intro q hq
        simp only [decide_eq_true_eq]
        intro he
        exact hu'.1 (he ▸ List.mem_map.mpr ⟨q, hq, rfl⟩)
      simp [this]
    · have hne : a.id ≠ r.id := fun he => hu'.1 (he ▸ List.mem_map.mpr ⟨r, hr, rfl⟩)
      rw [List.filter_cons, if_neg (by simpa using hne), ih hu'.2 hr]

theorem rowsInOrder_all {rows : List (Row GVal)} (hu : UniqueIds rows) :
    rowsInOrder (rows.map Row.id) rows = rows := by
  unfold rowsInOrder
  rw [List.flatMap_map, List.flatMap_def,
    List.map_congr_left (fun r hr => filter_own_id hu hr), ← List.flatMap_def]
  simp

/-- The chunks hold the flashes of the selection, in its order: what `subset_flashes` returns for the
criteria, or everything if there are none. -/
theorem C20_selection_order {d : GFile} {order : List Int → List Int} (ho : ∀ l, (order l).Perm l)
    {n : Nat} (h : HasData d) (hd : Derived d)
    (huf : UniqueIds d.flashes) (hug : UniqueIds d.groups) (c : Criteria) :
    ∃ chunks selection, readFlashesChunks order d c n = .ok chunks ∧
      (NoCriteria c ∧ selection = d ∨ ¬ NoCriteria c ∧ subsetFlashes order d c true = .ok selection) ∧
      (chunks.flatMap fun ch => ch.flashes) = selection.flashes := by
  obtain ⟨ids, hnd, hs, hp, hall, hr, hsub⟩ := readFlashes_ids ho c (n := n) h hd huf hug
  have hflat : ((if ids = [] then [] else (arraySplit ids (max (ids.length / n) 1)).map
      (keptFlashes d)).flatMap fun ch => ch.flashes) = rowsInOrder ids d.flashes := by
    split
    · rename_i he; rw [he]; rfl
    · have hfl := arraySplit_flatten ids (n := max (ids.length / n) 1) (by omega : 0 < max (ids.length / n) 1)
      conv_rhs => rw [← hfl]
      generalize arraySplit ids (max (ids.length / n) 1) = cs
      induction cs with
      | nil => rfl
      | cons a l ih =>
        rw [List.map_cons, List.flatMap_cons, ih, List.flatten_cons]
        simp only [rowsInOrder, List.flatMap_append]
        rfl
  by_cases hc : NoCriteria c
  · refine ⟨_, d, hr, Or.inl ⟨hc, rfl⟩, ?_⟩
    rw [hflat, hall hc]
    exact rowsInOrder_all huf
  · refine ⟨_, keptFlashes d ids, hr, Or.inr ⟨hc, hsub hc⟩, ?_⟩
    rw [hflat]
    rfl

/-- With no criteria, the chunks hold all flashes in file order. -/
theorem C20_order {d : GFile} {order : List Int → List Int} (ho : ∀ l, (order l).Perm l)
    {n : Nat} (h : HasData d) (hd : Derived d)
    (huf : UniqueIds d.flashes) (hug : UniqueIds d.groups) {c : Criteria} (hc : NoCriteria c)
    {chunks : List GFile} (hr : readFlashesChunks order d c n = .ok chunks) :
    (chunks.flatMap fun ch => ch.flashes.map Row.id) = d.flashes.map Row.id := by
  obtain ⟨ids, hnd, hs, hp, hall, hr', -⟩ := readFlashes_ids ho c (n := n) h hd huf hug
  rw [hr] at hr'
  injection hr' with hr'
  subst hr'
  rw [← hall hc]
  split
  · rename_i he; simp [he]
  · have hk0 : 0 < max (ids.length / n) 1 := by omega
    have hfl := arraySplit_flatten ids hk0
    have hid := flatMap_ids huf (arraySplit ids (max (ids.length / n) 1)) (by rw [hfl]; exact hs)
    rw [List.flatMap_map, List.flatMap_def]
    rw [List.map_congr_left hid, List.map_id', hfl]

open scoped Classical in
/-- The chunks hold exactly the flashes asked for with exactly their groups and their events.  With
no criteria nothing is filtered; otherwise every criterion given is applied. -/
theorem C21_filter_iff_asked {d : GFile} {order : List Int → List Int} (ho : ∀ l, (order l).Perm l)
    (c : Criteria) {n : Nat} (hn : 0 < n) (h : HasData d) (hc : Consistent d) (hd : Derived d)
    (huf : UniqueIds d.flashes) (hug : UniqueIds d.groups) :
    ∃ chunks, readFlashesChunks order d c n = .ok chunks ∧
      (NoCriteria c → (chunks.flatMap fun ch => ch.flashes).Perm d.flashes ∧
        (chunks.flatMap fun ch => ch.groups).Perm d.groups ∧
        (chunks.flatMap fun ch => ch.events).Perm d.events) ∧
      (¬ NoCriteria c → ∀ f, (f ∈ chunks.flatMap fun ch => ch.flashes) ↔
        f ∈ d.flashes ∧ Meets c f ∧ ∃ e ∈ d.events, EventOfFlash d f.id e ∧ InView c e) ∧
      (∀ ch ∈ chunks, Consistent ch ∧
        ch.groups.Perm (d.groups.filter fun g => ∃ f ∈ ch.flashes, f.id = g.pid) ∧
        ch.events.Perm (d.events.filter fun e => ∃ f ∈ ch.flashes, EventOfFlash d f.id e)) := by
  obtain ⟨chunks, hr, hperm, -⟩ := C20_chunks ho c hn h hd huf hug
  obtain ⟨ids, hnd, hs, hp, hall, hr', -⟩ := readFlashes_ids ho c (n := n) h hd huf hug
  have hch : chunks = if ids = [] then [] else
        (arraySplit ids (max (ids.length / n) 1)).map (keptFlashes d) := by
    rw [hr] at hr'; injection hr'
  have hroot : Rooted d := ⟨hc.groupHasFlash, hd.flashOf⟩
  have hk0 : 0 < max (ids.length / n) 1 := by omega
  have hfl := arraySplit_flatten ids hk0
  have hnds : ∀ cc ∈ arraySplit ids (max (ids.length / n) 1), cc.Nodup := by
    intro cc hcc
    have := hnd
    rw [← hfl, List.nodup_flatten] at this
    exact this.1 cc hcc
  refine ⟨chunks, hr, ?_, ?_, ?_⟩
  · intro hno
    have hids := hall hno
    have hne : ids ≠ [] := by
      rw [hids]; simpa using h.1
    rw [if_neg hne] at hch
    refine ⟨?_, ?_, ?_⟩
    · rw [askedFor, if_pos hno] at hperm; exact hperm
    · have h1 : (chunks.flatMap fun ch => ch.groups) = childrenInOrder ids d.groups := by
        have : childrenInOrder ids d.groups = childrenInOrder
          (arraySplit ids (max (ids.length / n) 1)).flatten d.groups := by rw [hfl]
        rw [this, hch]
        generalize arraySplit ids (max (ids.length / n) 1) = cs
        induction cs with
        | nil => rfl
        | cons a l ih =>
          rw [List.map_cons, List.flatMap_cons, ih, List.flatten_cons]
          simp only [childrenInOrder, List.flatMap_append]
          rfl
      rw [h1]
      refine (childrenInOrder_perm hnd _).trans (List.Perm.of_eq ?_)
      rw [List.filter_eq_self]
      intro g hg
      simp only [decide_eq_true_eq, hids]
      exact List.mem_map.mpr (hc.groupHasFlash g hg)
    · have h1 : (chunks.flatMap fun ch => ch.events) = childrenInOrder
          ((childrenInOrder ids d.groups).map Row.id) d.events := by
        have : childrenInOrder ids d.groups = childrenInOrder
          (arraySplit ids (max (ids.length / n) 1)).flatten d.groups := by rw [hfl]
        rw [this, hch]
        generalize arraySplit ids (max (ids.length / n) 1) = cs
        induction cs with
        | nil => rfl
        | cons a l ih =>
          rw [List.map_cons, List.flatMap_cons, ih, List.flatten_cons]
          simp only [childrenInOrder, List.flatMap_append, List.map_append]
          rfl
      rw [h1]
      refine (childrenInOrder_perm (childrenInOrder_unique hnd hug) _).trans (List.Perm.of_eq ?_)
      rw [List.filter_eq_self]
      intro e he
      obtain ⟨g, hg, hg2⟩ := hc.eventHasGroup e he
      simp only [decide_eq_true_eq, List.mem_map]
      refine ⟨g, mem_childrenInOrder.mpr ⟨hg, ?_⟩, hg2⟩
      rw [hids]
      exact List.mem_map.mpr (hc.groupHasFlash g hg)
  · intro hno f
    rw [hperm.mem_iff, askedFor, if_neg hno]
    simp
  · intro ch hm
    have : ∃ cc ∈ arraySplit ids (max (ids.length / n) 1), ch = keptFlashes d cc := by
      rw [hch] at hm
      split at hm
      · simp at hm
      · obtain ⟨cc, h1, h2⟩ := List.mem_map.mp hm
        exact ⟨cc, h1, h2.symm⟩
    obtain ⟨cc, hcc, rfl⟩ := this
    have hcs : ∀ i ∈ cc, ∃ f ∈ d.flashes, f.id = i := fun i hi => hs i (by
      rw [← hfl]; exact List.mem_flatten.mpr ⟨cc, hcc, hi⟩)
    have hkept : ∀ i, i ∈ cc ↔ ∃ f ∈ (keptFlashes d cc).flashes, f.id = i := by
      intro i
      constructor
      · intro hi
        obtain ⟨f, hf, hf2⟩ := hcs i hi
        exact ⟨f, mem_rowsInOrder.mpr ⟨hf, by rw [hf2]; exact hi⟩, hf2⟩
      · rintro ⟨f, hf, rfl⟩
        exact (mem_rowsInOrder.mp hf).2
    refine ⟨kept_consistent hc cc, ?_, ?_⟩
    · refine (childrenInOrder_perm (hnds cc hcc) _).trans (List.Perm.of_eq ?_)
      apply List.filter_congr
      intro g _
      rw [decide_eq_decide]
      exact hkept g.pid
    · refine (kept_events_perm hroot hug (hnds cc hcc)).trans (List.Perm.of_eq ?_)
      apply List.filter_congr
      intro e he
      rw [decide_eq_decide, hkept]
      constructor
      · rintro ⟨f, hf, hf2⟩
        exact ⟨f, hf, by rw [hf2]; exact hd.flashOf e he⟩
      · rintro ⟨f, hf, hf2⟩
        exact ⟨f, hf, (eventOfFlash_unique hug hf2 (hd.flashOf e he))⟩

/-! ## C19 -/

/-- The additive statistics of a row; the position enters weighted by the number of events. -/
def additive : List (LutRow → Rat) :=
  [LutRow.energy, fun r => r.count, fun r => r.flashCount, fun r => r.groupCount,
   LutRow.totalFlashArea, LutRow.totalGroupArea, fun r => r.x * r.count, fun r => r.y * r.count]

/-- Every additive statistic is a sum over the events, flashes or groups at the location. -/
theorem totalAt_part {t : Int} {loc : Rat → Rat → Int} {d s : GFile} {ids : List Int}
    {rows : List LutRow} (h : getLutevents t loc s = .ok rows) {k : Int} (hp : ∀ k, PartAt loc d s ids k) :
    (∀ (q : LutRow → Rat) (p : Row GVal → Rat),
      (∀ r ∈ rows, q r = ((eventsAt loc s r.id).map p).sum) → totalAt q rows k =
      (((eventsAt loc d k).filter fun e => e.val.flashOf ∈ ids).map p).sum) ∧
    (∀ (q : LutRow → Rat) (p : Row GVal → Rat),
      (∀ r ∈ rows, q r = ((flashesAt loc s r.id).map p).sum) → totalAt q rows k =
      (((flashesAt loc d k).filter fun f => f.id ∈ ids).map p).sum) ∧
    (∀ (q : LutRow → Rat) (p : Row GVal → Rat),
      (∀ r ∈ rows, q r = ((groupsAt loc s r.id).map p).sum) → totalAt q rows k =
      (((groupsAt loc d k).filter fun g => g.pid ∈ ids).map p).sum) := by
  have hids := lut_ids h
  have hnd : (rows.map LutRow.id).Nodup := by rw [hids]; exact npUnique_nodup _
  have hempty : k ∉ rows.map LutRow.id → eventsAt loc s k = [] := by
    intro hk
    rw [hids, mem_npUnique, List.mem_map] at hk
    rw [eventsAt, List.filter_eq_nil_iff]
    intro e he hek
    exact hk ⟨e, he, by simpa using hek⟩
  refine ⟨?_, ?_, ?_⟩
  · intro q p hq
    rw [totalAt_eq hnd hq (F := fun k => ((eventsAt loc s k).map p).sum)
      (fun hk => by simp [hempty hk])]
    exact ((hp k).events.map _).sum_eq
  · intro q p hq
    rw [totalAt_eq hnd hq (F := fun k => ((flashesAt loc s k).map p).sum)
      (fun hk => by simp [flashesAt, hempty hk])]
    exact ((hp k).flashes.map _).sum_eq
  · intro q p hq
    rw [totalAt_eq hnd hq (F := fun k => ((groupsAt loc s k).map p).sum)
      (fun hk => by simp [groupsAt, hempty hk])]
    exact ((hp k).groups.map _).sum_eq

/-- Every additive statistic of a part of the flashes is a sum over rows of the whole. -/
theorem additive_sum (t : Int) (loc : Rat → Rat → Int) (d : GFile) (k : Int) {q : LutRow → Rat}
    (hq : q ∈ additive) :
    ∃ (l : List (Row GVal)) (key : Row GVal → Int) (p : Row GVal → Rat),
      ∀ (s : GFile) (ids : List Int) (rows : List LutRow), getLutevents t loc s = .ok rows →
        (∀ r ∈ rows, ParentStats loc s r) → (∀ k, PartAt loc d s ids k) →
        totalAt q rows k = ((l.filter fun x => key x ∈ ids).map p).sum := by
  have len : ∀ l : List (Row GVal), (l.length : Rat) = (l.map fun _ => (1 : Rat)).sum := by
    intro l; simp
  simp only [additive, List.mem_cons, List.not_mem_nil, or_false] at hq
  rcases hq with rfl | rfl | rfl | rfl | rfl | rfl | rfl | rfl
  · refine ⟨eventsAt loc d k, fun e => e.val.flashOf, fun e => e.val.energy, ?_⟩
    intro s ids rows h hps hp
    exact (totalAt_part h hp).1 _ _ fun r hr => ((C17_conservation h).2.2.1 r hr).2.energy
  · refine ⟨eventsAt loc d k, fun e => e.val.flashOf, fun _ => 1, ?_⟩
    intro s ids rows h hps hp
    refine (totalAt_part h hp).1 _ _ fun r hr => ?_
    rw [((C17_conservation h).2.2.1 r hr).2.count, len]
  · refine ⟨flashesAt loc d k, Row.id, fun _ => 1, ?_⟩
    intro s ids rows h hps hp
    refine (totalAt_part h hp).2.1 _ _ fun r hr => ?_
    rw [(hps r hr).flashCount, len]
  · refine ⟨groupsAt loc d k, Row.pid, fun _ => 1, ?_⟩
    intro s ids rows h hps hp
    refine (totalAt_part h hp).2.2 _ _ fun r hr => ?_
    rw [(hps r hr).groupCount, len]
  · refine ⟨flashesAt loc d k, Row.id, fun f => f.val.area, ?_⟩
    intro s ids rows h hps hp
    exact (totalAt_part h hp).2.1 _ _ fun r hr => (hps r hr).totalFlashArea
  · refine ⟨groupsAt loc d k, Row.pid, fun f => f.val.area, ?_⟩
    intro s ids rows h hps hp
    exact (totalAt_part h hp).2.2 _ _ fun r hr => (hps r hr).totalGroupArea
  · refine ⟨eventsAt loc d k, fun e => e.val.flashOf, fun e => e.val.x, ?_⟩
    intro s ids rows h hps hp
    refine (totalAt_part h hp).1 _ _ fun r hr => ?_
    have := ((C17_conservation h).2.2.1 r hr).2
    rw [this.count, this.x]
  · refine ⟨eventsAt loc d k, fun e => e.val.flashOf, fun e => e.val.y, ?_⟩
    intro s ids rows h hps hp
    refine (totalAt_part h hp).1 _ _ fun r hr => ?_
    have := ((C17_conservation h).2.2.1 r hr).2
    rw [this.count, this.y]

/-- What `read_flashes` works on if it does not split: the file or the subset. -/
def selected (order : List Int → List Int) (d : GFile) (c : Criteria) : Except Err GFile :=
  if anyCriterion c then subsetFlashes order d c true else .ok d

/-- Whatever the chunk size, adding the tables of the chunks gives the table of all selected
flashes, and the smallest of the minimum areas is the minimum area. -/
theorem C19_chunk_independence {d : GFile} {order : List Int → List Int}
    (ho : ∀ l, (order l).Perm l) (c : Criteria) (n : Nat) (h : HasData d) (hc : Consistent d)
    (hd : Derived d) (huf : UniqueIds d.flashes) (hug : UniqueIds d.groups) (t : Int)
    (loc : Rat → Rat → Int) {whole : GFile} (hw : selected order d c = .ok whole)
    (hne : whole.flashes ≠ []) :
    ∃ chunks rows tables, readFlashesChunks order d c n = .ok chunks ∧
      getLutevents t loc whole = .ok rows ∧ chunks.mapM (getLutevents t loc) = .ok tables ∧
      (∀ q ∈ additive, ∀ k, (tables.map fun tb => totalAt q tb k).sum = totalAt q rows k) ∧
      (∀ r ∈ rows, (∃ tb ∈ tables, ∃ r' ∈ tb, r'.id = r.id ∧ r'.minFlashArea = r.minFlashArea) ∧
        ∀ tb ∈ tables, ∀ r' ∈ tb, r'.id = r.id → r.minFlashArea ≤ r'.minFlashArea) := by
  obtain ⟨ids, hnd, hs, hp, hall, hr, hsub⟩ := readFlashes_ids ho c (n := n) h hd huf hug
  have hroot : Rooted d := ⟨hc.groupHasFlash, hd.flashOf⟩
  -- the whole
  have hwhole : HasData whole ∧ Rooted whole ∧ UniqueIds whole.flashes ∧ UniqueIds whole.groups ∧
      ids ≠ [] ∧ ∀ k, PartAt loc d whole ids k := by
    by_cases hno : NoCriteria c
    · have ha : anyCriterion c = false := by
        have := (anyCriterion_iff c).not
        simp only [not_not, Bool.not_eq_true] at this
        exact this.mpr hno
      simp only [selected, ha, Bool.false_eq_true, if_false, Except.ok.injEq] at hw
      subst hw
      rw [hall hno]
      exact ⟨h, hroot, huf, hug, by simpa using hne, all_part loc hroot⟩
    · have ha : anyCriterion c = true := (anyCriterion_iff c).mpr hno
      simp only [selected, ha, if_true, hsub hno, Except.ok.injEq] at hw
      subst hw
      have hne' : ids ≠ [] := by
        rintro rfl
        exact hne rfl
      exact ⟨kept_hasData hc hne' hs, kept_rooted hroot ids hug, (kept_unique hnd huf hug).1,
        (kept_unique hnd huf hug).2, hne', kept_part loc hroot hug hnd⟩
  obtain ⟨w1, w2, w3, w4, hne', w5⟩ := hwhole
  obtain ⟨rows, hrows, hrows2⟩ := lut_ok t loc w1 w2 w3 w4
  rw [if_neg hne'] at hr
  set k := max (ids.length / n) 1 with hk
  have hk0 : 0 < k := by omega
  have hfl := arraySplit_flatten ids hk0
  set cs := arraySplit ids k with hcs
  have hcnd : ∀ cc ∈ cs, cc.Nodup := by
    intro cc hcc
    have := hnd
    rw [← hfl, List.nodup_flatten] at this
    exact this.1 cc hcc
  have hcne : ∀ cc ∈ cs, cc ≠ [] := by
    intro cc hcc h0
    have h1 := arraySplit_sizes ids hk0 hcc
    rw [h0, List.length_nil] at h1
    have h2 : 0 < ids.length := List.length_pos_iff.mpr hne'
    have h3 : k ≤ ids.length := by
      rw [hk]
      have := Nat.div_le_self ids.length n
      omega
    have := Nat.div_pos h3 hk0
    omega
  have hcsub : ∀ cc ∈ cs, ∀ i ∈ cc, ∃ f ∈ d.flashes, f.id = i := fun cc hcc i hi => hs i (by
    rw [← hfl]; exact List.mem_flatten.mpr ⟨cc, hcc, hi⟩)
  obtain ⟨tables, ht1, ht2⟩ := mapM_ok_of_forall (f := getLutevents t loc ∘ keptFlashes d)
    (P := fun cc rows => getLutevents t loc (keptFlashes d cc) = .ok rows ∧
      (∀ r ∈ rows, ParentStats loc (keptFlashes d cc) r) ∧
      ∀ k, PartAt loc d (keptFlashes d cc) cc k)
    (l := cs) (by
      intro cc hcc
      obtain ⟨rs, h1, h2⟩ := lut_ok t loc (kept_hasData hc (hcne cc hcc) (hcsub cc hcc))
        (kept_rooted hroot cc hug) (kept_unique (hcnd cc hcc) huf hug).1
        (kept_unique (hcnd cc hcc) huf hug).2
      exact ⟨rs, h1, h1, h2, kept_part loc hroot hug (hcnd cc hcc)⟩)
  have ht1' : (cs.map (keptFlashes d)).mapM (getLutevents t loc) = .ok tables := by
    rw [List.mapM_map]; exact ht1
  refine ⟨_, rows, tables, hr, hrows, ht1', ?_, ?_⟩
  · intro q hq k
    obtain ⟨l, key, p, hl⟩ := additive_sum t loc d k hq
    rw [hl whole ids rows hrows hrows2 w5, ← hfl, ← sum_chunks l key p cs (by rw [hfl]; exact hnd)]
    congr 1
    have : ∀ (cs : List (List Int)) (tables : List (List LutRow)),
        List.Forall₂ (fun cc rows => getLutevents t loc (keptFlashes d cc) = .ok rows ∧
          (∀ r ∈ rows, ParentStats loc (keptFlashes d cc) r) ∧
          ∀ k, PartAt loc d (keptFlashes d cc) cc k) cs tables →
        tables.map (fun tb => totalAt q tb k) =
          cs.map fun c => ((l.filter fun x => key x ∈ c).map p).sum := by
      intro cs tables hf
      induction hf with
      | nil => rfl
      | cons hab _ ih =>
        rw [List.map_cons, List.map_cons, ih, hl _ _ _ hab.1 hab.2.1 hab.2.2]
    exact this cs tables ht2
  · intro r hrm
    have hPS := hrows2 r hrm
    have hmw : ∀ f, f ∈ flashesAt loc whole r.id ↔ f ∈ flashesAt loc d r.id ∧ f.id ∈ ids := by
      intro f; rw [(w5 r.id).flashes.mem_iff]; simp
    -- a chunk's row for the same location is bounded below
    have hlow : ∀ tb ∈ tables, ∀ r' ∈ tb, r'.id = r.id → r.minFlashArea ≤ r'.minFlashArea := by
      intro tb htb r' hr' hid
      obtain ⟨cc, hcc, h1, h2, h3⟩ := mem_of_forall₂_right ht2 htb
      obtain ⟨f, hf, hf2⟩ := (h2 r' hr').minMem
      rw [hid, (h3 r.id).flashes.mem_iff, List.mem_filter] at hf
      rw [hf2]
      apply hPS.minLe
      rw [hmw]
      refine ⟨hf.1, ?_⟩
      rw [← hfl]
      exact List.mem_flatten.mpr ⟨cc, hcc, by simpa using hf.2⟩
    refine ⟨?_, hlow⟩
    obtain ⟨f, hf, hf2⟩ := hPS.minMem
    obtain ⟨hf3, hf4⟩ := (hmw f).mp hf
    rw [← hfl] at hf4
    obtain ⟨cc, hcc, hfc⟩ := List.mem_flatten.mp hf4
    obtain ⟨n', hn', hcn⟩ := List.mem_iff_getElem.mp hcc
    have hn'' : n' < tables.length := by rw [← ht2.length_eq]; exact hn'
    obtain ⟨h1, h2, h3⟩ := ht2.get hn' hn''
    simp only [List.get_eq_getElem, hcn] at h1 h2 h3
    have hfin : f ∈ flashesAt loc (keptFlashes d cc) r.id := by
      rw [(h3 r.id).flashes.mem_iff, List.mem_filter]
      exact ⟨hf3, by simpa using hfc⟩
    have hex : ∃ e ∈ eventsAt loc (keptFlashes d cc) r.id, EventOfFlash (keptFlashes d cc) f.id e := by
      have := (List.mem_filter.mp hfin).2
      simpa using this
    obtain ⟨e, he, -⟩ := hex
    obtain ⟨he1, he2⟩ := mem_eventsAt.mp he
    obtain ⟨r', ⟨hr', hrid⟩, -⟩ := (C17_conservation h1).2.1 e he1
    rw [he2] at hrid
    refine ⟨tables[n'], List.getElem_mem _, r', hr', hrid, ?_⟩
    apply le_antisymm
    · rw [hf2]
      apply (h2 r' hr').minLe
      rw [hrid]; exact hfin
    · exact hlow _ (List.getElem_mem _) r' hr' hrid

/-- The hypotheses hold for the sample, with chunks of one flash each. -/
example : ((readFlashesChunks id openSample {} 1).map fun cs => cs.map fun d =>
    (d.flashes.map Row.id, d.events.map Row.id)) =
    .ok [([5], [101, 100]), ([3], [102, 103])] := by rfl

example : ∃ w, selected id openSample {} = .ok w ∧ w.flashes ≠ [] :=
  ⟨openSample, rfl, openSample_hyps.1.1⟩

end Verif.Props
