import Verif.Model.Ids
import Verif.Props.Lut
import Verif.Props.Double

/-!
# C124: location ids in double precision
-/

namespace Verif.Props

open Verif.Py Verif.Model Verif.Spec Verif.Proofs

/-- The field of view that `subset_flashes` allows, in radians from the middle of the disk. -/
def inView (v : Rat) : Prop := |v| ≤ 1349 / 10000

/-- `v` is in step `i` of 28 microradians from -0.31, and not within `m` of its ends. -/
def wellInside (m : Rat) (i : Nat) (v : Rat) : Prop :=
  -(31 / 100) + i * (28 / 1000000) + m ≤ v ∧ v ≤ -(31 / 100) + (i + 1) * (28 / 1000000) - m

/-- The margin: a hundredth of a millionth of a microradian. -/
def idMargin : Rat := 1 / 10 ^ 14

/-- The column (or row) that the program finds, before its fraction is dropped. -/
def stepReal (v : Rat) : Rat := double (double (v - -double (31 / 100)) / double (28 / 1000000))

theorem widthD : toUint64 (double (double (double (31 / 100) - -double (31 / 100)) / double (28 / 1000000))) = 22142 := by
  decide +kernel

theorem step_near {v : Rat} (h : inView v) :
    |stepReal v - (v + 31 / 100) / (28 / 1000000)| ≤ 1 / 10 ^ 10 := by
  have hc : double (31 / 100) = 5584463537939415 / 18014398509481984 := by decide +kernel
  have hs : double (28 / 1000000) = 8264141345021879 / 295147905179352825856 := by decide +kernel
  unfold stepReal
  rw [hc, hs]
  have h1 := double_near (v - -(5584463537939415 / 18014398509481984))
  generalize double (v - -(5584463537939415 / 18014398509481984)) = a at h1
  have h2 := double_near (a / (8264141345021879 / 295147905179352825856))
  generalize double (a / (8264141345021879 / 295147905179352825856)) = q at h2
  obtain ⟨l, u⟩ := abs_le.mp h
  rw [abs_of_nonneg (by linarith : (0 : Rat) ≤ v - -(5584463537939415 / 18014398509481984))] at h1
  obtain ⟨l1, u1⟩ := abs_le.mp h1
  norm_num at l1 u1
  have a0 : 0 ≤ a / (8264141345021879 / 295147905179352825856) := by
    apply div_nonneg _ (by norm_num)
    linarith
  rw [abs_of_nonneg a0] at h2
  obtain ⟨l2, u2⟩ := abs_le.mp h2
  norm_num at l2 u2
  rw [abs_le]
  constructor <;> norm_num <;> linarith

theorem stepReal_mono {v w : Rat} (h : v ≤ w) : stepReal v ≤ stepReal w := by
  apply double_mono
  apply div_le_div_of_nonneg_right _ (double_nonneg (by norm_num))
  apply double_mono
  linarith

theorem stepReal_bounds {v : Rat} (h : inView v) : 0 ≤ stepReal v ∧ stepReal v < 15890 := by
  have h1 := abs_le.mp (step_near h)
  obtain ⟨l, u⟩ := abs_le.mp h
  constructor <;> linarith

/-- The id is the column plus 22142 times the row. -/
theorem defaultLocD_closed {x y : Rat} (hx : inView x) (hy : inView y) :
    defaultLocD x y = ⌊stepReal x⌋ + 22142 * ⌊stepReal y⌋ ∧
    0 ≤ ⌊stepReal x⌋ ∧ ⌊stepReal x⌋ < 15890 ∧ 0 ≤ ⌊stepReal y⌋ ∧ ⌊stepReal y⌋ < 15890 := by
  obtain ⟨x0, x1⟩ := stepReal_bounds hx
  obtain ⟨y0, y1⟩ := stepReal_bounds hy
  obtain ⟨a1, -⟩ := toUint64_floor x0 (x1.trans (by norm_num))
  obtain ⟨b1, -⟩ := toUint64_floor y0 (y1.trans (by norm_num))
  have c1 : 0 ≤ ⌊stepReal x⌋ := Int.floor_nonneg.mpr x0
  have c2 : ⌊stepReal x⌋ < 15890 := by rw [Int.floor_lt]; exact_mod_cast x1
  have d1 : 0 ≤ ⌊stepReal y⌋ := Int.floor_nonneg.mpr y0
  have d2 : ⌊stepReal y⌋ < 15890 := by rw [Int.floor_lt]; exact_mod_cast y1
  refine ⟨?_, c1, c2, d1, d2⟩
  unfold defaultLocD discretizeFl
  dsimp only
  rw [widthD]
  change ((((toUint64 (stepReal x) + toUint64 (stepReal y) * 22142) % 2 ^ 64 : Nat)) : Int) = _
  rw [Nat.mod_eq_of_lt (by omega)]
  push_cast
  rw [a1, b1]
  ring

/-- Without rounding the ids are those of C16, for all settings. -/
theorem discretizeFl_id (scale : Rat) (xRange yRange : Rat × Rat) (x y : Rat) :
    discretizeFl id scale xRange yRange x y = discretize scale xRange yRange x y := rfl

/-- With the default settings and in double precision, an event anywhere in the field of view gets the id of its cell of 28 by 28
microradians, except within a hundredth of a millionth of a microradian of the edge of a cell. -/
theorem C124_cell {x y : Rat} (hx : inView x) (hy : inView y) {i j : Nat}
    (hi : wellInside idMargin i x) (hj : wellInside idMargin j y) :
    defaultLocD x y = i + 22142 * j ∧ i < 22142 := by
  have key : ∀ {v : Rat} {k : Nat}, inView v → wellInside idMargin k v → ⌊stepReal v⌋ = k := by
    intro v k hv ⟨h1, h2⟩
    have hn := abs_le.mp (step_near hv)
    unfold idMargin at h1 h2
    rw [Int.floor_eq_iff]
    push_cast
    constructor <;> linarith
  obtain ⟨h, -, h2, -⟩ := defaultLocD_closed hx hy
  rw [key hx hi] at h h2
  rw [key hy hj] at h
  exact ⟨h, by omega⟩

/-- Events with the same id are never further apart than one step, up to the margin, along either axis; and the ids fit in
31 bits. -/
theorem C124_same {x y x' y' : Rat} (hx : inView x) (hy : inView y) (hx' : inView x') (hy' : inView y') :
    (defaultLocD x y = defaultLocD x' y' →
      |x - x'| ≤ 28 / 1000000 + idMargin ∧ |y - y'| ≤ 28 / 1000000 + idMargin) ∧
    0 ≤ defaultLocD x y ∧ defaultLocD x y < 2 ^ 31 := by
  obtain ⟨h, a1, a2, b1, b2⟩ := defaultLocD_closed hx hy
  obtain ⟨h', a1', a2', b1', b2'⟩ := defaultLocD_closed hx' hy'
  refine ⟨?_, by omega, by omega⟩
  intro he
  rw [h, h'] at he
  have ex : ⌊stepReal x⌋ = ⌊stepReal x'⌋ := by omega
  have ey : ⌊stepReal y⌋ = ⌊stepReal y'⌋ := by omega
  have key : ∀ {v w : Rat}, inView v → inView w → ⌊stepReal v⌋ = ⌊stepReal w⌋ →
      |v - w| ≤ 28 / 1000000 + idMargin := by
    intro v w hv hw hvw
    have h1 := abs_le.mp (step_near hv)
    have h2 := abs_le.mp (step_near hw)
    have h3 := abs_lt.mp (Int.abs_sub_lt_one_of_floor_eq_floor hvw)
    unfold idMargin
    rw [abs_le]
    constructor <;> linarith
  exact ⟨key hx hx' ex, key hy hy' ey⟩

/-- Ids grow with the coordinates: the events with one id are those in one interval of either axis. -/
theorem C124_interval {x y x' y' x'' y'' : Rat} (hx : inView x) (hy : inView y) (hx' : inView x') (hy' : inView y')
    (hx1 : x ≤ x'') (hx2 : x'' ≤ x') (hy1 : y ≤ y'') (hy2 : y'' ≤ y') (h : defaultLocD x y = defaultLocD x' y') :
    defaultLocD x'' y'' = defaultLocD x y := by
  have v : ∀ {a b c : Rat}, inView a → inView b → a ≤ c → c ≤ b → inView c := by
    intro a b c ha hb h1 h2
    unfold inView at *
    rw [abs_le] at *
    constructor <;> linarith [ha.1, hb.2]
  obtain ⟨e, a1, a2, b1, b2⟩ := defaultLocD_closed hx hy
  obtain ⟨e', a1', a2', b1', b2'⟩ := defaultLocD_closed hx' hy'
  obtain ⟨e'', a1'', a2'', b1'', b2''⟩ := defaultLocD_closed (v hx hx' hx1 hx2) (v hy hy' hy1 hy2)
  have m1 := Int.floor_le_floor (stepReal_mono hx1)
  have m2 := Int.floor_le_floor (stepReal_mono hx2)
  have m3 := Int.floor_le_floor (stepReal_mono hy1)
  have m4 := Int.floor_le_floor (stepReal_mono hy2)
  omega

theorem mean_near {α : Type} (f : α → Rat) {c b m : Rat} :
    ∀ l : List α, l ≠ [] → (∀ a ∈ l, |c - f a| ≤ b) → m * l.length = (l.map f).sum → |c - m| ≤ b := by
  intro l hl h hm
  have key : ∀ l : List α, (∀ a ∈ l, |c - f a| ≤ b) → |c * l.length - (l.map f).sum| ≤ b * l.length := by
    intro l
    induction l with
    | nil => intro _; simp
    | cons a l ih =>
      intro h
      have h1 := abs_le.mp (ih fun z hz => h z (List.mem_cons_of_mem _ hz))
      have h2 := abs_le.mp (h a List.mem_cons_self)
      rw [abs_le]
      simp only [List.map_cons, List.sum_cons, List.length_cons]
      push_cast
      constructor <;> linarith [h1.1, h1.2, h2.1, h2.2]
  have hk := key l h
  rw [← hm, ← sub_mul] at hk
  have hpos : (0 : Rat) < l.length := by
    have := List.length_pos_iff.mpr hl
    exact_mod_cast this
  rw [abs_mul, abs_of_pos hpos] at hk
  exact le_of_mul_le_mul_right hk hpos

/-- In the table of `get_lutevents`, the location of a row is within one step (up to the margin) of every event it stands for, and
so are these events of each other. -/
theorem C124_rows {t : Int} {d : GFile} {rows : List LutRow} (h : getLutevents t defaultLocD d = .ok rows)
    (hv : ∀ e ∈ d.events, inView e.val.x ∧ inView e.val.y) :
    ∀ e ∈ d.events, ∃ r ∈ rows, r.id = defaultLocD e.val.x e.val.y ∧
      |e.val.x - r.x| ≤ 28 / 1000000 + idMargin ∧ |e.val.y - r.y| ≤ 28 / 1000000 + idMargin ∧
      ∀ e' ∈ d.events, defaultLocD e'.val.x e'.val.y = r.id →
        |e.val.x - e'.val.x| ≤ 28 / 1000000 + idMargin ∧ |e.val.y - e'.val.y| ≤ 28 / 1000000 + idMargin := by
  intro e he
  obtain ⟨-, h1, h2, -⟩ := C17_conservation h
  obtain ⟨r, ⟨hr, hid⟩, -⟩ := h1 e he
  obtain ⟨-, st⟩ := h2 r hr
  have hpair : ∀ e' ∈ d.events, defaultLocD e'.val.x e'.val.y = r.id →
        |e.val.x - e'.val.x| ≤ 28 / 1000000 + idMargin ∧ |e.val.y - e'.val.y| ≤ 28 / 1000000 + idMargin := by
    intro e' he' hid'
    exact (C124_same (hv e he).1 (hv e he).2 (hv e' he').1 (hv e' he').2).1 (by rw [hid', hid])
  have hmem : ∀ a ∈ eventsAt defaultLocD d r.id, a ∈ d.events ∧ defaultLocD a.val.x a.val.y = r.id := by
    intro a ha
    unfold eventsAt at ha
    simpa using ha
  refine ⟨r, hr, hid, ?_, ?_, hpair⟩
  · exact mean_near (fun e : Row GVal => e.val.x) _ st.occupied (fun a ha => (hpair a (hmem a ha).1 (hmem a ha).2).1) st.x
  · exact mean_near (fun e : Row GVal => e.val.y) _ st.occupied (fun a ha => (hpair a (hmem a ha).1 (hmem a ha).2).2) st.y

/-- The hypotheses of the theorems are met. -/
example : inView (1 / 10) ∧ inView (-(1 / 20)) ∧ wellInside idMargin 14642 (1 / 10) ∧ wellInside idMargin 9285 (-(1 / 20)) ∧
    defaultLocD (1 / 10) (-(1 / 20)) = 14642 + 22142 * 9285 := by
  unfold inView wellInside idMargin; decide +kernel

example : defaultLocD (1 / 10) (-(1 / 20)) = defaultLocD (100001 / 1000000) (-(49999 / 1000000)) ∧
    defaultLocD (1 / 10) (-(1 / 20)) ≠ defaultLocD (100029 / 1000000) (-(1 / 20)) := by
  decide +kernel

/-- The margin is needed: this double is below -0.31 + 7000 steps, and the program gives it column 7000. -/
example : (-8214565720323785 / 72057594037927936 : Rat) < -(31 / 100) + 7000 * (28 / 1000000) ∧
    defaultLocD (-8214565720323785 / 72057594037927936) (-(1349 / 10000)) % 22142 = 7000 := by
  decide +kernel

/-- The sample with its locations brought into the field of view, and event 101 moved by 11 microradians. -/
def viewSample : GFile :=
  { openSample with events := openSample.events.map fun e =>
      { e with val := { e.val with x := e.val.x / 2 + if e.id = 101 then 11 / 1000000 else 0 } } }

example : (∀ e ∈ viewSample.events, inView e.val.x ∧ inView e.val.y) ∧
    ((getLutevents 7 defaultLocD viewSample).map fun rows => rows.map fun r => (r.x, r.energy, r.count)).toOption =
      some [(-1 / 400, 4, 1), (11 / 2000000, 5, 2), (7 / 80, 5, 1)] := by
  unfold inView; decide +kernel

end Verif.Props
