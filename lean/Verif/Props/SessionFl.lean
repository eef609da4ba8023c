import Verif.Model.SessionFl
import Verif.Props.ChunkFl
import Verif.Props.Session
import Verif.Props.Single
import Verif.Props.Stored

/-!
# C128: the energy of the images with all roundings
-/

namespace Verif.Props

open Verif.Py Verif.Model Verif.Spec Verif.Proofs

/-! ## The table -/

/-- A row of the table in floating point, and the row of exact arithmetic. -/
structure RowParts (A : Arith) (loc : Rat → Rat → Int) (d : GFile) (r' r : LutRow) : Prop where
  id : r'.id = r.id
  time : r'.time = r.time
  count : r'.count = r.count
  flashCount : r'.flashCount = r.flashCount
  groupCount : r'.groupCount = r.groupCount
  minFlashArea : r'.minFlashArea = r.minFlashArea
  x : r'.x = A.fl (A.sum ((eventsAt loc d r.id).map fun e => e.val.x) / (eventsAt loc d r.id).length)
  y : r'.y = A.fl (A.sum ((eventsAt loc d r.id).map fun e => e.val.y) / (eventsAt loc d r.id).length)
  energy : r'.energy = A.sum ((eventsAt loc d r.id).map fun e => e.val.energy)
  flashArea : ∃ l : List (Row GVal), (∀ f ∈ l, f ∈ d.flashes) ∧ r'.totalFlashArea = A.sum (l.map fun f => f.val.area) ∧
    r.totalFlashArea = (l.map fun f => f.val.area).sum
  groupArea : ∃ l : List (Row GVal), (∀ g ∈ l, g ∈ d.groups) ∧ r'.totalGroupArea = A.sum (l.map fun g => g.val.area) ∧
    r.totalGroupArea = (l.map fun g => g.val.area).sum

theorem mem_take {α : Type} {l : List α} {idx : List Nat} {a : α} (h : a ∈ take l idx) : a ∈ l := by
  unfold take at h
  obtain ⟨i, -, hi⟩ := List.mem_filterMap.mp h
  exact List.mem_of_getElem? hi

theorem lutRowFl_parts (A : Arith) {t : Int} {fg gg : List (Int × List Nat)} {loc : Rat → Rat → Int} {d : GFile}
    {k : Int} {r : LutRow}
    (h : lutRow t fg gg d k (positions (d.events.map fun e => loc e.val.x e.val.y) k) = .ok r) :
    ∃ r', lutRowFl A t fg gg d k (positions (d.events.map fun e => loc e.val.x e.val.y) k) = .ok r' ∧
      RowParts A loc d r' r := by
  simp only [lutRow, take_eventsAt, bind, Except.bind, pure, Except.pure] at h
  simp only [lutRowFl, take_eventsAt, bind, Except.bind, pure, Except.pure]
  revert h
  cases groupsOf fg (npUnique ((eventsAt loc d k).map fun e => e.val.flashOf)) with
  | error e => intro h; cases h
  | ok fl =>
    simp only
    cases groupsOf gg (npUnique ((eventsAt loc d k).map Row.pid)) with
    | error e => intro h; cases h
    | ok gl =>
      simp only
      cases (fl.mapM fun idx => listMin ((take d.flashes idx).map fun f => f.val.area)) with
      | error e => intro h; cases h
      | ok per =>
        simp only
        cases listMin per with
        | error e => intro h; cases h
        | ok m =>
          simp only
          intro h
          cases h
          exact ⟨_, rfl, rfl, rfl, rfl, rfl, rfl, rfl, rfl, rfl, rfl, ⟨_, fun _ => mem_take, rfl, rfl⟩,
            ⟨_, fun _ => mem_take, rfl, rfl⟩⟩

theorem tableFl_parts (A : Arith) {t : Int} {loc : Rat → Rat → Int} {d : GFile} {rows : List LutRow}
    (h : getLutevents t loc d = .ok rows) :
    ∃ rows', getLuteventsFl A t loc d = .ok rows' ∧ List.Forall₂ (RowParts A loc d) rows' rows := by
  unfold getLutevents at h
  unfold getLuteventsFl
  split at h
  · simp at h
  rename_i hne
  rw [if_neg hne]
  have hg : ∀ ks : List Int, groups ks = (npUnique ks).map fun k => (k, positions ks k) := fun _ => rfl
  rw [hg (d.events.map fun e => loc e.val.x e.val.y)] at h ⊢
  have h1 := mapM_ok_forall₂ h
  clear h
  generalize npUnique (d.events.map fun e => loc e.val.x e.val.y) = ks at h1
  rw [List.forall₂_map_left_iff] at h1
  induction h1 with
  | nil => exact ⟨[], rfl, List.Forall₂.nil⟩
  | @cons k r ks rs hr _ ih =>
    obtain ⟨rs', e1, e2⟩ := ih
    obtain ⟨r', e3, e4⟩ := lutRowFl_parts A hr
    refine ⟨r' :: rs', ?_, List.Forall₂.cons e4 e2⟩
    rw [List.map_cons, List.mapM_cons, e3, ok_bind', e1]
    rfl

/-! ## A chunk -/

theorem rowPieces_piece {clip : Poly → Poly → List Poly} {x y : List Rat} {p : Poly} {c : Candidates} {r : LutRow}
    (h : WellFormed x y c) : (rowPieces clip p c r).map Found.piece = c.quads.flatMap (clip p) := by
  have hl : c.quads.length = (c.xi.zip c.yi).length := by rw [h.2.2.2, List.length_map]
  unfold rowPieces
  generalize c.xi.zip c.yi = Z at hl
  generalize c.quads = Q at hl
  induction Q generalizing Z with
  | nil => simp
  | cons q Q ih =>
    cases Z with
    | nil => simp at hl
    | cons z Z =>
      rw [List.zip_cons_cons, List.flatMap_cons, List.flatMap_cons, List.map_append, ih Z (by simpa using hl)]
      congr 1
      rw [List.map_map]
      exact List.map_id _

theorem rowPieces_share {clip : Poly → Poly → List Poly} {x y : List Rat} {p : Poly} {c : Candidates} {r : LutRow}
    (h : WellFormed x y c) (hp : p ≠ []) (hclip : ∀ p q s, s ∈ clip p q → s ≠ []) :
    ((rowPieces clip p c r).map fun f => f.share Arith.exact).sum =
      ((c.quads.flatMap (clip p)).map fun s => |signedArea s|).sum / |signedArea p| := by
  rw [← rowPieces_piece (r := r) h, List.map_map, div_eq_mul_inv, ← List.sum_map_mul_right]
  congr 1
  apply List.map_congr_left
  intro f hf
  obtain ⟨-, e2, e3, -⟩ := rowPieces_mem h hf
  rw [share_exact (by rw [e2]; exact hp) (hclip _ _ _ e3), e2, div_eq_mul_inv]
  rfl

/-- What the pieces get of the energy of the rows, in exact arithmetic. -/
theorem found_energy {clip : Poly → Poly → List Poly} {query : List Pt → Pt → Nat → List Nat} {foot : Pt → Poly}
    {x y : List Rat} (hclip : ∀ p q s, s ∈ clip p q → s ≠ []) :
    ∀ (rows : List LutRow) (cands : List Candidates), (∀ r ∈ rows, foot (r.x, r.y) ≠ []) →
    List.Forall₂ (fun p c => WellFormed x y c ∧ candidatesFor query (gridMesh x y) .none p = .ok c)
      (rows.map fun r => foot (r.x, r.y)) cands →
    ((foundPieces clip (rows.map fun r => foot (r.x, r.y)) cands rows).map fun f =>
        f.row.energy * f.share Arith.exact).sum =
      (rows.map fun r => r.energy * (coveredArea clip query (gridMesh x y) (foot (r.x, r.y)) /
        |signedArea (foot (r.x, r.y))|)).sum := by
  intro rows
  induction rows with
  | nil => intro cands _ _; simp [foundPieces]
  | cons r rows ih =>
    intro cands hne h
    rw [List.map_cons] at h
    cases h with
    | @cons _ c _ cands h1 h2 =>
      rw [List.map_cons, found_cons, List.map_append, List.sum_append, List.map_cons, List.sum_cons,
        ih cands (fun r hr => hne r (List.mem_cons_of_mem _ hr)) h2]
      congr 1
      have : ((rowPieces clip (foot (r.x, r.y)) c r).map fun f => f.row.energy * f.share Arith.exact) =
          (rowPieces clip (foot (r.x, r.y)) c r).map fun f => r.energy * f.share Arith.exact := by
        apply List.map_congr_left
        intro f hf
        rw [(rowPieces_mem h1.1 hf).1]
      rw [this, List.sum_map_mul_left, rowPieces_share h1.1 (hne r List.mem_cons_self) hclip]
      unfold coveredArea
      rw [h1.2]

/-- What a chunk sends, in any arithmetic: one row for each cell with a piece. -/
theorem readRows_found (A : Arith) {clip : Poly → Poly → List Poly} (query : List Pt → Pt → Nat → List Nat)
    {foot : Pt → Poly} {x y : List Rat} (basedate : Int) {rows : List LutRow}
    (hx : AxisOk x) (hy : AxisOk y) (hsz : 2 < x.length ∨ 2 < y.length) (hclip : ∀ p q s, s ∈ clip p q → s ≠ [])
    (hid : (rows.map LutRow.id).Nodup) (hne : ∀ r ∈ rows, foot (r.x, r.y) ≠ []) {δ : Rat}
    (hmean : ∀ r ∈ rows, MeanNear A δ (foot (r.x, r.y))) (hst : ∀ r ∈ rows, SearchStable δ clip x y (foot (r.x, r.y))) :
    ∃ cands, List.Forall₂ (fun p c => WellFormed x y c ∧ candidatesFor query (gridMesh x y) .none p = .ok c)
        (rows.map fun r => foot (r.x, r.y)) cands ∧
      let F := foundPieces clip (rows.map fun r => foot (r.x, r.y)) cands rows
      (F ≠ [] → readChunkFl A clip query (fun pts => pts.map foot) (gridMesh x y) basedate rows =
        .ok ((npUnique (F.map (foundKey F))).map fun k =>
          cellEventFl A basedate ((F.filter fun f => foundKey F f = k).map (Found.split A (cellV A x y))))) := by
  obtain ⟨cands, -, c2, c3⟩ := readChunkFl_ok A clip query (fun pts => pts.map foot) x y basedate rows _ hx hy hsz hclip
    (show (rows.map fun r => (r.x, r.y)).map foot = rows.map fun r => foot (r.x, r.y) by rw [List.map_map]; rfl)
    (by simp) hid (by
      intro p hp
      obtain ⟨r, hr, rfl⟩ := List.mem_map.mp hp
      exact hne r hr) (δ := δ) (by
      intro p hp
      obtain ⟨r, hr, rfl⟩ := List.mem_map.mp hp
      exact hmean r hr) (by
      intro p hp
      obtain ⟨r, hr, rfl⟩ := List.mem_map.mp hp
      exact hst r hr)
  refine ⟨cands, c2, ?_⟩
  intro F hF
  rw [c3]
  exact fake_found A _ F basedate hF

/-- The cells of the rows that are sent. -/
theorem cell_of_key (A : Arith) (cell : Nat → Nat → Rat) (basedate : Int) {F : List Found} {f0 : Found} (h0 : f0 ∈ F) :
    (cellEventFl A basedate ((F.filter fun f => foundKey F f = foundKey F f0).map (Found.split A cell))).meshXi =
        f0.cell.1 ∧
      (cellEventFl A basedate ((F.filter fun f => foundKey F f = foundKey F f0).map (Found.split A cell))).meshYi =
        f0.cell.2 := by
  rw [foundKey_filter h0]
  have hne : (F.filter fun f => f.cell = f0.cell).map (Found.split A cell) ≠ [] := by
    have : f0 ∈ F.filter fun f => f.cell = f0.cell := by simp [h0]
    simpa using List.ne_nil_of_mem this
  constructor
  all_goals
    refine colMin_const hne _ _ ?_
    intro s hs
    obtain ⟨f, hf, rfl⟩ := List.mem_map.mp hs
    have := (List.mem_filter.mp hf).2
    simp only [decide_eq_true_eq] at this
    simp only [Found.split, this]

/-- No cell is named twice. -/
theorem cells_nodup (A : Arith) (cell : Nat → Nat → Rat) (basedate : Int) (F : List Found) :
    (((npUnique (F.map (foundKey F))).map fun k => cellEventFl A basedate
      ((F.filter fun f => foundKey F f = k).map (Found.split A cell))).map fun e => (e.meshYi, e.meshXi)).Nodup := by
  rw [List.map_map]
  refine List.Nodup.map_on ?_ (npUnique_nodup _)
  intro k hk k' hk' he
  obtain ⟨f, hf, rfl⟩ := List.mem_map.mp (mem_npUnique.mp hk)
  obtain ⟨f', hf', rfl⟩ := List.mem_map.mp (mem_npUnique.mp hk')
  simp only [Function.comp, Prod.mk.injEq] at he
  rw [(cell_of_key A cell basedate hf).1, (cell_of_key A cell basedate hf).2, (cell_of_key A cell basedate hf').1,
    (cell_of_key A cell basedate hf').2] at he
  unfold foundKey
  rw [he.1, he.2]

theorem sum_abs_self {l : List Rat} (h : ∀ v ∈ l, 0 ≤ v) : (l.map abs).sum = l.sum := by
  congr 1
  conv_rhs => rw [← List.map_id l]
  apply List.map_congr_left
  intro v hv
  exact abs_of_nonneg (h v hv)

theorem single_nonneg {v : Rat} (h : 0 ≤ v) : 0 ≤ roundSingle v := by
  have := single_near' v
  rw [abs_of_nonneg h, abs_le] at this
  have h2 : 1 / 2 ^ 24 * v ≤ v := by linarith [mul_le_mul_of_nonneg_right (show (1 : Rat) / 2 ^ 24 ≤ 1 by norm_num) h]
  linarith [this.1]

theorem found_pieces {n : Nat} {R k : Rat} {clip : Poly → Poly → List Poly} {foot : Pt → Poly} {x y : List Rat}
    {rows : List LutRow} {cands : List Candidates} (hg : GoodChunk n R k clip foot x y rows)
    (hc : List.Forall₂ (fun (_ : Poly) c => WellFormed x y c) (rows.map fun r => foot (r.x, r.y)) cands)
    {f0 : Found} (h0 : f0 ∈ foundPieces clip (rows.map fun r => foot (r.x, r.y)) cands rows) :
    ((foundPieces clip (rows.map fun r => foot (r.x, r.y)) cands rows).filter fun f => f.cell = f0.cell).length ≤
      2 ^ 26 := by
  obtain ⟨-, -, -, h4, h5⟩ := found_mem (clip := clip) rows cands hc f0 h0
  have h1 := found_reaching (clip := clip) (fun _ => 1) rows cands (fun _ _ => zero_le_one) hc f0.cell
  set G := (foundPieces clip (rows.map fun r => foot (r.x, r.y)) cands rows).filter fun f => f.cell = f0.cell
  have e1 : (G.map fun _ => (1 : Rat)).sum = G.length := by simp
  have e2 : reaching clip foot x y rows (fun _ => 1) f0.cell.1 f0.cell.2 =
      ((rows.map fun r => (clip (foot (r.x, r.y)) (cellRect x y f0.cell.1 f0.cell.2)).length).sum : Nat) := by
    unfold reaching
    rw [Nat.cast_list_sum, List.map_map]
    simp only [one_mul]
    rfl
  rw [e1, e2] at h1
  exact (Nat.cast_le.mp h1).trans (hg.pieces _ _ h4 h5)

theorem energies_near {rows : List LutRow} {q : LutRow → Rat} {ε : Rat} (h0 : ∀ r ∈ rows, 0 ≤ r.energy)
    (h : ∀ r ∈ rows, |q r - 1| ≤ ε) :
    |(rows.map fun r => r.energy * q r).sum - (rows.map LutRow.energy).sum| ≤ ε * (rows.map LutRow.energy).sum := by
  induction rows with
  | nil => simp
  | cons r rows ih =>
    simp only [List.map_cons, List.sum_cons]
    have h1 := ih (fun r hr => h0 r (List.mem_cons_of_mem _ hr)) fun r hr => h r (List.mem_cons_of_mem _ hr)
    have h2 := mul_le_mul_of_nonneg_left (h r List.mem_cons_self) (h0 r List.mem_cons_self)
    rw [← abs_of_nonneg (h0 r List.mem_cons_self), ← abs_mul, abs_of_nonneg (h0 r List.mem_cons_self)] at h2
    rw [abs_le] at *
    constructor <;> linarith [h1.1, h1.2, h2.1, h2.2]

/-- The energy of a chunk, from the rows of its table. -/
theorem rows_energy {A : Arith} (hA : NumpyLike A) {n : Nat} {R k : Rat} (hn : n ≤ 1000000) (hk : k ≤ 1 / 100)
    (query : List Pt → Pt → Nat → List Nat) {iclip : IPoly → IPoly → List IPoly}
    {τ : Nat → Rat → Rat} (hτ : ClipsWithin iclip τ) (τ0 : ∀ n ℓ, 0 ≤ ℓ → 0 ≤ τ n ℓ)
    (hne : ∀ p q s, s ∈ iclip p q → s ≠ []) {c : Nat} (hc : ∀ p q, (iclip p q).length ≤ c) {ε : Rat} (hε : ε < 1)
    {foot : Pt → Poly} {x y : List Rat} {dx dy : Rat} (basedate : Int)
    {rows : List LutRow} (hx : AxisOk x) (hy : AxisOk y) (hsz : 2 < x.length ∨ 2 < y.length)
    (ux : Spaced x dx) (uy : Spaced y dy) (hdx : 2 / clipperScale ≤ dx) (hdy : 2 / clipperScale ≤ dy)
    (hrne : rows ≠ []) (hid : (rows.map LutRow.id).Nodup)
    (hin : ∀ r ∈ rows, FootWithin τ ε x y dx dy (foot (r.x, r.y)))
    (hg : GoodChunk n R k (scaledClip iclip) foot x y rows) :
    ∃ evs, readChunkFl A (scaledClip iclip) query (fun pts => pts.map foot) (gridMesh x y) basedate rows = .ok evs ∧
      evs ≠ [] ∧ (∀ e ∈ evs, 0 ≤ e.power) ∧ ChildrenOk (x.length - 1) (y.length - 1) [(evs, [])] ∧
      |(evs.map LmaEvent.power).sum - (rows.map LutRow.energy).sum| ≤
        (ε + (1 + ε) * (1 / 2 ^ 23 + 4 * k) + 100 * c * k) * (rows.map LutRow.energy).sum := by
  have hclip : ∀ p q s, s ∈ scaledClip iclip p q → s ≠ [] := by
    intro p q s hs
    unfold scaledClip at hs
    obtain ⟨s', hs', rfl⟩ := List.mem_map.mp hs
    simpa [scaleFromClipper] using hne _ _ _ hs'
  have hcov : ∀ r ∈ rows, |coveredArea (scaledClip iclip) query (gridMesh x y) (foot (r.x, r.y)) /
      |signedArea (foot (r.x, r.y))| - 1| ≤ ε := fun r hr =>
    C98_area query hτ τ0 hε hx hy hsz ux uy hdx hdy (hin r hr)
  have hfne : ∀ r ∈ rows, foot (r.x, r.y) ≠ [] := fun r hr => (hin r hr).foot.ne_nil
  obtain ⟨cands0, b1, b2⟩ := readRows_found Arith.exact query basedate hx hy hsz hclip hid hfne
    (fun _ _ => mean_exact _) fun _ _ => stable_zero _ _ _ _
  have hE := found_energy (query := query) hclip rows cands0 hfne b1
  have hF0 : foundPieces (scaledClip iclip) (rows.map fun r => foot (r.x, r.y)) cands0 rows ≠ [] := by
    obtain ⟨r, hr⟩ := List.exists_mem_of_ne_nil _ hrne
    obtain ⟨c0, hc0, hw⟩ : ∃ c0 ∈ cands0, WellFormed x y c0 ∧
        candidatesFor query (gridMesh x y) .none (foot (r.x, r.y)) = .ok c0 := by
      have : ∀ {l : List LutRow} {C : List Candidates}, List.Forall₂ (fun p c => WellFormed x y c ∧
          candidatesFor query (gridMesh x y) .none p = .ok c) (l.map fun r => foot (r.x, r.y)) C → r ∈ l →
          ∃ c0 ∈ C, WellFormed x y c0 ∧ candidatesFor query (gridMesh x y) .none (foot (r.x, r.y)) = .ok c0 := by
        intro l C hl hm
        rw [List.forall₂_map_left_iff] at hl
        exact mem_of_forall₂_left hl hm
      exact this b1 hr
    have h1 := hcov r hr
    intro h0
    have h3 : ∀ (rows : List LutRow) (cands : List Candidates),
        List.Forall₂ (fun p c => WellFormed x y c ∧ candidatesFor query (gridMesh x y) .none p = .ok c)
          (rows.map fun r => foot (r.x, r.y)) cands →
        foundPieces (scaledClip iclip) (rows.map fun r => foot (r.x, r.y)) cands rows = [] →
        ∀ r ∈ rows, coveredArea (scaledClip iclip) query (gridMesh x y) (foot (r.x, r.y)) = 0 := by
      intro rows
      induction rows with
      | nil => intro _ _ _ r hr; simp at hr
      | cons r rows ih =>
        intro cands h h0 r' hr'
        rw [List.map_cons] at h
        cases h with
        | @cons _ c _ cands h1 h2 =>
          rw [List.map_cons, found_cons, List.append_eq_nil_iff] at h0
          rcases List.mem_cons.mp hr' with rfl | hr'
          · unfold coveredArea
            rw [h1.2]
            have := rowPieces_piece (clip := scaledClip iclip) (p := foot (r'.x, r'.y)) (r := r') h1.1
            rw [h0.1] at this
            simp only
            rw [← this]
            rfl
          · exact ih cands h2 h0.2 r' hr'
    rw [h3 rows cands0 b1 h0 r hr, zero_div, zero_sub, abs_neg, abs_one] at h1
    linarith
  have hex := b2 hF0
  obtain ⟨cands, evs, r1, r2, r3, r4, r5, r6⟩ := rows_close hA hn hk query hx hy hsz hclip hid hg hex
  have hcc : cands = cands0 := by
    have : ∀ {P : List Poly} {C C' : List Candidates},
        List.Forall₂ (fun p c => WellFormed x y c ∧ candidatesFor query (gridMesh x y) .none p = .ok c) P C →
        List.Forall₂ (fun p c => WellFormed x y c ∧ candidatesFor query (gridMesh x y) .none p = .ok c) P C' → C = C' := by
      intro P C C' h1
      induction h1 generalizing C' with
      | nil => intro h2; cases h2; rfl
      | cons h _ ih =>
        intro h2
        cases h2 with
        | cons h' h2 =>
          rw [ih h2]
          have := h.2.symm.trans h'.2
          injection this with this
          rw [this]
    exact this r1 b1
  subst hcc
  obtain ⟨cands', d1, d2⟩ := readRows_found A query basedate hx hy hsz hclip hid hfne
    (fun r hr => meanNear hA hn (hg.large r hr).small) hg.search
  have hcc' : cands' = cands := by
    have : ∀ {P : List Poly} {C C' : List Candidates},
        List.Forall₂ (fun p c => WellFormed x y c ∧ candidatesFor query (gridMesh x y) .none p = .ok c) P C →
        List.Forall₂ (fun p c => WellFormed x y c ∧ candidatesFor query (gridMesh x y) .none p = .ok c) P C' → C = C' := by
      intro P C C' h1
      induction h1 generalizing C' with
      | nil => intro h2; cases h2; rfl
      | cons h _ ih =>
        intro h2
        cases h2 with
        | cons h' h2 =>
          rw [ih h2]
          have := h.2.symm.trans h'.2
          injection this with this
          rw [this]
    exact this d1 b1
  subst hcc'
  have hevs := d2 hF0
  rw [r3] at hevs
  injection hevs with hevs
  have hk0 : 0 ≤ k := hg.pos hrne
  have hmem := found_mem (clip := scaledClip iclip) rows cands' (b1.imp fun _ _ h => h.1)
  have s2 := found_count (clip := scaledClip iclip) (foot := foot) (x := x) (y := y) LutRow.energy (m := 25) (c := c) (by
      intro p q
      unfold scaledClip
      rw [List.length_map]
      exact hc _ _) rows cands' hg.energy (by
      rw [List.forall₂_map_left_iff] at r1 ⊢
      have : ∀ {l : List LutRow} {C : List Candidates}, List.Forall₂ (fun r c => WellFormed x y c ∧
          candidatesFor query (gridMesh x y) .none (foot (r.x, r.y)) = .ok c) l C → (∀ r ∈ l, r ∈ rows) →
          List.Forall₂ (fun r c => WellFormed x y c ∧ (c.xi.zip c.yi).length ≤ 25) l C := by
        intro l C hl
        induction hl with
        | nil => intro _; exact List.Forall₂.nil
        | @cons r c l C hrc _ ih =>
          intro hm
          refine List.Forall₂.cons ⟨hrc.1, ?_⟩ (ih fun r hr => hm r (List.mem_cons_of_mem _ hr))
          obtain ⟨c', hc', -, h25, -⟩ := convex_found query hx hy hsz ux uy (hin r (hm r List.mem_cons_self)).foot
          rw [hrc.2] at hc'
          injection hc' with hc'
          rw [hc']
          exact h25
      exact this r1 fun r hr => hr)
  have s1 := sum_close r4
  rw [r5] at s1
  clear r5 r6 d2 d1
  have hlen26 := fun f0 h0 => found_pieces hg (b1.imp fun _ _ h => h.1) (f0 := f0) h0
  have h2 := energies_near hg.energy hcov
  rw [← hE] at h2
  set F := foundPieces (scaledClip iclip) (rows.map fun r => foot (r.x, r.y)) cands' rows with hFdef
  refine ⟨evs, r3, ?_, ?_, ?_, ?_⟩
  · rw [hevs]
    intro h0
    rw [List.map_eq_nil_iff, npUnique_eq_nil, List.map_eq_nil_iff] at h0
    exact hF0 h0
  · intro e he
    rw [hevs] at he
    obtain ⟨key, hkey, rfl⟩ := List.mem_map.mp he
    unfold cellEventFl
    simp only
    rw [hA.store]
    apply single_nonneg
    rw [List.map_map]
    have hl : ∀ v ∈ (F.filter fun f => foundKey F f = key).map (SplitLut.energy ∘ Found.split A (cellV A x y)),
        IsDouble v ∧ 0 ≤ v := by
      intro v hv
      obtain ⟨f, hf, rfl⟩ := List.mem_map.mp hv
      simp only [Function.comp, Found.split, hA.fl]
      refine ⟨double_isDouble _, double_nonneg (mul_nonneg (hg.energy _ (hmem f (List.mem_filter.mp hf).1).1) ?_)⟩
      exact abs_nonneg _
    have hlen : ((F.filter fun f => foundKey F f = key).map
        (SplitLut.energy ∘ Found.split A (cellV A x y))).length ≤ 2 ^ 26 := by
      obtain ⟨f0, h0, rfl⟩ := List.mem_map.mp (mem_npUnique.mp hkey)
      rw [List.length_map, foundKey_filter h0]
      exact hlen26 f0 h0
    have h1 := hA.groupSum _ (fun v hv => (hl v hv).1) hlen
    rw [sum_abs_self fun v hv => (hl v hv).2] at h1
    have h2 := List.sum_nonneg fun v hv => (hl v hv).2
    rw [abs_le] at h1
    linarith [h1.1]
  · intro fr hfr
    rw [List.mem_singleton] at hfr
    subst hfr
    simp only
    constructor
    · intro e he
      rw [hevs] at he
      obtain ⟨key, hkey, rfl⟩ := List.mem_map.mp he
      obtain ⟨f0, h0, rfl⟩ := List.mem_map.mp (mem_npUnique.mp hkey)
      rw [(cell_of_key A _ basedate h0).1, (cell_of_key A _ basedate h0).2]
      have := (hmem f0 h0).2.2.2
      omega
    · rw [hevs]
      exact cells_nodup A _ basedate F
  · have e0 : ((((npUnique (F.map (foundKey F))).map fun k => cellEventFl Arith.exact basedate
        ((F.filter fun f => foundKey F f = k).map (Found.split Arith.exact (cellV Arith.exact x y)))).map
          LmaEvent.power).sum) = (F.map fun f => f.row.energy * f.share Arith.exact).sum := by
      rw [← sum_blocks F (foundKey F) (fun f => f.row.energy * f.share Arith.exact) (npUnique_nodup (F.map (foundKey F)))
        (fun f hf => mem_npUnique.mpr (List.mem_map.mpr ⟨f, hf, rfl⟩)), List.map_map]
      congr 1
      apply List.map_congr_left
      intro key _
      simp only [Function.comp, cellEventFl, List.map_map]
      rfl
    rw [e0] at s1
    set E := (rows.map LutRow.energy).sum
    set P := (F.map fun f => f.row.energy * f.share Arith.exact).sum
    set P' := (evs.map LmaEvent.power).sum
    have hP : P ≤ (1 + ε) * E := by linarith [(abs_le.mp h2).2]
    have hκ : 0 ≤ (1 : Rat) / 2 ^ 23 + 4 * k := by positivity
    have s3 : |P' - E| ≤ P * (1 / 2 ^ 23 + 4 * k) + 4 * k * ((25 * c : Nat) * E) + ε * E := by
      have := abs_sub_le P' P E
      have s4 := mul_le_mul_of_nonneg_left s2 (show 0 ≤ 4 * k by linarith)
      have e1 : P / 2 ^ 23 = P * (1 / 2 ^ 23) := by ring
      rw [e1] at s1
      linarith
    have s5 := mul_le_mul_of_nonneg_right hP hκ
    refine s3.trans ?_
    push_cast
    linarith

/-! ## The table of a chunk -/

theorem addsUp_nonneg {l : List Rat} {S : Rat} (h : AddsUp l S) : (∀ v ∈ l, 0 ≤ v) → 0 ≤ S := by
  induction h with
  | nil => intro _; exact le_refl _
  | one v => intro h0; exact h0 v (by simp)
  | @add l a b s t _ _ hl _ _ iha ihb =>
    intro h0
    refine double_nonneg (add_nonneg (iha fun v hv => h0 v ?_) (ihb fun v hv => h0 v ?_))
    · exact hl.mem_iff.mpr (List.mem_append_left _ hv)
    · exact hl.mem_iff.mpr (List.mem_append_right _ hv)

/-- The numbers of a file are doubles; energies and areas are not negative, and positions lie within `S` of the origin. -/
structure DoubleFile (S : Rat) (d : GFile) : Prop where
  x : ∀ e ∈ d.events, IsDouble e.val.x ∧ |e.val.x| ≤ S
  y : ∀ e ∈ d.events, IsDouble e.val.y ∧ |e.val.y| ≤ S
  energy : ∀ e ∈ d.events, IsDouble e.val.energy ∧ 0 ≤ e.val.energy
  flashArea : ∀ f ∈ d.flashes, IsDouble f.val.area ∧ 0 ≤ f.val.area
  groupArea : ∀ g ∈ d.groups, IsDouble g.val.area ∧ 0 ≤ g.val.area

/-- A row of the table in floating point is close to the row of exact arithmetic. -/
structure RowClose (S : Rat) (r' r : LutRow) : Prop where
  id : r'.id = r.id
  time : r'.time = r.time
  count : r'.count = r.count
  flashCount : r'.flashCount = r.flashCount
  groupCount : r'.groupCount = r.groupCount
  minFlashArea : r'.minFlashArea = r.minFlashArea
  x : |r'.x - r.x| ≤ S / 2 ^ 25
  y : |r'.y - r.y| ≤ S / 2 ^ 25
  energy : |r'.energy - r.energy| ≤ r.energy / 2 ^ 26
  positive : 0 ≤ r'.energy ∧ 0 ≤ r'.totalFlashArea ∧ 0 ≤ r'.totalGroupArea

theorem mean_close {A : Arith} (hA : NumpyLike A) {S : Rat} {l : List Rat} (hl : l ≠ []) (hn : l.length ≤ 2 ^ 26)
    (h : ∀ v ∈ l, IsDouble v ∧ |v| ≤ S) {m : Rat} (hm : m * l.length = l.sum) :
    |A.fl (A.sum l / l.length) - m| ≤ S / 2 ^ 25 := by
  have h1 := addsUp_good (hA.sum l fun v hv => (h v hv).1) hn
  have hpos : (0 : Rat) < l.length := by exact_mod_cast List.length_pos_iff.mpr hl
  have h2 : (l.map abs).sum ≤ S * l.length := by
    clear h1 hn hl hm hpos
    induction l with
    | nil => simp
    | cons v l ih =>
      have a := ih fun v hv => h v (List.mem_cons_of_mem _ hv)
      have b := (h v List.mem_cons_self).2
      simp only [List.map_cons, List.sum_cons, List.length_cons]
      push_cast
      linarith
  have hS : 0 ≤ S := by
    obtain ⟨v, hv⟩ := List.exists_mem_of_ne_nil _ hl
    exact (abs_nonneg v).trans (h v hv).2
  rw [hA.fl]
  set n : Rat := (l.length : Rat) with hndef
  set s := A.sum l
  have e1 : |s / n - m| ≤ S / 2 ^ 26 := by
    have e : s / n - m = (s - l.sum) / n := by rw [← hm]; field_simp
    rw [e, abs_div, abs_of_pos hpos, div_le_iff₀ hpos]
    calc |s - l.sum| ≤ 1 / 2 ^ 26 * (l.map abs).sum := h1
      _ ≤ 1 / 2 ^ 26 * (S * n) := mul_le_mul_of_nonneg_left h2 (by norm_num)
      _ = S / 2 ^ 26 * n := by ring
  have e2 : |m| ≤ S := by
    have : |m| * n ≤ S * n := by
      rw [← abs_of_pos hpos, ← abs_mul, hm, abs_of_pos hpos]
      exact (sum_abs_le l).trans h2
    exact le_of_mul_le_mul_right this hpos
  have e3 : |s / n| ≤ S + S / 2 ^ 26 := by
    have := abs_sub_abs_le_abs_sub (s / n) m
    linarith
  have e4 := double_near' (s / n)
  have e5 : |double (s / n) - s / n| ≤ S / 2 ^ 27 := by
    refine e4.trans ((mul_le_mul_of_nonneg_left e3 ulp1_pos.le).trans ?_)
    unfold ulp1
    have : (1 : Rat) / 2 ^ 53 * (S + S / 2 ^ 26) = S * (1 / 2 ^ 53 * (1 + 1 / 2 ^ 26)) := by ring
    rw [this, div_eq_mul_one_div S (2 ^ 27)]
    exact mul_le_mul_of_nonneg_left (by norm_num) hS
  have := abs_sub_le (double (s / n)) (s / n) m
  have e6 : S / 2 ^ 27 + S / 2 ^ 26 ≤ S / 2 ^ 25 := by
    have : S / 2 ^ 27 + S / 2 ^ 26 = S * (1 / 2 ^ 27 + 1 / 2 ^ 26) := by ring
    rw [this, div_eq_mul_one_div S (2 ^ 25)]
    exact mul_le_mul_of_nonneg_left (by norm_num) hS
  linarith

/-- C128, the lookup table: its rows are computed as close to the mean positions and to the summed energies as doubles
allow, and ids, counts and least areas are exact. -/
theorem C128_table {A : Arith} (hA : NumpyLike A) {S : Rat} {t : Int} {loc : Rat → Rat → Int} {d : GFile}
    {rows : List LutRow} (hd : DoubleFile S d) (hn : d.events.length ≤ 2 ^ 26) (h : getLutevents t loc d = .ok rows) :
    ∃ rows', getLuteventsFl A t loc d = .ok rows' ∧ List.Forall₂ (RowClose S) rows' rows := by
  obtain ⟨rows', h1, h2⟩ := tableFl_parts A h
  refine ⟨rows', h1, ?_⟩
  have hst := (C17_conservation h).2.2.1
  clear h1 h
  have key : ∀ r' r, RowParts A loc d r' r → EventStats loc d r → RowClose S r' r := by
    intro r' r hp hs
    have hin : ∀ e ∈ eventsAt loc d r.id, e ∈ d.events := fun e he => (List.mem_filter.mp he).1
    have hlen : (eventsAt loc d r.id).length ≤ 2 ^ 26 := (List.length_filter_le _ _).trans hn
    have col : ∀ q : Row GVal → Rat, (∀ e ∈ d.events, IsDouble (q e) ∧ |q e| ≤ S) →
        ∀ m, m * (eventsAt loc d r.id).length = ((eventsAt loc d r.id).map q).sum →
        |A.fl (A.sum ((eventsAt loc d r.id).map q) / (eventsAt loc d r.id).length) - m| ≤ S / 2 ^ 25 := by
      intro q hq m hm
      have := mean_close hA (S := S) (l := (eventsAt loc d r.id).map q) (by simpa using hs.occupied)
        (by rw [List.length_map]; exact hlen) (by
          intro v hv
          obtain ⟨e, he, rfl⟩ := List.mem_map.mp hv
          exact hq e (hin e he)) (m := m) (by rw [List.length_map]; exact hm)
      rwa [List.length_map] at this
    have hE : ∀ v ∈ (eventsAt loc d r.id).map fun e => e.val.energy, IsDouble v ∧ 0 ≤ v := by
      intro v hv
      obtain ⟨e, he, rfl⟩ := List.mem_map.mp hv
      exact hd.energy e (hin e he)
    obtain ⟨lf, f1, f2, -⟩ := hp.flashArea
    obtain ⟨lg, g1, g2, -⟩ := hp.groupArea
    have hF : ∀ v ∈ lf.map fun f => f.val.area, IsDouble v ∧ 0 ≤ v := by
      intro v hv
      obtain ⟨f, hf, rfl⟩ := List.mem_map.mp hv
      exact hd.flashArea f (f1 f hf)
    have hG : ∀ v ∈ lg.map fun f => f.val.area, IsDouble v ∧ 0 ≤ v := by
      intro v hv
      obtain ⟨f, hf, rfl⟩ := List.mem_map.mp hv
      exact hd.groupArea f (g1 f hf)
    refine ⟨hp.id, hp.time, hp.count, hp.flashCount, hp.groupCount, hp.minFlashArea, ?_, ?_, ?_, ?_, ?_, ?_⟩
    · rw [hp.x]; exact col _ hd.x _ hs.x
    · rw [hp.y]; exact col _ hd.y _ hs.y
    · have := addsUp_good (hA.sum _ fun v hv => (hE v hv).1) (by rw [List.length_map]; exact hlen)
      rw [sum_abs_self fun v hv => (hE v hv).2, ← hs.energy] at this
      rw [hp.energy]
      refine this.trans (le_of_eq ?_)
      ring
    · rw [hp.energy]
      exact addsUp_nonneg (hA.sum _ fun v hv => (hE v hv).1) fun v hv => (hE v hv).2
    · rw [f2]
      exact addsUp_nonneg (hA.sum _ fun v hv => (hF v hv).1) fun v hv => (hF v hv).2
    · rw [g2]
      exact addsUp_nonneg (hA.sum _ fun v hv => (hG v hv).1) fun v hv => (hG v hv).2
  induction h2 with
  | nil => exact List.Forall₂.nil
  | cons hp _ ih =>
    exact List.Forall₂.cons (key _ _ hp (hst _ List.mem_cons_self).2) (ih fun r hr => hst r (List.mem_cons_of_mem _ hr))

/-! ## Files -/

/-- The chunks of a file and their tables. -/
theorem file_chunks (loc : Rat → Rat → Int) {order : List Int → List Int}
    (ho : ∀ l, (order l).Perm l) (c : Criteria) {n : Nat} (hn : 0 < n) {d : GFile} (t : Int)
    (hdata : HasData d) (hcons : Consistent d) (hder : Derived d) (hfl : UniqueIds d.flashes) (hgr : UniqueIds d.groups) :
    ∃ parts : List (GFile × List LutRow),
      readFlashesChunks order d c n = .ok (parts.map Prod.fst) ∧ parts.length ≤ d.flashes.length / n + 1 ∧
      (∀ p ∈ parts, getLutevents t loc p.1 = .ok p.2 ∧ p.1.events ≠ [] ∧ p.1.events.length ≤ d.events.length ∧
        (∀ e ∈ p.1.events, e ∈ d.events) ∧ (∀ f ∈ p.1.flashes, f ∈ d.flashes) ∧ ∀ g ∈ p.1.groups, g ∈ d.groups) ∧
      ((parts.flatMap Prod.snd).map LutRow.energy).sum = ((askedEvents d c).map fun e => e.val.energy).sum := by
  obtain ⟨ids, hnd, hs, hp, -, hr, -⟩ := readFlashes_ids ho c (n := n) hdata hder hfl hgr
  have hroot : Rooted d := ⟨hcons.groupHasFlash, hder.flashOf⟩
  set cs : List (List Int) := if ids = [] then [] else arraySplit ids (max (ids.length / n) 1) with hcs
  have hchunks : (if ids = [] then [] else (arraySplit ids (max (ids.length / n) 1)).map (keptFlashes d)) =
      cs.map (keptFlashes d) := by
    rw [hcs]; split <;> rfl
  rw [hchunks] at hr
  have hk0 : 0 < max (ids.length / n) 1 := by omega
  have hflat : cs.flatten = ids := by
    rw [hcs]; split
    · rename_i h0; rw [h0]; rfl
    · exact arraySplit_flatten ids hk0
  have hcnd : ∀ cc ∈ cs, cc.Nodup := by
    intro cc hcc
    have := hnd
    rw [← hflat, List.nodup_flatten] at this
    exact this.1 cc hcc
  have hcsub : ∀ cc ∈ cs, ∀ i ∈ cc, i ∈ ids := fun cc hcc i hi => by
    rw [← hflat]; exact List.mem_flatten.mpr ⟨cc, hcc, hi⟩
  have hcne : ∀ cc ∈ cs, cc ≠ [] := by
    intro cc hcc h0
    obtain ⟨chunks', hr'', -, hlen, -⟩ := C20_chunks ho c hn hdata hder hfl hgr
    rw [hr] at hr''
    injection hr'' with hr''
    have := (hlen (keptFlashes d cc) (by rw [← hr'']; exact List.mem_map_of_mem hcc)).1
    rw [h0] at this
    exact absurd this (by simp [keptFlashes, rowsInOrder])
  obtain ⟨tables, ht1, ht2⟩ := mapM_ok_of_forall (f := getLutevents t loc ∘ keptFlashes d)
    (P := fun cc rows => getLutevents t loc (keptFlashes d cc) = .ok rows)
    (l := cs) (by
      intro cc hcc
      obtain ⟨rs, h1, h2⟩ := lut_ok t loc (kept_hasData hcons (hcne cc hcc)
        fun i hi => hs i (hcsub cc hcc i hi)) (kept_rooted hroot cc hgr)
        (kept_unique (hcnd cc hcc) hfl hgr).1 (kept_unique (hcnd cc hcc) hfl hgr).2
      exact ⟨rs, h1, h1⟩)
  have hlen : cs.length = tables.length := ht2.length_eq
  have hz1 : (cs.zip tables).map Prod.fst = cs := List.map_fst_zip (le_of_eq hlen)
  have hz : ∀ q ∈ cs.zip tables, q.1 ∈ cs ∧ getLutevents t loc (keptFlashes d q.1) = .ok q.2 := fun q hq =>
    ⟨(List.of_mem_zip hq).1, List.forall₂_zip ht2 hq⟩
  have hrows : ((cs.zip tables).map fun q => (keptFlashes d q.1, q.2)).flatMap Prod.snd =
      (cs.zip tables).flatMap Prod.snd := by
    rw [List.flatMap_map]
  refine ⟨(cs.zip tables).map fun q => (keptFlashes d q.1, q.2), ?_, ?_, ?_, ?_⟩
  · rw [hr, List.map_map]
    congr 1
    conv_lhs => rw [← hz1, List.map_map]
    rfl
  · rw [List.length_map, ← List.length_map (f := Prod.fst), hz1]
    have h1 : ids.length ≤ d.flashes.length := by
      rw [hp.length_eq, List.length_map]
      unfold askedFor
      split
      · exact le_refl _
      · exact List.length_filter_le _ _
    have h2 : ids.length / n ≤ d.flashes.length / n := Nat.div_le_div_right h1
    rw [hcs]
    split
    · simp
    · rw [arraySplit_length _ hk0]
      have : 0 ≤ d.flashes.length / n := Nat.zero_le _
      exact max_le (by omega) (by omega)
  · intro p hpm
    obtain ⟨q, hq, rfl⟩ := List.mem_map.mp hpm
    obtain ⟨hc1, htab⟩ := hz q hq
    refine ⟨htab, ?_, ?_, ?_, ?_, ?_⟩
    · exact (kept_hasData hcons (hcne q.1 hc1) fun i hi => hs i (hcsub q.1 hc1 i hi)).2.2
    · rw [(kept_events_perm hroot hgr (hcnd q.1 hc1)).length_eq]
      exact List.length_filter_le _ _
    · exact fun e he => (mem_childrenInOrder.mp he).1
    · exact fun f hf => (mem_rowsInOrder.mp hf).1
    · exact fun g hg => (mem_childrenInOrder.mp hg).1
  · rw [hrows, sum_flatMap_map]
    have h1 : ((cs.zip tables).map fun q => (q.2.map LutRow.energy).sum) =
        (cs.zip tables).map fun q => ((keptFlashes d q.1).events.map fun e => e.val.energy).sum :=
      List.map_congr_left fun q hq => (C17_conservation (hz q hq).2).2.2.2.1
    have h2 : ((cs.zip tables).map fun q => ((keptFlashes d q.1).events.map fun e => e.val.energy).sum) =
        ((cs.zip tables).map Prod.fst).map fun cc => ((keptFlashes d cc).events.map fun e => e.val.energy).sum := by
      rw [List.map_map]; rfl
    obtain ⟨-, -, k3⟩ := kept_concat d cs
    rw [hflat] at k3
    have h3 : (keptFlashes d ids).events.Perm (askedEvents d c) := by
      refine (kept_events_perm hroot hgr hnd).trans (List.Perm.of_eq ?_)
      unfold askedEvents
      apply List.filter_congr
      intro e he
      rw [decide_eq_decide, hp.mem_iff, List.mem_map]
      constructor
      · rintro ⟨f, hf, hf2⟩
        exact ⟨f, hf, by rw [hf2]; exact hder.flashOf e he⟩
      · rintro ⟨f, hf, hf2⟩
        exact ⟨f, hf, eventOfFlash_unique hgr hf2 (hder.flashOf e he)⟩
    rw [h1, h2, hz1, ← (h3.map fun e => e.val.energy).sum_eq, ← k3, sum_flatMap_map, List.map_map]
    rfl

/-- A place whose footprint is convex, on the grid, and large enough for the roundings of coordinates and of areas. -/
structure PlaceFl (iclip : IPoly → IPoly → List IPoly) (τ : Nat → Rat → Rat) (n : Nat) (R k ε : Rat) (foot : Pt → Poly)
    (x y : List Rat) (dx dy : Rat) (p : Pt) : Prop where
  within : FootWithin τ ε x y dx dy (foot p)
  large : ShareOk n R k (foot p)
  piece : ∀ i j, i + 1 < y.length → j + 1 < x.length → ∀ s ∈ scaledClip iclip (foot p) (cellRect x y i j), SmallPoly n R s
  search : SearchStable (meanError n R) (scaledClip iclip) x y (foot p)

/-- A file as opened, with its numbers in double precision, and with events in a box, around which there are such places. -/
structure FileFl (iclip : IPoly → IPoly → List IPoly) (τ : Nat → Rat → Rat) (n c : Nat) (R k ε S : Rat) (foot : Pt → Poly)
    (x y : List Rat) (dx dy : Rat) (d : GFile) : Prop where
  hasData : HasData d
  consistent : Consistent d
  derived : Derived d
  flashes : UniqueIds d.flashes
  groups : UniqueIds d.groups
  doubles : DoubleFile S d
  size : d.events.length * max c 1 ≤ 2 ^ 26
  box : ∃ a b a' b' : Rat, (∀ e ∈ d.events, a ≤ e.val.x ∧ e.val.x ≤ b ∧ a' ≤ e.val.y ∧ e.val.y ≤ b') ∧
    ∀ p : Pt, a - S / 2 ^ 25 ≤ p.1 → p.1 ≤ b + S / 2 ^ 25 → a' - S / 2 ^ 25 ≤ p.2 → p.2 ≤ b' + S / 2 ^ 25 →
      PlaceFl iclip τ n R k ε foot x y dx dy p

/-- The relative error of the energy of a chunk: of clipping, of the shares, of the table. -/
def chunkError (c : Nat) (k ε : Rat) : Rat :=
  (1 + 1 / 2 ^ 26) * (1 + (ε + (1 + ε) * (1 / 2 ^ 23 + 4 * k) + 100 * c * k)) - 1

theorem rows_count {t : Int} {loc : Rat → Rat → Int} {d : GFile} {rows : List LutRow}
    (h : getLutevents t loc d = .ok rows) : rows.length ≤ d.events.length := by
  have := congrArg List.length (lut_ids h)
  rw [List.length_map, npUnique_length] at this
  rw [this]
  exact (List.toFinset_card_le _).trans (by rw [List.length_map])

/-- What is sent for a chunk of a file. -/
theorem chunk_sent {A : Arith} (hA : NumpyLike A) {n : Nat} {R k S : Rat} (hn : n ≤ 1000000) (hk : k ≤ 1 / 100)
    (query : List Pt → Pt → Nat → List Nat) {iclip : IPoly → IPoly → List IPoly}
    {τ : Nat → Rat → Rat} (hτ : ClipsWithin iclip τ) (τ0 : ∀ n ℓ, 0 ≤ ℓ → 0 ≤ τ n ℓ)
    (hne : ∀ p q s, s ∈ iclip p q → s ≠ []) {c : Nat} (hc : ∀ p q, (iclip p q).length ≤ c) {ε : Rat} (hε0 : 0 ≤ ε)
    (hε : ε < 1)
    {foot : Pt → Poly} {x y : List Rat} {dx dy : Rat} (basedate : Int) (hx : AxisOk x) (hy : AxisOk y)
    (hsz : 2 < x.length ∨ 2 < y.length) (ux : Spaced x dx) (uy : Spaced y dy) (hdx : 2 / clipperScale ≤ dx)
    (hdy : 2 / clipperScale ≤ dy)
    (hcell : ∀ i j, i + 1 < y.length → j + 1 < x.length → ShareOk n R k (cellRect x y i j))
    {d : GFile} (hd : FileFl iclip τ n c R k ε S foot x y dx dy d) {t : Int} {loc : Rat → Rat → Int} {ch : GFile}
    {rows : List LutRow} (hrows : getLutevents t loc ch = .ok rows) (hchne : ch.events ≠ [])
    (hlen : ch.events.length ≤ d.events.length) (he : ∀ e ∈ ch.events, e ∈ d.events)
    (hf : ∀ f ∈ ch.flashes, f ∈ d.flashes) (hg : ∀ g ∈ ch.groups, g ∈ d.groups) :
    ∃ evs, (do let rows' ← getLuteventsFl A t loc ch
               readChunkFl A (scaledClip iclip) query (fun pts => pts.map foot) (gridMesh x y) basedate rows') =
        .ok evs ∧
      evs ≠ [] ∧ (∀ e ∈ evs, 0 ≤ e.power) ∧ ChildrenOk (x.length - 1) (y.length - 1) [(evs, [])] ∧
      |(evs.map LmaEvent.power).sum - (rows.map LutRow.energy).sum| ≤
        chunkError c k ε * (rows.map LutRow.energy).sum := by
  have hdch : DoubleFile S ch := ⟨fun e h => hd.doubles.x e (he e h), fun e h => hd.doubles.y e (he e h),
    fun e h => hd.doubles.energy e (he e h), fun f h => hd.doubles.flashArea f (hf f h),
    fun g h => hd.doubles.groupArea g (hg g h)⟩
  have hsize := hd.size
  have hsize1 : d.events.length ≤ 2 ^ 26 := (Nat.le_mul_of_pos_right _ (by omega)).trans hsize
  obtain ⟨rows', t1, t2⟩ := C128_table hA hdch (hlen.trans hsize1) hrows
  obtain ⟨a, b, a', b', hbox, hplace⟩ := hd.box
  have hst := (C17_conservation hrows).2.2.1
  have hok : ∀ r' ∈ rows', PlaceFl iclip τ n R k ε foot x y dx dy (r'.x, r'.y) := by
    intro r' hr'
    obtain ⟨r, hr, hcl⟩ := mem_of_forall₂_left t2 hr'
    have hs := (hst r hr).2
    have hin : ∀ ev ∈ eventsAt loc ch r.id, ev ∈ d.events := fun ev hev => he ev (List.mem_filter.mp hev).1
    have h1 := mean_between hs.occupied (fun ev hev => ⟨(hbox ev (hin ev hev)).1, (hbox ev (hin ev hev)).2.1⟩) hs.x
    have h2 := mean_between hs.occupied (fun ev hev => (hbox ev (hin ev hev)).2.2) hs.y
    have h3 := abs_le.mp hcl.x
    have h4 := abs_le.mp hcl.y
    exact hplace _ (by simp only; linarith) (by simp only; linarith) (by simp only; linarith) (by simp only; linarith)
  have hids : rows'.map LutRow.id = rows.map LutRow.id := by
    clear hok t1 hst hrows
    induction t2 with
    | nil => rfl
    | cons h _ ih => rw [List.map_cons, List.map_cons, h.id, ih]
  have hnd : (rows'.map LutRow.id).Nodup := by
    rw [hids]
    exact (C17_conservation hrows).1.imp fun h => ne_of_lt h
  have hlen' : rows'.length ≤ d.events.length := by
    rw [t2.length_eq]
    exact (rows_count hrows).trans hlen
  have hrne : rows' ≠ [] := by
    obtain ⟨e, hev⟩ := List.exists_mem_of_ne_nil _ hchne
    obtain ⟨r, hr, -⟩ := row_of_event hrows hev
    intro h0
    rw [h0] at t2
    cases t2
    simp at hr
  have hpos : ∀ r' ∈ rows', 0 ≤ r'.energy ∧ 0 ≤ r'.totalFlashArea ∧ 0 ≤ r'.totalGroupArea := by
    intro r' hr'
    obtain ⟨r, -, hcl⟩ := mem_of_forall₂_left t2 hr'
    exact hcl.positive
  have hgood : GoodChunk n R k (scaledClip iclip) foot x y rows' := by
    refine ⟨fun r hr => (hok r hr).large, hcell, fun r hr => (hok r hr).piece, ?_, fun r hr => (hok r hr).search,
      fun r hr => (hpos r hr).1,
      fun r hr => (hpos r hr).2.1, fun r hr => (hpos r hr).2.2⟩
    intro i j _ _
    have : (rows'.map fun r => (scaledClip iclip (foot (r.x, r.y)) (cellRect x y i j)).length).sum ≤
        rows'.length * c := by
      have := List.sum_le_card_nsmul (rows'.map fun r => (scaledClip iclip (foot (r.x, r.y)) (cellRect x y i j)).length) c
        (by
          intro v hv
          obtain ⟨r, -, rfl⟩ := List.mem_map.mp hv
          unfold scaledClip
          rw [List.length_map]
          exact hc _ _)
      rwa [List.length_map, smul_eq_mul] at this
    exact this.trans ((Nat.mul_le_mul hlen' (le_max_left c 1)).trans hsize)
  obtain ⟨evs, e1, e2, e3, e4, e5⟩ := rows_energy hA hn hk query hτ τ0 hne hc hε basedate hx hy hsz ux uy hdx hdy hrne
    hnd (fun r hr => (hok r hr).within) hgood
  refine ⟨evs, by rw [t1, ok_bind']; exact e1, e2, e3, e4, ?_⟩
  have hE : |(rows'.map LutRow.energy).sum - (rows.map LutRow.energy).sum| ≤
      1 / 2 ^ 26 * (rows.map LutRow.energy).sum := by
    clear e1 e2 e3 e4 e5 hgood hpos hrne hlen' hnd hids hok t1 hst hrows
    induction t2 with
    | nil => simp
    | cons h _ ih =>
      simp only [List.map_cons, List.sum_cons]
      have h1 := h.energy
      rw [abs_le] at *
      constructor <;> linarith [h1.1, h1.2, ih.1, ih.2]
  have hk0 : 0 ≤ k := hgood.pos hrne
  have hE0 : 0 ≤ (rows'.map LutRow.energy).sum := List.sum_nonneg (by
    intro v hv
    obtain ⟨r, hr, rfl⟩ := List.mem_map.mp hv
    exact (hpos r hr).1)
  unfold chunkError
  have hκ : 0 ≤ ε + (1 + ε) * (1 / 2 ^ 23 + 4 * k) + 100 * c * k := by positivity
  generalize ε + (1 + ε) * (1 / 2 ^ 23 + 4 * k) + 100 * c * k = κ at e5 hκ
  have h1 := abs_sub_le (evs.map LmaEvent.power).sum (rows'.map LutRow.energy).sum (rows.map LutRow.energy).sum
  have h2 : (rows'.map LutRow.energy).sum ≤ (1 + 1 / 2 ^ 26) * (rows.map LutRow.energy).sum := by
    linarith [(abs_le.mp hE).2]
  have h3 := mul_le_mul_of_nonneg_left h2 hκ
  linarith

/-- What is sent for files with the energy `E`. -/
structure SentOk (x y : List Rat) (κ E : Rat) (N : Nat) (sent : List (List LmaEvent)) : Prop where
  power : ∀ evs ∈ sent, ∀ e ∈ evs, 0 ≤ e.power
  cells : ∀ evs ∈ sent, ChildrenOk (x.length - 1) (y.length - 1) [(evs, [])]
  total : |(sent.flatten.map LmaEvent.power).sum - E| ≤ κ * E
  count : sent.length ≤ N

theorem SentOk.append {x y : List Rat} {κ E E' : Rat} {N N' : Nat} {s s' : List (List LmaEvent)}
    (h : SentOk x y κ E N s) (h' : SentOk x y κ E' N' s') : SentOk x y κ (E + E') (N + N') (s ++ s') := by
  refine ⟨?_, ?_, ?_, ?_⟩
  · intro evs he
    rcases List.mem_append.mp he with he | he
    · exact h.power evs he
    · exact h'.power evs he
  · intro evs he
    rcases List.mem_append.mp he with he | he
    · exact h.cells evs he
    · exact h'.cells evs he
  · rw [List.flatten_append, List.map_append, List.sum_append]
    have h1 := h.total
    have h2 := h'.total
    rw [abs_le] at *
    constructor <;> linarith [h1.1, h1.2, h2.1, h2.2]
  · rw [List.length_append]
    exact Nat.add_le_add h.count h'.count

theorem SentOk.nil (x y : List Rat) (κ : Rat) (N : Nat) : SentOk x y κ 0 N [] :=
  ⟨fun _ h => absurd h (List.not_mem_nil), fun _ h => absurd h (List.not_mem_nil), by simp, by simp⟩

/-- What is sent for a file. -/
theorem file_sent {A : Arith} (hA : NumpyLike A) {n : Nat} {R k S : Rat} (hn : n ≤ 1000000) (hk : k ≤ 1 / 100)
    (query : List Pt → Pt → Nat → List Nat) {iclip : IPoly → IPoly → List IPoly}
    {τ : Nat → Rat → Rat} (hτ : ClipsWithin iclip τ) (τ0 : ∀ n ℓ, 0 ≤ ℓ → 0 ≤ τ n ℓ)
    (hne : ∀ p q s, s ∈ iclip p q → s ≠ []) {m : Nat} (hm : ∀ p q, (iclip p q).length ≤ m) {ε : Rat} (hε0 : 0 ≤ ε)
    (hε : ε < 1)
    {foot : Pt → Poly} {x y : List Rat} {dx dy : Rat} (basedate : Int) (hx : AxisOk x) (hy : AxisOk y)
    (hsz : 2 < x.length ∨ 2 < y.length) (ux : Spaced x dx) (uy : Spaced y dy) (hdx : 2 / clipperScale ≤ dx)
    (hdy : 2 / clipperScale ≤ dy)
    (hcell : ∀ i j, i + 1 < y.length → j + 1 < x.length → ShareOk n R k (cellRect x y i j))
    (loc : Rat → Rat → Int) {order : List Int → List Int} (ho : ∀ l, (order l).Perm l) (c : Criteria) {size : Nat}
    (hs : 0 < size) (t : Int)
    {d : GFile} (hd : FileFl iclip τ n m R k ε S foot x y dx dy d) :
    ∃ sent, readFlashesFl A (scaledClip iclip) query (fun pts => pts.map foot) (gridMesh x y) basedate loc order c size
        t d = .ok sent ∧
      SentOk x y (chunkError m k ε) ((askedEvents d c).map fun e => e.val.energy).sum
        (d.flashes.length / size + 1) sent := by
  obtain ⟨parts, p1, pn, p2, p3⟩ := file_chunks loc ho c hs t hd.hasData hd.consistent hd.derived hd.flashes hd.groups
  rw [← p3]
  unfold readFlashesFl
  rw [p1, ok_bind']
  clear p1 p3
  suffices h : ∃ sent, ((parts.map Prod.fst).mapM fun ch => do
      let rows ← getLuteventsFl A t loc ch
      readChunkFl A (scaledClip iclip) query (fun pts => pts.map foot) (gridMesh x y) basedate rows) = .ok sent ∧
      (∀ evs ∈ sent, evs ≠ []) ∧
      SentOk x y (chunkError m k ε) ((parts.flatMap Prod.snd).map LutRow.energy).sum parts.length sent by
    obtain ⟨sent, s1, s2, s3⟩ := h
    refine ⟨sent, ?_, ⟨s3.power, s3.cells, s3.total, s3.count.trans pn⟩⟩
    rw [s1, ok_bind']
    have : (sent.filter fun evs => evs.length ≥ 1) = sent := by
      rw [List.filter_eq_self]
      intro evs he
      simpa [Nat.one_le_iff_ne_zero] using s2 evs he
    rw [this]
    rfl
  clear pn
  induction parts with
  | nil => exact ⟨[], rfl, fun _ h => absurd h (List.not_mem_nil), SentOk.nil _ _ _ _⟩
  | cons p parts ih =>
    obtain ⟨sent, s1, s2, s3⟩ := ih fun q hq => p2 q (List.mem_cons_of_mem _ hq)
    obtain ⟨q1, q2, q3, q4, q5, q6⟩ := p2 p List.mem_cons_self
    obtain ⟨evs, e1, e2, e3, e4, e5⟩ := chunk_sent hA hn hk query hτ τ0 hne hm hε0 hε basedate hx hy hsz ux uy hdx hdy
      hcell hd q1 q2 q3 q4 q5 q6
    refine ⟨evs :: sent, ?_, ?_, ?_⟩
    · rw [List.map_cons, List.mapM_cons, e1, ok_bind', s1]
      rfl
    · intro e he
      rcases List.mem_cons.mp he with rfl | he
      · exact e2
      · exact s2 e he
    · rw [List.flatMap_cons, List.map_append, List.sum_append]
      have h1 : SentOk x y (chunkError m k ε) (p.2.map LutRow.energy).sum 1 [evs] := by
        refine ⟨?_, ?_, ?_, le_refl _⟩
        · intro v hv; rw [List.mem_singleton] at hv; subst hv; exact e3
        · intro v hv; rw [List.mem_singleton] at hv; subst hv; exact e4
        · simpa using e5
      rw [List.length_cons, add_comm parts.length]
      exact h1.append s3

/-- The number of chunks into which the flashes of files are split, at most. -/
def chunkCount (size : Nat) (files : List (Int × GFile)) : Nat :=
  (files.map fun d => d.2.flashes.length / size + 1).sum

/-- What is sent for all files. -/
theorem files_sent {A : Arith} (hA : NumpyLike A) {n : Nat} {R k S : Rat} (hn : n ≤ 1000000) (hk : k ≤ 1 / 100)
    (query : List Pt → Pt → Nat → List Nat) {iclip : IPoly → IPoly → List IPoly}
    {τ : Nat → Rat → Rat} (hτ : ClipsWithin iclip τ) (τ0 : ∀ n ℓ, 0 ≤ ℓ → 0 ≤ τ n ℓ)
    (hne : ∀ p q s, s ∈ iclip p q → s ≠ []) {m : Nat} (hm : ∀ p q, (iclip p q).length ≤ m) {ε : Rat} (hε0 : 0 ≤ ε)
    (hε : ε < 1)
    {foot : Pt → Poly} {x y : List Rat} {dx dy : Rat} (basedate : Int) (hx : AxisOk x) (hy : AxisOk y)
    (hsz : 2 < x.length ∨ 2 < y.length) (ux : Spaced x dx) (uy : Spaced y dy) (hdx : 2 / clipperScale ≤ dx)
    (hdy : 2 / clipperScale ≤ dy)
    (hcell : ∀ i j, i + 1 < y.length → j + 1 < x.length → ShareOk n R k (cellRect x y i j))
    (loc : Rat → Rat → Int) {order : List Int → List Int} (ho : ∀ l, (order l).Perm l) (c : Criteria) {size : Nat}
    (hs : 0 < size) (files : List (Int × GFile))
    (hf : ∀ d ∈ files, d.2.events ≠ [] → FileFl iclip τ n m R k ε S foot x y dx dy d.2) :
    ∃ sent, readFilesFl A (scaledClip iclip) query (fun pts => pts.map foot) (gridMesh x y) basedate loc order c size
        files = .ok sent ∧
      SentOk x y (chunkError m k ε) (askedEnergy c files) (chunkCount size files) sent := by
  unfold readFilesFl
  suffices h : ∃ sents, (files.mapM fun f => if f.2.events.length > 0 then
      readFlashesFl A (scaledClip iclip) query (fun pts => pts.map foot) (gridMesh x y) basedate loc order c size f.1 f.2
      else pure []) = .ok sents ∧ SentOk x y (chunkError m k ε) (askedEnergy c files) (chunkCount size files) sents.flatten by
    obtain ⟨sents, s1, s2⟩ := h
    exact ⟨sents.flatten, by rw [s1, ok_bind']; rfl, s2⟩
  induction files with
  | nil => exact ⟨[], rfl, SentOk.nil _ _ _ _⟩
  | cons d files ih =>
    obtain ⟨sents, s1, s2⟩ := ih fun d' hd' => hf d' (List.mem_cons_of_mem _ hd')
    have hstep : ∃ sent, (if d.2.events.length > 0 then
        readFlashesFl A (scaledClip iclip) query (fun pts => pts.map foot) (gridMesh x y) basedate loc order c size
          d.1 d.2 else pure []) = Except.ok (ε := Err) sent ∧
        SentOk x y (chunkError m k ε) ((askedEvents d.2 c).map fun e => e.val.energy).sum
          (d.2.flashes.length / size + 1) sent := by
      by_cases he : d.2.events = []
      · refine ⟨[], ?_, ?_⟩
        · rw [if_neg (by rw [he]; simp)]; rfl
        · have : askedEvents d.2 c = [] := by unfold askedEvents; rw [he]; rfl
          rw [this]
          exact SentOk.nil _ _ _ _
      · rw [if_pos (List.length_pos_iff.mpr he)]
        exact file_sent hA hn hk query hτ τ0 hne hm hε0 hε basedate hx hy hsz ux uy hdx hdy hcell loc ho c hs d.1
          (hf d List.mem_cons_self he)
    obtain ⟨sent, e1, e2⟩ := hstep
    refine ⟨sent :: sents, ?_, ?_⟩
    · rw [List.mapM_cons, e1, ok_bind', s1]
      rfl
    · rw [List.flatten_cons]
      have : askedEnergy c (d :: files) = ((askedEvents d.2 c).map fun e => e.val.energy).sum + askedEnergy c files := by
        unfold askedEnergy
        rw [List.map_cons, List.sum_cons]
      rw [this]
      have : chunkCount size (d :: files) = d.2.flashes.length / size + 1 + chunkCount size files := by
        unfold chunkCount
        rw [List.map_cons, List.sum_cons]
      rw [this]
      exact e2.append s2

/-! ## The grids -/

theorem receiveFl_fold (A : Arith) (points : Grid → List LmaParent → Grid) {name : String} {col : LmaEvent → Rat}
    (h : ∀ e, LmaEvent.column name e = .ok (col e)) (step : Grid → List IdxRow → Except Err Grid)
    (a : Accum) (ha : (a = .var name "mesh_xi" "mesh_yi" ∧ step = accumulateVarSingle A.store) ∨
      (a = .minvar name "mesh_xi" "mesh_yi" ∧ step = accumulateMinvarSingle A.store))
    (frames : List (List LmaEvent × List LmaParent)) (g g' : Grid)
    (hs : sendAll step g (frames.map fun f => rowsOf col f.1) = (g', none)) :
    frames.foldlM (a.receiveFl A points) g = .ok g' := by
  induction frames generalizing g with
  | nil => cases hs; rfl
  | cons f frames ih =>
    rw [List.map_cons, sendAll] at hs
    cases hst : step g (rowsOf col f.1) with
    | error e => rw [hst] at hs; cases hs
    | ok g1 =>
      rw [hst] at hs
      have hrec : a.receiveFl A points g f = .ok g1 := by
        rcases ha with ⟨rfl, rfl⟩ | ⟨rfl, rfl⟩
        all_goals
          unfold Accum.receiveFl
          simp only
          split
          · rw [readRows_ok h]
            exact hst
          · rename_i hz
            have hz : f.1 = [] := List.eq_nil_of_length_eq_zero (by omega)
            rw [hz] at hst
            exact hst
      rw [List.foldlM_cons, hrec]
      exact ih g1 hs

theorem receiveFl_var (A : Arith) (points : Grid → List LmaParent → Grid) {name : String} {col : LmaEvent → Rat}
    (h : ∀ e, LmaEvent.column name e = .ok (col e)) {nx ny : Nat}
    {frames : List (List LmaEvent × List LmaParent)} (hf : ChildrenOk nx ny frames) :
    ∃ g', frames.foldlM ((Accum.var name "mesh_xi" "mesh_yi").receiveFl A points) (Grid.zeros nx ny) =
        .ok g' ∧ g'.n0 = nx ∧ g'.n1 = ny ∧
      ∀ i j, g'.val i j = addRounded A.store 0 ((onCell i j frames).map col) := by
  obtain ⟨o1, o2⟩ := rowsOf_ok hf col
  obtain ⟨g', e, s0, s1, v⟩ := single_all A.store _ _ o1 o2
  refine ⟨g', receiveFl_fold A points h _ _ (Or.inl ⟨rfl, rfl⟩) _ _ _ e, s0, s1, fun i j => ?_⟩
  rw [v, sentTo_rowsOf]
  rfl

theorem receiveFl_minvar {A : Arith} (hA : A.store = roundSingle) (points : Grid → List LmaParent → Grid) {name : String}
    {col : LmaEvent → Rat}
    (h : ∀ e, LmaEvent.column name e = .ok (col e)) {nx ny : Nat}
    {frames : List (List LmaEvent × List LmaParent)} (hf : ChildrenOk nx ny frames) :
    ∃ g', frames.foldlM ((Accum.minvar name "mesh_xi" "mesh_yi").receiveFl A points) (Grid.zeros nx ny) =
        .ok g' ∧ g'.n0 = nx ∧ g'.n1 = ny ∧
      ((∀ f ∈ frames, ∀ e ∈ f.1, 0 < col e) → ∀ i j least, LeastOrZero ((onCell i j frames).map col) least →
        g'.val i j = roundSingle least) := by
  obtain ⟨o1, o2⟩ := rowsOf_ok hf col
  have key : ∀ (dss : List (List IdxRow)) (g : Grid), (∀ ds ∈ dss, OnGrid g ds) →
      ∃ g', sendAll (accumulateMinvarSingle A.store) g dss = (g', none) ∧ g'.n0 = g.n0 ∧ g'.n1 = g.n1 := by
    intro dss
    induction dss with
    | nil => intro g _; exact ⟨g, rfl, rfl, rfl⟩
    | cons ds dss ih =>
      intro g hg
      obtain ⟨g1, e1, s0, s1, -⟩ := minvar_step (cells_cast A.store (hg ds List.mem_cons_self))
      obtain ⟨g2, e2, t0, t1⟩ := ih g1 (fun d hd r hr => by
        rw [s0, s1]
        exact hg d (List.mem_cons_of_mem _ hd) r hr)
      refine ⟨g2, ?_, t0.trans s0, t1.trans s1⟩
      rw [sendAll]
      unfold accumulateMinvarSingle
      rw [e1]
      exact e2
  obtain ⟨g', e, s0, s1⟩ := key _ _ o1
  refine ⟨g', receiveFl_fold A points h _ _ (Or.inr ⟨rfl, rfl⟩) _ _ _ e, s0, s1, fun hp i j least hl => ?_⟩
  obtain ⟨g2, e2, -, -, v⟩ := C108_min (fl := roundSingle) (fun v w => roundSingle_mono) roundSingle_zero
    (fun v => roundSingle_pos) nx ny _ o1 o2 (by
      intro ds hds r hr
      obtain ⟨f, hf, rfl⟩ := List.mem_map.mp hds
      obtain ⟨e, he, rfl⟩ := List.mem_map.mp hr
      exact hp f hf e he)
  rw [hA, e2] at e
  injection e with e
  rw [← e]
  exact v i j least (by rw [sentTo_rowsOf]; exact hl)

/-- C128, the grids of the pipelines: each cell of a sum is added up in single precision, and the least flash areas are
rounded once. -/
theorem C128_grids {A : Arith} (hA : A.store = roundSingle) (points : Grid → List LmaParent → Grid) (label : String) (nx ny : Nat)
    (frames : String → List (List LmaEvent × List LmaParent)) (h : ∀ k, ChildrenOk nx ny (frames k)) :
    ∃ outgrids grids fed fcd fa te ged gcd ga mfa,
      lutPipelineSetup = .ok outgrids ∧ gridFrameFl A points nx ny outgrids frames = .ok grids ∧
      grids.length = 8 ∧ (∀ g ∈ [fed, fa, te, ged, ga, mfa], g.n0 = nx ∧ g.n1 = ny) ∧
      (gridNamed label grids "flash_extent_density" = some fed ∧
        ∀ i j, fed.val i j = addRounded roundSingle 0 ((onCell i j (frames "flash")).map LmaEvent.flashCount)) ∧
      (gridNamed label grids "flash_centroid_density" = some fcd ∧
        fcd = (frames "flash").foldl (fun g f => points g f.2) (Grid.zeros nx ny)) ∧
      (gridNamed label grids "average_flash_area" = some fa ∧
        ∀ i j, fa.val i j = addRounded roundSingle 0 ((onCell i j (frames "flash")).map LmaEvent.totalFlashArea)) ∧
      (gridNamed label grids "total_energy" = some te ∧
        ∀ i j, te.val i j = addRounded roundSingle 0 ((onCell i j (frames "event")).map LmaEvent.power)) ∧
      (gridNamed label grids "group_extent_density" = some ged ∧
        ∀ i j, ged.val i j = addRounded roundSingle 0 ((onCell i j (frames "group")).map LmaEvent.groupCount)) ∧
      (gridNamed label grids "group_centroid_density" = some gcd ∧
        gcd = (frames "group").foldl (fun g f => points g f.2) (Grid.zeros nx ny)) ∧
      (gridNamed label grids "average_group_area" = some ga ∧
        ∀ i j, ga.val i j = addRounded roundSingle 0 ((onCell i j (frames "group")).map LmaEvent.totalGroupArea)) ∧
      (gridNamed label grids "minimum_flash_area" = some mfa ∧
        ((∀ f ∈ frames "flash", ∀ e ∈ f.1, 0 < e.minFlashArea) → ∀ i j least,
          LeastOrZero ((onCell i j (frames "flash")).map LmaEvent.minFlashArea) least →
            mfa.val i j = roundSingle least)) := by
  have hst : addRounded A.store = addRounded roundSingle := by rw [hA]
  have pts : ∀ (fs : List (List LmaEvent × List LmaParent)) (g : Grid),
      fs.foldlM (Accum.points.receiveFl A points) g =
        .ok (fs.foldl (fun g f => points g f.2) g) := by
    intro fs
    induction fs with
    | nil => intro g; rfl
    | cons f fs ih => intro g; rw [List.foldlM_cons]; exact ih _
  obtain ⟨fed, e1, a1, b1, v1⟩ := receiveFl_var A points (name := "lutevent_flash_count")
    (col := LmaEvent.flashCount) (fun e => rfl) (h "flash")
  obtain ⟨fa, e2, a2, b2, v2⟩ := receiveFl_var A points (name := "lutevent_total_flash_area")
    (col := LmaEvent.totalFlashArea) (fun e => rfl) (h "flash")
  obtain ⟨te, e3, a3, b3, v3⟩ := receiveFl_var A points (name := "power")
    (col := LmaEvent.power) (fun e => rfl) (h "event")
  obtain ⟨ged, e4, a4, b4, v4⟩ := receiveFl_var A points (name := "lutevent_group_count")
    (col := LmaEvent.groupCount) (fun e => rfl) (h "group")
  obtain ⟨ga, e5, a5, b5, v5⟩ := receiveFl_var A points (name := "lutevent_total_group_area")
    (col := LmaEvent.totalGroupArea) (fun e => rfl) (h "group")
  obtain ⟨mfa, e6, a6, b6, v6⟩ := receiveFl_minvar hA points (name := "lutevent_min_flash_area")
    (col := LmaEvent.minFlashArea) (fun e => rfl) (h "flash")
  rw [hst] at v1 v2 v3 v4 v5
  refine ⟨_, [fed, _, fa, te, ged, _, ga, mfa], fed, _, fa, te, ged, _, ga, mfa, rfl, ?_, rfl, ?_,
    ⟨rfl, v1⟩, ⟨rfl, rfl⟩, ⟨rfl, v2⟩, ⟨rfl, v3⟩, ⟨rfl, v4⟩, ⟨rfl, rfl⟩, ⟨rfl, v5⟩, ⟨rfl, v6⟩⟩
  · unfold gridFrameFl
    simp only [List.mapM_cons, List.mapM_nil, e1, e2, e3, e4, e5, e6, pts, bind, Except.bind, pure,
      Except.pure]
  · simp only [List.forall_mem_cons]
    simp [a1, b1, a2, b2, a3, b3, a4, b4, a5, b5, a6, b6]

theorem addRounded_close {fl : Rat → Rat} {u : Rat} (hu : 0 ≤ u) (hf : ∀ v, |fl v - v| ≤ u * |v|) (vs : List Rat) :
    ∀ (k : Nat) (acc s : Rat), 0 ≤ s → (∀ v ∈ vs, 0 ≤ v) → |acc - s| ≤ ((1 + u) ^ (k + 1) - 1) * s →
    |addRounded fl acc vs - (s + vs.sum)| ≤ ((1 + u) ^ (k + vs.length + 1) - 1) * (s + vs.sum) := by
  induction vs with
  | nil => intro k acc s _ _ h; simpa [addRounded] using h
  | cons v vs ih =>
    intro k acc s hs hv h
    have hv0 := hv v List.mem_cons_self
    have p1 : 1 ≤ (1 + u) ^ k := one_le_pow₀ (by linarith)
    have e1 : (1 + u) ^ (k + 1) = (1 + u) * (1 + u) ^ k := by rw [pow_succ]; ring
    have e2 : (1 + u) ^ (k + 2) = (1 + u) * (1 + u) ^ (k + 1) := by rw [pow_succ]; ring
    have hup : u ≤ (1 + u) ^ (k + 1) - 1 := by
      rw [e1]
      have := mul_le_mul_of_nonneg_left p1 (show 0 ≤ 1 + u by linarith)
      linarith
    have h1 : |fl v - v| ≤ ((1 + u) ^ (k + 1) - 1) * v := by
      have := hf v
      rw [abs_of_nonneg hv0] at this
      exact this.trans (mul_le_mul_of_nonneg_right hup hv0)
    have h2 : |acc + fl v - (s + v)| ≤ ((1 + u) ^ (k + 1) - 1) * (s + v) := by
      have e : acc + fl v - (s + v) = (acc - s) + (fl v - v) := by ring
      rw [e]
      have := abs_add_le (acc - s) (fl v - v)
      linarith
    have hsv : 0 ≤ s + v := by linarith
    have h3 : |acc + fl v| ≤ (1 + u) ^ (k + 1) * (s + v) := by
      have := abs_sub_abs_le_abs_sub (acc + fl v) (s + v)
      rw [abs_of_nonneg hsv] at this
      linarith
    have h4 : |fl (acc + fl v) - (s + v)| ≤ ((1 + u) ^ (k + 1 + 1) - 1) * (s + v) := by
      have a := abs_sub_le (fl (acc + fl v)) (acc + fl v) (s + v)
      have b := hf (acc + fl v)
      have c := mul_le_mul_of_nonneg_left h3 hu
      have e : ((1 + u) ^ (k + 1 + 1) - 1) * (s + v) =
          u * ((1 + u) ^ (k + 1) * (s + v)) + ((1 + u) ^ (k + 1) - 1) * (s + v) := by rw [e2]; ring
      rw [e]
      linarith
    have := ih (k + 1) (fl (acc + fl v)) (s + v) hsv (fun w hw => hv w (List.mem_cons_of_mem _ hw)) h4
    rw [List.sum_cons, List.length_cons, ← add_assoc, show k + (vs.length + 1) + 1 = k + 1 + vs.length + 1 from by omega]
    exact this

/-- All cells together hold what the frames hold. -/
theorem total_onCell (col : LmaEvent → Rat) (nx ny : Nat) (evs : List LmaEvent)
    (h : ∀ e ∈ evs, e.meshYi < nx ∧ e.meshXi < ny) :
    ((List.range nx).map fun i => ((List.range ny).map fun j =>
      ((evs.filter fun e => e.meshYi = i ∧ e.meshXi = j).map col).sum).sum).sum = (evs.map col).sum := by
  induction evs with
  | nil => simp
  | cons e evs ih =>
    rw [List.map_cons, List.sum_cons, ← ih fun e he => h e (List.mem_cons_of_mem _ he)]
    obtain ⟨h1, h2⟩ := h e List.mem_cons_self
    have e1 : ∀ i j, (((e :: evs).filter fun e => e.meshYi = i ∧ e.meshXi = j).map col).sum =
        (if j = e.meshXi then (if i = e.meshYi then col e else 0) else 0) +
          ((evs.filter fun e => e.meshYi = i ∧ e.meshXi = j).map col).sum := by
      intro i j
      rw [List.filter_cons]
      by_cases ha : i = e.meshYi
      · by_cases hb : j = e.meshXi
        · simp [ha, hb]
        · simp [ha, hb, Ne.symm hb]
      · simp [ha, Ne.symm ha]
    simp only [e1, List.sum_map_add]
    congr 1
    have one : ∀ (n a : Nat) (v : Rat), a < n → ((List.range n).map fun i => if i = a then v else 0).sum = v := by
      intro n a v ha
      rw [List.sum_map_ite_eq, List.count_eq_one_of_mem List.nodup_range (List.mem_range.mpr ha)]
      simp
    simp only [one _ _ _ h2, one _ _ _ h1]

/-- No more rows arrive at a cell than frames. -/
theorem onCell_count {nx ny : Nat} (i j : Nat) {frames : List (List LmaEvent × List LmaParent)}
    (h : ChildrenOk nx ny frames) : (onCell i j frames).length ≤ frames.length := by
  induction frames with
  | nil => simp [onCell]
  | cons f frames ih =>
    have h1 := ih fun g hg => h g (List.mem_cons_of_mem _ hg)
    unfold onCell at h1 ⊢
    rw [List.flatMap_cons, List.filter_append, List.length_append, List.length_cons]
    have h2 : (f.1.filter fun e => e.meshYi = i ∧ e.meshXi = j).length ≤ 1 := by
      have hn := (h f List.mem_cons_self).2
      have : ((f.1.filter fun e => e.meshYi = i ∧ e.meshXi = j).map fun e => (e.meshYi, e.meshXi)).Nodup :=
        (List.filter_sublist.map _).nodup hn
      have hc : (f.1.filter fun e => e.meshYi = i ∧ e.meshXi = j).map (fun e => (e.meshYi, e.meshXi)) =
          List.replicate (f.1.filter fun e => e.meshYi = i ∧ e.meshXi = j).length (i, j) := by
        rw [List.eq_replicate_iff]
        refine ⟨List.length_map _, ?_⟩
        intro v hv
        obtain ⟨e, he, rfl⟩ := List.mem_map.mp hv
        have := (List.mem_filter.mp he).2
        simp only [decide_eq_true_eq] at this
        rw [this.1, this.2]
      rw [hc, List.nodup_replicate] at this
      exact this
    omega

/-- **C128**: the cells of the grid of total energy, with the roundings of the lookup table, of the coordinates in the
clipper, of the areas and shares, of the columns that are sent and of the sums of the grid, add up to the energy of the
events of the flashes that are asked for, up to a part of it that does not depend on the energies. -/
theorem C128_energy {A : Arith} (hA : NumpyLike A) {n : Nat} {R k S : Rat} (hn : n ≤ 1000000) (hk : k ≤ 1 / 100)
    (query : List Pt → Pt → Nat → List Nat) {iclip : IPoly → IPoly → List IPoly}
    {τ : Nat → Rat → Rat} (hτ : ClipsWithin iclip τ) (τ0 : ∀ n ℓ, 0 ≤ ℓ → 0 ≤ τ n ℓ)
    (hne : ∀ p q s, s ∈ iclip p q → s ≠ []) {m : Nat} (hm : ∀ p q, (iclip p q).length ≤ m) {ε : Rat} (hε0 : 0 ≤ ε)
    (hε : ε < 1)
    {foot : Pt → Poly} {x y : List Rat} {dx dy : Rat} (basedate : Int) (hx : AxisOk x) (hy : AxisOk y)
    (hsz : 2 < x.length ∨ 2 < y.length) (ux : Spaced x dx) (uy : Spaced y dy) (hdx : 2 / clipperScale ≤ dx)
    (hdy : 2 / clipperScale ≤ dy)
    (hcell : ∀ i j, i + 1 < y.length → j + 1 < x.length → ShareOk n R k (cellRect x y i j))
    (loc : Rat → Rat → Int) {order : List Int → List Int} (ho : ∀ l, (order l).Perm l) (c : Criteria) {size : Nat}
    (hs : 0 < size) (files : List (Int × GFile))
    (hf : ∀ d ∈ files, d.2.events ≠ [] → FileFl iclip τ n m R k ε S foot x y dx dy d.2)
    (points : Grid → List LmaParent → Grid) (label : String) (par : String → List LmaEvent → List LmaParent) :
    ∃ sent outgrids grids te,
      readFilesFl A (scaledClip iclip) query (fun pts => pts.map foot) (gridMesh x y) basedate loc order c size
        files = .ok sent ∧
      lutPipelineSetup = .ok outgrids ∧
      gridFrameFl A points (x.length - 1) (y.length - 1) outgrids (fun k => sent.map fun evs => (evs, par k evs)) =
        .ok grids ∧
      gridNamed label grids "total_energy" = some te ∧
      |gridTotal x y te - askedEnergy c files| ≤
        ((1 + chunkError m k ε) * (1 + 1 / 2 ^ 24) ^ (chunkCount size files + 1) - 1) * askedEnergy c files := by
  obtain ⟨sent, s1, s2⟩ := files_sent hA hn hk query hτ τ0 hne hm hε0 hε basedate hx hy hsz ux uy hdx hdy hcell loc ho c
    hs files hf
  have hch : ∀ k, ChildrenOk (x.length - 1) (y.length - 1) (sent.map fun evs => (evs, par k evs)) := by
    intro k f hf
    obtain ⟨evs, he, rfl⟩ := List.mem_map.mp hf
    exact s2.cells evs he (evs, []) (List.mem_singleton.mpr rfl)
  obtain ⟨outgrids, grids, -, -, -, te, -, -, -, -, g1, g2, -, -, -, -, -, ⟨g3, g4⟩, -⟩ :=
    C128_grids hA.store points label _ _ _ hch
  refine ⟨sent, outgrids, grids, te, s1, g1, g2, g3, ?_⟩
  set frames := sent.map fun evs => (evs, par "event" evs) with hfr
  have hflat : frames.flatMap Prod.fst = sent.flatten := by
    rw [hfr, List.flatMap_map]
    exact List.flatMap_id
  have hpow : ∀ e ∈ sent.flatten, 0 ≤ e.power := by
    intro e he
    obtain ⟨evs, h1, h2⟩ := List.mem_flatten.mp he
    exact s2.power evs h1 e h2
  have hcellb : ∀ e ∈ sent.flatten, e.meshYi < x.length - 1 ∧ e.meshXi < y.length - 1 := by
    intro e he
    obtain ⟨evs, h1, h2⟩ := List.mem_flatten.mp he
    exact (s2.cells evs h1 (evs, []) (List.mem_singleton.mpr rfl)).1 e h2
  set u : Rat := 1 / 2 ^ 24 with hu
  have hu0 : 0 ≤ u := by rw [hu]; norm_num
  have hval : ∀ i j, |te.val i j - ((onCell i j frames).map LmaEvent.power).sum| ≤
      ((1 + u) ^ (chunkCount size files + 1) - 1) * ((onCell i j frames).map LmaEvent.power).sum := by
    intro i j
    have hp0 : ∀ v ∈ (onCell i j frames).map LmaEvent.power, 0 ≤ v := by
      intro v hv
      obtain ⟨e, he, rfl⟩ := List.mem_map.mp hv
      refine hpow e ?_
      rw [← hflat]
      exact (List.mem_filter.mp he).1
    have h1 := addRounded_close hu0 single_near' ((onCell i j frames).map LmaEvent.power) 0 0 0 (le_refl _) hp0 (by simp)
    rw [zero_add, zero_add, List.length_map] at h1
    rw [g4]
    refine h1.trans (mul_le_mul_of_nonneg_right ?_ (List.sum_nonneg hp0))
    have : (onCell i j frames).length ≤ chunkCount size files :=
      (onCell_count i j (hch "event")).trans (by rw [List.length_map]; exact s2.count)
    have := pow_le_pow_right₀ (show 1 ≤ 1 + u by linarith) (Nat.add_le_add_right this 1)
    linarith
  have htot : |gridTotal x y te - (sent.flatten.map LmaEvent.power).sum| ≤
      ((1 + u) ^ (chunkCount size files + 1) - 1) * (sent.flatten.map LmaEvent.power).sum := by
    rw [← total_onCell LmaEvent.power (x.length - 1) (y.length - 1) sent.flatten hcellb]
    unfold gridTotal
    have two : ∀ {l : List Nat} {f g : Nat → Rat} {K : Rat}, (∀ i ∈ l, |f i - g i| ≤ K * g i) →
        |(l.map f).sum - (l.map g).sum| ≤ K * (l.map g).sum := by
      intro l f g K h
      induction l with
      | nil => simp
      | cons a l ih =>
        simp only [List.map_cons, List.sum_cons]
        have h1 := h a List.mem_cons_self
        have h2 := ih fun i hi => h i (List.mem_cons_of_mem _ hi)
        rw [abs_le] at *
        constructor <;> linarith [h1.1, h1.2, h2.1, h2.2]
    refine two fun i _ => two fun j _ => ?_
    have := hval i j
    unfold onCell at this
    rwa [hflat] at this
  have htt := s2.total
  have hP0 : 0 ≤ (sent.flatten.map LmaEvent.power).sum := List.sum_nonneg (by
    intro v hv
    obtain ⟨e, he, rfl⟩ := List.mem_map.mp hv
    exact hpow e he)
  have hpw : 1 ≤ (1 + u) ^ (chunkCount size files + 1) := one_le_pow₀ (by linarith)
  generalize (1 + u) ^ (chunkCount size files + 1) = q at htot hpw ⊢
  generalize (sent.flatten.map LmaEvent.power).sum = P at htot htt hP0
  generalize askedEnergy c files = E at htt ⊢
  generalize chunkError m k ε = κ at htt ⊢
  have h1 := abs_sub_le (gridTotal x y te) P E
  have h2 : P ≤ (1 + κ) * E := by linarith [(abs_le.mp htt).2]
  have h3 := mul_le_mul_of_nonneg_left h2 (show 0 ≤ q - 1 by linarith)
  linarith

end Verif.Props
