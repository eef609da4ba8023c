import Verif.Props.Frames
import Verif.Props.Aggregate
import Verif.Model.Store

/-!
# C151: aggregating the images of short frames

Images of short frames can be read again as a time series and be aggregated.  One expects the images that a call with long
frames would have written.  The intervals of `aggregate` are open on the left and closed on the right, while frames are named
by their start and do not include their end; so the frame that starts with an interval is counted in the one before.
-/

namespace Verif.Props

open Verif.Py Verif.Model Verif.Spec Verif.Proofs

/-! ## Specification -/

/-- The instant that is so many seconds after the base date. -/
def instantAt (basedate : Int) (seconds : Rat) : Int := basedate + ⌊seconds * 1000000000⌋

/-- The images of a tile, written without packing and read again as a time series. -/
def readSeries (overflow : Rat → Option Rat) (basedate : Int) (r : TileRun TileState ImageFile) : Except Err TimeSeries :=
  openGlmTimeSeries eightNames (r.written.map fun nf => storeFile overflow false (instantAt basedate) nf.2)

/-- The fields that can be aggregated: counts, energy, the average area of flashes and the least area of flashes. -/
def aggregatedFields : List String :=
  ["flash_extent_density", "group_extent_density", "total_energy", "average_flash_area", "minimum_flash_area"]

/-- An interval shows the values of an image; what is missing is as good as 0. -/
def ShowsImage (b : AggBin) (f : ImageFile) : Prop :=
  ∀ name ∈ aggregatedFields, ∀ img, (name, img) ∈ f.fields → ∀ row col, row < img.rows → col < img.cols →
    (b.value name (row, col)).getD 0 = img.val row col

/-- The same tile in a call with short frames and in a call with long frames, both without packing. -/
structure SameTile (env : Surroundings) (F G : Framing) (kw shared : Dict) (files : List GFile)
    (r r' : TileRun TileState ImageFile) : Prop where
  short : ∃ runs shared', gridGlmFlashes (framesGridder env F) files kw shared = .ok (runs, shared') ∧ r ∈ runs
  long : ∃ runs shared', gridGlmFlashes (framesGridder env G) files kw shared = .ok (runs, shared') ∧ r' ∈ runs
  place : r.ij = r'.ij
  floats : r.scale = .bool false
  floats' : r'.scale = .bool false

/-- C151: an interval of the aggregate, from the start to the end of a long frame that is made of short frames, shows the
image of the long frame. -/
def C151_full : Prop := ∀ (env : Surroundings) (F G : Framing) (order : List Int → List Int) (nav : Rat → Rat → Rat × Rat)
  (kw shared : Dict) (xlo ylo dx dy : Rat) (M N s : Nat) (me mg : Option Int) (files : List GFile),
  PicksByTime F → PicksByTime G → FileCall env order nav kw xlo ylo dx dy M N s me mg files → KeepsTime env files →
  F.tEdges.Pairwise (· < ·) → ∀ r r', SameTile env F G kw shared files r r' →
  ∀ overflow glm minutes startEnd out, readSeries overflow env.basedate r = .ok glm →
    aggregate glm minutes startEnd = .ok out → ∀ b ∈ out.bins, ∀ (n : Nat) (t : Rat × Rat) (nf : String × ImageFile),
    (pairwise G.tEdges)[n]? = some t → r'.written[n]? = some nf → t.1 ∈ F.tEdges → t.2 ∈ F.tEdges →
    b.left = instantAt env.basedate t.1 → b.right = instantAt env.basedate t.2 → ShowsImage b nf.2

/-! ## Pieces of lists -/

theorem filter_range {α : Type} (p : α → Bool) (l : List α) (i j : Nat)
    (h : ∀ k a, l[k]? = some a → (p a = true ↔ i ≤ k ∧ k < j)) : l.filter p = (l.drop i).take (j - i) := by
  induction l generalizing i j with
  | nil => simp
  | cons a l ih =>
    have h0 := h 0 a rfl
    have hs : ∀ k b, l[k]? = some b → (p b = true ↔ i ≤ k + 1 ∧ k + 1 < j) := fun k b hb => h (k + 1) b hb
    cases i with
    | zero =>
      cases j with
      | zero =>
        rw [List.filter_cons_of_neg (by rw [h0]; omega), ih 0 0 (fun k b hb => by rw [hs k b hb]; omega)]
        simp
      | succ j =>
        rw [List.filter_cons_of_pos (by rw [h0]; omega), ih 0 j (fun k b hb => by rw [hs k b hb]; omega)]
        simp
    | succ i =>
      rw [List.filter_cons_of_neg (by rw [h0]; omega), ih i (j - 1) (fun k b hb => by rw [hs k b hb]; omega), List.drop_succ_cons]
      congr 1
      omega

theorem forall₂_drop {α β : Type} {R : α → β → Prop} {l : List α} {l' : List β} (h : List.Forall₂ R l l') (n : Nat) :
    List.Forall₂ R (l.drop n) (l'.drop n) := by
  induction h generalizing n with
  | nil => simp
  | cons h _ ih => cases n with
    | zero => exact .cons h (ih 0)
    | succ n => exact ih n

theorem forall₂_take {α β : Type} {R : α → β → Prop} {l : List α} {l' : List β} (h : List.Forall₂ R l l') (n : Nat) :
    List.Forall₂ R (l.take n) (l'.take n) := by
  induction h generalizing n with
  | nil => simp
  | cons h _ ih => cases n with
    | zero => exact .nil
    | succ n => exact .cons h (ih n)

theorem pairwise_get {l : List Rat} {k : Nat} {a b : Rat} :
    (pairwise l)[k]? = some (a, b) ↔ l[k]? = some a ∧ l[k + 1]? = some b := by
  unfold pairwise
  rw [List.getElem?_zip_eq_some, List.getElem?_tail]

theorem pairwise_piece (l : List Rat) (i m : Nat) : ((pairwise l).drop i).take m = pairwise ((l.drop i).take (m + 1)) := by
  apply List.ext_getElem?
  intro k
  apply Option.ext
  rintro ⟨a, b⟩
  rw [pairwise_get]
  simp only [List.getElem?_take, List.getElem?_drop]
  by_cases hk : k < m
  · rw [if_pos hk, if_pos (by omega), if_pos (by omega), pairwise_get]
    rfl
  · rw [if_neg hk, if_neg (c := k + 1 < m + 1) (by omega)]
    simp

/-! ## The files of a long frame -/

theorem increasing_split {env : Surroundings} {a b c : Rat} (hab : a ≤ b) (hbc : b ≤ c) (files : List GFile) (g : GFile → Rat) :
    ((filesOf env (a, c) files).map g).sum = ((filesOf env (a, b) files).map g).sum + ((filesOf env (b, c) files).map g).sum := by
  unfold filesOf
  induction files with
  | nil => simp
  | cons d l ih =>
    simp only [List.filter_cons]
    have h1 : InFrame env.basedate (a, c) (env.productTime d) ↔
        InFrame env.basedate (a, b) (env.productTime d) ∨ InFrame env.basedate (b, c) (env.productTime d) := by
      unfold InFrame
      generalize ((env.productTime d - env.basedate : Int) : Rat) / 1000000000 = q
      constructor
      · rintro ⟨h1, h2⟩
        rcases lt_or_ge q b with h | h
        · exact .inl ⟨h1, h⟩
        · exact .inr ⟨h, h2⟩
      · rintro (⟨h1, h2⟩ | ⟨h1, h2⟩)
        · exact ⟨h1, h2.trans_le hbc⟩
        · exact ⟨hab.trans h1, h2⟩
    have h2 : ¬ (InFrame env.basedate (a, b) (env.productTime d) ∧ InFrame env.basedate (b, c) (env.productTime d)) := by
      unfold InFrame
      rintro ⟨h, h'⟩
      exact absurd h.2 (not_lt.mpr h'.1)
    by_cases hA : InFrame env.basedate (a, b) (env.productTime d)
    · have hB : ¬ InFrame env.basedate (b, c) (env.productTime d) := fun h => h2 ⟨hA, h⟩
      rw [if_pos (decide_eq_true (h1.mpr (.inl hA))), if_pos (decide_eq_true hA),
        if_neg (by rw [decide_eq_true_eq]; exact hB), List.map_cons, List.map_cons, List.sum_cons, List.sum_cons, ih]
      ring
    · by_cases hB : InFrame env.basedate (b, c) (env.productTime d)
      · rw [if_pos (decide_eq_true (h1.mpr (.inr hB))), if_pos (decide_eq_true hB),
          if_neg (by rw [decide_eq_true_eq]; exact hA), List.map_cons, List.map_cons, List.sum_cons, List.sum_cons, ih]
        ring
      · rw [if_neg (by rw [decide_eq_true_eq, h1]; exact fun h => h.elim hA hB), if_neg (by rw [decide_eq_true_eq]; exact hA),
          if_neg (by rw [decide_eq_true_eq]; exact hB), ih]

theorem filesOf_empty (env : Surroundings) (a : Rat) (files : List GFile) : filesOf env (a, a) files = [] := by
  unfold filesOf
  rw [List.filter_eq_nil_iff]
  intro d _ h
  have := of_decide_eq_true h
  unfold InFrame at this
  exact absurd this.2 (not_lt.mpr this.1)

theorem mem_filesOf_split {env : Surroundings} {a b c : Rat} (hab : a ≤ b) (hbc : b ≤ c) (files : List GFile) (d : GFile) :
    d ∈ filesOf env (a, c) files ↔ d ∈ filesOf env (a, b) files ∨ d ∈ filesOf env (b, c) files := by
  unfold filesOf
  simp only [List.mem_filter, decide_eq_true_eq]
  unfold InFrame
  generalize ((env.productTime d - env.basedate : Int) : Rat) / 1000000000 = q
  constructor
  · rintro ⟨h0, h1, h2⟩
    rcases lt_or_ge q b with h | h
    · exact .inl ⟨h0, h1, h⟩
    · exact .inr ⟨h0, h, h2⟩
  · rintro (⟨h0, h1, h2⟩ | ⟨h0, h1, h2⟩)
    · exact ⟨h0, h1, h2.trans_le hbc⟩
    · exact ⟨h0, hab.trans h1, h2⟩

theorem last_ge {a : Rat} {l : List Rat} (h : (a :: l).Pairwise (· < ·)) : a ≤ (a :: l).getLast (by simp) := by
  rcases List.mem_cons.mp (List.getLast_mem (l := a :: l) (by simp)) with h1 | h1
  · exact h1.ge
  · exact (List.rel_of_pairwise_cons h h1).le

theorem frames_files (env : Surroundings) (files : List GFile) {a : Rat} {l : List Rat} (h : (a :: l).Pairwise (· < ·)) :
    (∀ g : GFile → Rat, ((filesOf env (a, (a :: l).getLast (by simp)) files).map g).sum =
      ((pairwise (a :: l)).map fun t => ((filesOf env t files).map g).sum).sum) ∧
    ∀ d, d ∈ filesOf env (a, (a :: l).getLast (by simp)) files ↔ ∃ t ∈ pairwise (a :: l), d ∈ filesOf env t files := by
  induction l generalizing a with
  | nil =>
    have e : pairwise [a] = [] := rfl
    rw [e]
    simp only [List.getLast_singleton, filesOf_empty]
    simp
  | cons b l ih =>
    have hab : a ≤ b := (List.rel_of_pairwise_cons h List.mem_cons_self).le
    obtain ⟨i1, i2⟩ := ih h.of_cons
    have hb := last_ge h.of_cons
    have e : pairwise (a :: b :: l) = (a, b) :: pairwise (b :: l) := rfl
    have hl : (a :: b :: l).getLast (by simp) = (b :: l).getLast (by simp) := List.getLast_cons _
    rw [hl]
    constructor
    · intro g
      rw [increasing_split hab hb, e, List.map_cons, List.sum_cons, i1]
    · intro d
      rw [mem_filesOf_split hab hb, e, i2]
      simp

/-! ## Reading an image again -/

theorem stored_getD (overflow : Rat → Option Rat) (v : Rat) : (storeValue overflow none v).getD 0 = v := by
  unfold storeValue
  dsimp only
  split <;> simp_all

theorem stored_mul (overflow : Rat → Option Rat) (a b : Rat) : (mulNan (storeValue overflow none a) (storeValue overflow none b)).getD 0 = a * b := by
  unfold storeValue
  dsimp only
  split <;> split <;> simp_all [mulNan]

theorem shown_floats (fed fa te ged ga mfa : Rat) : shown false fed fa te ged ga mfa =
    [("flash_extent_density", fed), ("average_flash_area", averageOf fa fed), ("total_energy", te),
      ("group_extent_density", ged), ("average_group_area", averageOf ga ged), ("minimum_flash_area", mfa)] := by
  unfold shown atLeastStep
  simp

/-- What is read again of an image that was written without packing. -/
theorem image_read (overflow : Rat → Option Rat) (ns : Rat → Int) {foot : Pt → Poly} {nav : Rat → Rat → Rat × Rat}
    {me mg : Option Int} {files : List GFile} {dx dy : Rat} {t : Rat × Rat} {xs ys : List Rat} {f : ImageFile}
    (h : ImageOfFiles foot nav me mg files dx dy false t xs ys f) {row col : Nat} {X Y : Rat} (hX : xs[col]? = some X)
    (hY : ys.reverse[row]? = some Y) : ∃ fed fa te ged ga mfa,
      FilesHold convexClip foot nav me mg files dx dy X Y fed fa te ged ga mfa ∧
      ∀ name v, (name, v) ∈ shown false fed fa te ged ga mfa →
        (storeFile overflow false ns f).value name (row, col) = storeValue overflow none v := by
  obtain ⟨fed, fa, te, ged, ga, mfa, h1, h2⟩ := h.pixels row col X Y (by rw [h.x]; exact hX) (by rw [h.y]; exact hY)
  refine ⟨fed, fa, te, ged, ga, mfa, h1, ?_⟩
  intro name v hv
  have hname : name ∈ f.fields.map Prod.fst := by
    rw [h.names]
    have hm : name ∈ (shown false fed fa te ged ga mfa).map Prod.fst := List.mem_map_of_mem hv
    rw [shown_floats] at hm
    simp only [List.map_cons, List.map_nil, List.mem_cons, List.not_mem_nil, or_false] at hm
    rcases hm with rfl | rfl | rfl | rfl | rfl | rfl <;> decide
  obtain ⟨img, hl, hmem⟩ : ∃ img, f.fields.lookup name = some img ∧ (name, img) ∈ f.fields := by
    clear h h2
    generalize f.fields = l at hname
    induction l with
    | nil => simp at hname
    | cons a l ih =>
      obtain ⟨n, im⟩ := a
      by_cases hn : name = n
      · subst hn
        exact ⟨im, by simp [List.lookup], List.mem_cons_self⟩
      · obtain ⟨img, e1, e2⟩ := ih (by simpa [hn] using hname)
        refine ⟨img, ?_, List.mem_cons_of_mem _ e2⟩
        rw [List.lookup_cons, beq_false_of_ne hn]
        exact e1
  have hs := h.shape img (List.mem_map_of_mem (f := Prod.snd) hmem)
  have hr : row < img.rows ∧ col < img.cols := by
    obtain ⟨l1, -⟩ := List.getElem?_eq_some_iff.mp hX
    obtain ⟨l2, -⟩ := List.getElem?_eq_some_iff.mp hY
    rw [List.length_reverse] at l2
    rw [hs.1, hs.2]
    exact ⟨l2, l1⟩
  have hsc : scalingFor name false = none := rfl
  unfold storeFile
  dsimp only
  rw [hl]
  dsimp only
  rw [if_pos hr, hsc, h2 name img v hmem hv]

/-! ## Frames without flashes -/

theorem zero_terms {α : Type} (l : List α) (s : α → Rat) (hs : ∀ x ∈ l, 0 ≤ s x) (h : (l.map s).sum = 0) : ∀ x ∈ l, s x = 0 := by
  induction l with
  | nil => simp
  | cons a l ih =>
    rw [List.map_cons, List.sum_cons] at h
    have h0 : 0 ≤ (l.map s).sum := by
      apply List.sum_nonneg
      intro v hv
      obtain ⟨x, hx, rfl⟩ := List.mem_map.mp hv
      exact hs x (List.mem_cons_of_mem _ hx)
    have ha := hs a List.mem_cons_self
    intro x hx
    rcases List.mem_cons.mp hx with rfl | hx
    · linarith
    · exact ih (fun x hx => hs x (List.mem_cons_of_mem _ hx)) (by linarith) x hx

theorem zero_sum {α : Type} (l : List α) (s : α → Rat) (hs : ∀ x ∈ l, s x = 0) : (l.map s).sum = 0 := by
  apply List.sum_eq_zero
  intro v hv
  obtain ⟨x, hx, rfl⟩ := List.mem_map.mp hv
  exact hs x hx

theorem pixelShare_nonneg (clip : Poly → Poly → List Poly) (foot : Pt → Poly) {dx dy : Rat} (hdx : 0 < dx) (hdy : 0 < dy)
    (X Y : Rat) (p : Pt) : 0 ≤ pixelShare clip foot dx dy X Y p :=
  div_nonneg (partArea_nonneg _ _ _) (mul_pos hdx hdy).le

theorem no_flashes_no_area {clip : Poly → Poly → List Poly} {foot : Pt → Poly} {nav : Rat → Rat → Rat × Rat} {me mg : Option Int}
    {files : List GFile} {dx dy X Y fed fa te ged ga mfa : Rat} (hdx : 0 < dx) (hdy : 0 < dy)
    (h : FilesHold clip foot nav me mg files dx dy X Y fed fa te ged ga mfa) : averageOf fa fed * fed = fa := by
  unfold averageOf
  split
  · rename_i h0
    rw [h.flashes] at h0
    have hin : ∀ (d : GFile) (f : Row GVal), 0 ≤ ((placesOfFlash nav d f).map (pixelShare clip foot dx dy X Y)).sum := by
      intro d f
      apply List.sum_nonneg
      intro v hv
      obtain ⟨x, -, rfl⟩ := List.mem_map.mp hv
      exact pixelShare_nonneg clip foot hdx hdy X Y x
    have h1 := zero_terms files _ (fun d _ => by
      apply List.sum_nonneg
      intro v hv
      obtain ⟨f, -, rfl⟩ := List.mem_map.mp hv
      exact hin d f) h0
    have h2 : fa = 0 := by
      rw [h.flashArea]
      apply zero_sum
      intro d hd
      have h3 := zero_terms _ _ (fun f _ => hin d f) (h1 d hd)
      apply zero_sum
      intro f hf
      rw [h3 f hf, mul_zero]
    rw [h2, zero_mul]
  · rename_i h0
    exact div_mul_cancel₀ fa h0

/-! ## Intervals and frames -/

theorem readSeries_frames {overflow : Rat → Option Rat} {basedate : Int} {r : TileRun TileState ImageFile} {glm : TimeSeries}
    {imgs : List ImageFile} (hw : r.written = imgs.map fun f => (f.name, f)) (h : readSeries overflow basedate r = .ok glm) :
    glm.frames = imgs.map fun f => ⟨instantAt basedate f.start, (storeFile overflow false (instantAt basedate) f).value⟩ := by
  unfold readSeries openGlmTimeSeries at h
  obtain ⟨c1, -, h⟩ := bind_ok h
  obtain ⟨c2, -, h⟩ := bind_ok h
  obtain rfl := Except.ok.inj h
  unfold genFileTimes
  rw [hw]
  clear * -
  dsimp only
  induction imgs with
  | nil => rfl
  | cons f l ih =>
    rw [List.map_cons, List.map_cons, List.map_cons, List.zipWith_cons_cons, ih]
    rfl

theorem instantAt_mono (basedate : Int) {p q : Rat} (h : p ≤ q) : instantAt basedate p ≤ instantAt basedate q := by
  unfold instantAt
  have : ⌊p * 1000000000⌋ ≤ ⌊q * 1000000000⌋ := Int.floor_le_floor (by linarith)
  omega

/-- An instant is just before an edge: it is before the edge, and no earlier edge is after it. -/
def JustBefore (basedate : Int) (edges : List Rat) (q : Rat) (instant : Int) : Prop :=
  instant < instantAt basedate q ∧ ∀ p ∈ edges, p < q → instantAt basedate p ≤ instant

theorem justBefore_iff {basedate : Int} {edges : List Rat} {q : Rat} {instant : Int} (h : JustBefore basedate edges q instant)
    {p : Rat} (hp : p ∈ edges) : instant < instantAt basedate p ↔ q ≤ p := by
  constructor
  · intro h1
    by_contra hc
    exact absurd (h.2 p hp (not_le.mp hc)) (not_le.mpr h1)
  · intro h1
    exact h.1.trans_le (instantAt_mono basedate h1)

theorem increasing_le {l : List Rat} (h : l.Pairwise (· < ·)) {i k : Nat} {p q : Rat} (hi : l[i]? = some p) (hk : l[k]? = some q) :
    p ≤ q ↔ i ≤ k := by
  obtain ⟨hi', rfl⟩ := List.getElem?_eq_some_iff.mp hi
  obtain ⟨hk', rfl⟩ := List.getElem?_eq_some_iff.mp hk
  rw [List.pairwise_iff_getElem] at h
  rcases lt_trichotomy i k with h1 | h1 | h1
  · exact iff_of_true (h i k hi' hk' h1).le h1.le
  · subst h1
    exact iff_of_true le_rfl le_rfl
  · exact iff_of_false (not_le.mpr (h k i hk' hi' h1)) (by omega)

/-- The frames in an interval, if the interval begins just before one edge and ends just before another. -/
theorem frames_inside {basedate : Int} {edges : List Rat} (hinc : edges.Pairwise (· < ·)) {i j : Nat} {a z : Rat}
    (hi : edges[i]? = some a) (hj : edges[j]? = some z) {lo hi' : Int} (h1 : JustBefore basedate edges a lo)
    (h2 : JustBefore basedate edges z hi') (value : ImageFile → String → FrameValues) {imgs : List ImageFile}
    (hall : List.Forall₂ (fun (t : Rat × Rat) (f : ImageFile) => f.start = t.1) (pairwise edges) imgs) :
    framesBetween (imgs.map fun f => ⟨instantAt basedate f.start, value f⟩) lo hi' =
      ((imgs.drop i).take (j - i)).map fun f => ⟨instantAt basedate f.start, value f⟩ := by
  unfold framesBetween
  rw [List.map_take, List.map_drop]
  apply filter_range
  intro k fr hk
  rw [List.getElem?_map] at hk
  obtain ⟨f, hf, rfl⟩ := Option.map_eq_some_iff.mp hk
  obtain ⟨⟨u, w⟩, hp⟩ : ∃ t, (pairwise edges)[k]? = some t := by
    obtain ⟨hl, -⟩ := List.getElem?_eq_some_iff.mp hf
    exact ⟨_, List.getElem?_eq_getElem (by rw [hall.length_eq]; exact hl)⟩
  obtain ⟨f', hf', hs⟩ := forall₂_get hall hp
  obtain rfl := Option.some.inj (hf.symm.trans hf')
  obtain ⟨hu, -⟩ := pairwise_get.mp hp
  have hmem := List.mem_of_getElem? hu
  rw [decide_eq_true_eq]
  dsimp only at hs ⊢
  rw [hs, justBefore_iff h1 hmem, increasing_le hinc hi hu, ← not_lt (a := hi'), justBefore_iff h2 hmem,
    increasing_le hinc hj hu, not_le]

/-- The values of the images of successive frames, and those of the image of the frame that they make up. -/
theorem frames_together {env : Surroundings} {nav : Rat → Rat → Rat × Rat} {me mg : Option Int} {files : List GFile}
    {dx dy X Y : Rat} (hdx : 0 < dx) (hdy : 0 < dy) (hpos : ∀ d ∈ files, ∀ f ∈ d.flashes, 0 < f.val.area) {P : List (Rat × Rat)}
    {t : Rat × Rat}
    (hsum : ∀ g : GFile → Rat, ((filesOf env t files).map g).sum = (P.map fun t => ((filesOf env t files).map g).sum).sum)
    (hmem : ∀ d, d ∈ filesOf env t files ↔ ∃ u ∈ P, d ∈ filesOf env u files)
    {α : Type} {Q : List α} {fedK avgK teK gedK mfaK : α → Option Rat} {overflow : Rat → Option Rat}
    (hall : List.Forall₂ (fun u f => ∃ fed fa te ged ga mfa,
      FilesHold convexClip env.foot nav me mg (filesOf env u files) dx dy X Y fed fa te ged ga mfa ∧
      fedK f = storeValue overflow none fed ∧ avgK f = storeValue overflow none (averageOf fa fed) ∧
      teK f = storeValue overflow none te ∧ gedK f = storeValue overflow none ged ∧ mfaK f = storeValue overflow none mfa) P Q)
    {fed fa te ged ga mfa : Rat}
    (h : FilesHold convexClip env.foot nav me mg (filesOf env t files) dx dy X Y fed fa te ged ga mfa) :
    (Q.map fun f => (fedK f).getD 0).sum = fed ∧ (Q.map fun f => (gedK f).getD 0).sum = ged ∧
    (Q.map fun f => (teK f).getD 0).sum = te ∧ (Q.map fun f => (mulNan (avgK f) (fedK f)).getD 0).sum = fa ∧
    (Q.filterMap mfaK = [] → mfa = 0) ∧ ∀ m, IsLeastIn (Q.filterMap mfaK) m → mfa = m := by
  have part : ∀ (g : GFile → Rat) (v : α → Rat), List.Forall₂ (fun u f => v f = ((filesOf env u files).map g).sum) P Q →
      (Q.map v).sum = ((filesOf env t files).map g).sum := by
    intro g v hv
    rw [hsum]
    congr 1
    clear hall hsum hmem
    induction hv with
    | nil => rfl
    | cons h _ ih => rw [List.map_cons, List.map_cons, h, ih]
  refine ⟨?_, ?_, ?_, ?_, ?_, ?_⟩
  · rw [h.flashes]
    refine part _ _ (hall.imp ?_)
    rintro u f ⟨fed, fa, te, ged, ga, mfa, hk, h1, -⟩
    rw [h1, stored_getD, hk.flashes]
  · rw [h.groups]
    refine part _ _ (hall.imp ?_)
    rintro u f ⟨fed, fa, te, ged, ga, mfa, hk, -, -, -, h1, -⟩
    rw [h1, stored_getD, hk.groups]
  · rw [h.energy]
    refine part _ _ (hall.imp ?_)
    rintro u f ⟨fed, fa, te, ged, ga, mfa, hk, -, -, h1, -⟩
    rw [h1, stored_getD, hk.energy]
  · rw [h.flashArea]
    refine part _ _ (hall.imp ?_)
    rintro u f ⟨fed, fa, te, ged, ga, mfa, hk, h1, h2, -⟩
    rw [h1, h2, stored_mul, no_flashes_no_area hdx hdy hk, hk.flashArea]
  all_goals
    let sent := fun u => (filesOf env u files).flatMap fun d => ((fileFlashes me mg d).filter fun (f : Row GVal) =>
      ∃ p ∈ placesOfFlash nav d f, convexClip (env.foot p) (pixelAt dx dy X Y) ≠ []).map fun f => f.val.area
    have hleast : LeastOrZero (sent t) mfa := h.least
    have hin : ∀ v, v ∈ sent t ↔ ∃ u ∈ P, v ∈ sent u := by
      intro v
      constructor
      · intro hv
        obtain ⟨d, hd, hv⟩ := List.mem_flatMap.mp hv
        obtain ⟨u, hu, hd⟩ := (hmem d).mp hd
        exact ⟨u, hu, List.mem_flatMap.mpr ⟨d, hd, hv⟩⟩
      · rintro ⟨u, hu, hv⟩
        obtain ⟨d, hd, hv⟩ := List.mem_flatMap.mp hv
        exact List.mem_flatMap.mpr ⟨d, (hmem d).mpr ⟨u, hu, hd⟩, hv⟩
    have hp : ∀ u v, v ∈ sent u → 0 < v := by
      intro u v hv
      obtain ⟨d, hd, hv⟩ := List.mem_flatMap.mp hv
      obtain ⟨f, hf, rfl⟩ := List.mem_map.mp hv
      exact hpos d (List.mem_filter.mp hd).1 f (List.mem_filter.mp (List.mem_filter.mp hf).1).1
    have hval : List.Forall₂ (fun u f => ∃ m, LeastOrZero (sent u) m ∧ mfaK f = storeValue overflow none m) P Q :=
      hall.imp fun u f ⟨_, _, _, _, _, mfa, hk, _, _, _, _, h1⟩ => ⟨mfa, hk.least, h1⟩
    -- every value that was sent to a frame is matched by the value of its image
    have hdown : ∀ v ∈ sent t, ∃ m ∈ Q.filterMap mfaK, m ≤ v := by
      intro v hv
      obtain ⟨u, hu, hv⟩ := (hin v).mp hv
      obtain ⟨f, hf, m, h1, h2⟩ := (forall₂_exists hval).1 u hu
      have hne : sent u ≠ [] := List.ne_nil_of_mem hv
      obtain ⟨h3, h4⟩ := h1.2 hne
      refine ⟨m, List.mem_filterMap.mpr ⟨f, hf, ?_⟩, h4 v hv⟩
      rw [h2]
      unfold storeValue
      dsimp only
      rw [if_neg (hp u m h3).ne']
    have hup : ∀ m ∈ Q.filterMap mfaK, m ∈ sent t := by
      intro m hm
      obtain ⟨f, hf, hm⟩ := List.mem_filterMap.mp hm
      obtain ⟨u, hu, m', h1, h2⟩ := (forall₂_exists hval).2 f hf
      rw [h2] at hm
      unfold storeValue at hm
      dsimp only at hm
      split at hm
      · cases hm
      · rename_i hz
        obtain rfl := Option.some.inj hm
        have hne : sent u ≠ [] := fun hc => hz (h1.1 hc)
        exact (hin _).mpr ⟨u, hu, (h1.2 hne).1⟩
  · intro hnil
    apply hleast.1
    rw [List.eq_nil_iff_forall_not_mem]
    intro v hv
    obtain ⟨m, hm, -⟩ := hdown v hv
    rw [hnil] at hm
    cases hm
  · intro m hm
    have h1 := hup m hm.1
    obtain ⟨h2, h3⟩ := hleast.2 (List.ne_nil_of_mem h1)
    obtain ⟨m', h4, h5⟩ := hdown mfa h2
    exact le_antisymm (h3 m h1) ((hm.2 m' h4).trans h5)

/-- The piece of an increasing list of edges from one edge to another. -/
theorem edges_piece {edges : List Rat} (hinc : edges.Pairwise (· < ·)) {i j : Nat} {a z : Rat} (hi : edges[i]? = some a)
    (hj : edges[j]? = some z) (hij : i < j) : ∃ l, (edges.drop i).take (j - i + 1) = a :: l ∧ (a :: l).Pairwise (· < ·) ∧
      ∀ h, (a :: l).getLast h = z := by
  obtain ⟨hi', hi⟩ := List.getElem?_eq_some_iff.mp hi
  have h1 : edges.drop i = a :: edges.drop (i + 1) := by rw [List.drop_eq_getElem_cons hi', hi]
  refine ⟨(edges.drop (i + 1)).take (j - i), by rw [h1, List.take_succ_cons], ?_, ?_⟩
  · have := (hinc.drop (i := i)).take (i := j - i + 1)
    rw [h1, List.take_succ_cons] at this
    exact this
  · intro h
    have hl : (a :: (edges.drop (i + 1)).take (j - i))[j - i]? = some z := by
      rw [← List.take_succ_cons, ← h1, List.getElem?_take, if_pos (by omega), List.getElem?_drop]
      rw [show i + (j - i) = j by omega]
      exact hj
    obtain ⟨hj', -⟩ := List.getElem?_eq_some_iff.mp hj
    have hlen : (a :: (edges.drop (i + 1)).take (j - i)).length = j - i + 1 := by
      rw [List.length_cons, List.length_take, List.length_drop]
      omega
    rw [List.getLast_eq_getElem]
    obtain ⟨h2, h3⟩ := List.getElem?_eq_some_iff.mp hl
    rw [← h3]
    congr 1
    omega

/-- **C151** (partial).  If an interval begins just before a long frame and ends just before its end, then it shows the image
of the long frame.  Missing in comparison to `C151_full`: the interval has to begin and end earlier than the frame, by less
than a short frame. -/
theorem C151_partial {env : Surroundings} {F G : Framing} (hF : PicksByTime F) (hG : PicksByTime G)
    {order : List Int → List Int} {nav : Rat → Rat → Rat × Rat} {kw shared : Dict} {xlo ylo dx dy : Rat} {M N s : Nat}
    {me mg : Option Int} {files : List GFile} (h : FileCall env order nav kw xlo ylo dx dy M N s me mg files)
    (htime : KeepsTime env files) (hinc : F.tEdges.Pairwise (· < ·)) {r r' : TileRun TileState ImageFile}
    (hr : SameTile env F G kw shared files r r') {overflow : Rat → Option Rat} {glm : TimeSeries} {minutes : Nat}
    {startEnd : Option (Int × Int)} {out : Aggregated} (hread : readSeries overflow env.basedate r = .ok glm)
    (hagg : aggregate glm minutes startEnd = .ok out) {b : AggBin} (hb : b ∈ out.bins) {n : Nat} {t : Rat × Rat}
    {nf : String × ImageFile} (hn : (pairwise G.tEdges)[n]? = some t) (hnf : r'.written[n]? = some nf) (ht : t.1 < t.2)
    (h1 : t.1 ∈ F.tEdges) (h2 : t.2 ∈ F.tEdges) (hl : JustBefore env.basedate F.tEdges t.1 b.left)
    (hrt : JustBefore env.basedate F.tEdges t.2 b.right) : ShowsImage b nf.2 := by
  obtain ⟨runs, sh, e1, hr1⟩ := hr.short
  obtain ⟨runs', sh', e2, hr2⟩ := hr.long
  obtain ⟨runsF, shF, f1, -, f2, -⟩ := C149_partial hF shared h htime
  obtain ⟨runsG, shG, g1, -, g2, -⟩ := C149_partial hG shared h htime
  obtain ⟨rfl, rfl⟩ := Prod.mk.inj (Except.ok.inj (e1.symm.trans f1))
  obtain ⟨rfl, rfl⟩ := Prod.mk.inj (Except.ok.inj (e2.symm.trans g1))
  obtain ⟨imgs, w1, a1⟩ := f2 r hr1
  obtain ⟨imgs', w2, a2⟩ := g2 r' hr2
  obtain ⟨i, hi⟩ := List.getElem?_of_mem h1
  obtain ⟨j, hj⟩ := List.getElem?_of_mem h2
  have hij : i < j := by
    by_contra hc
    exact absurd ((increasing_le hinc hj hi).mpr (not_lt.mp hc)) (not_le.mpr ht)
  have hsc : ((Val.bool false) != Val.bool false) = false := by decide
  rw [hr.floats, hsc] at a1
  rw [hr.floats', hsc, ← hr.place] at a2
  obtain ⟨f', hf', himg⟩ := forall₂_get a2 hn
  rw [w2, List.getElem?_map, hf'] at hnf
  obtain rfl := Option.some.inj hnf
  dsimp only
  -- the short frames that make up the long frame
  obtain ⟨l, p1, p2, p3⟩ := edges_piece hinc hi hj hij
  have hpiece := pairwise_piece F.tEdges i (j - i)
  rw [p1] at hpiece
  obtain ⟨s1, s2⟩ := frames_files env files p2
  rw [p3] at s1 s2
  have a3 := forall₂_take (forall₂_drop a1 i) (j - i)
  rw [hpiece] at a3
  have hQ : (imgs.drop i).take (j - i) ≠ [] := by
    intro hc
    have hlen := a1.length_eq
    unfold pairwise at hlen
    rw [List.length_zip, List.length_tail] at hlen
    obtain ⟨hj', -⟩ := List.getElem?_eq_some_iff.mp hj
    have := congrArg List.length hc
    rw [List.length_take, List.length_drop, List.length_nil] at this
    omega
  have hfr := readSeries_frames w1 hread
  have hin := frames_inside hinc hi hj hl hrt (fun f => (storeFile overflow false (instantAt env.basedate) f).value)
    (a1.imp fun _ _ h => h.start)
  rw [← hfr] at hin
  generalize (imgs.drop i).take (j - i) = Q at a3 hQ hin
  have hne : framesBetween glm.frames b.left b.right ≠ [] := by
    rw [hin]
    simpa using hQ
  -- the interval
  obtain ⟨start, stop, -, -, -, -, -, hbins, -⟩ := aggregate_ok hagg
  have hbin : b = aggregateBin glm.frames (b.left, b.right) := by
    rw [hbins] at hb
    obtain ⟨k, -, rfl⟩ := List.mem_map.mp hb
    rfl
  have hsums : ∀ name ∈ additiveFields, ∀ p, b.value name p =
      some (Q.map fun f => ((storeFile overflow false (instantAt env.basedate) f).value name p).getD 0).sum := by
    intro name hname p
    rw [hbin, aggregateBin_sum _ _ _ hname]
    dsimp only
    rw [if_neg (by simpa using hne), hin]
    unfold total
    rw [List.map_map, List.map_map]
    rfl
  intro name hname img himem row col hrow hcol
  have hshape := himg.shape img (List.mem_map_of_mem (f := Prod.snd) himem)
  obtain ⟨X, hX⟩ : ∃ X, (boxCentres xlo dx (tileStart M s r.ij.1) (tileStart M s (r.ij.1 + 1)))[col]? = some X :=
    ⟨_, List.getElem?_eq_getElem (by rw [← hshape.2]; exact hcol)⟩
  obtain ⟨Y, hY⟩ : ∃ Y, (boxCentres ylo dy (tileStart N s r.ij.2) (tileStart N s (r.ij.2 + 1))).reverse[row]? = some Y :=
    ⟨_, List.getElem?_eq_getElem (by rw [List.length_reverse, ← hshape.1]; exact hrow)⟩
  obtain ⟨fed, fa, te, ged, ga, mfa, hold, hval⟩ := himg.pixels row col X Y (by rw [himg.x]; exact hX) (by rw [himg.y]; exact hY)
  obtain ⟨t1, t2, t3, t4, t5, t6⟩ := frames_together (Q := Q) (overflow := overflow)
    (fedK := fun f => (storeFile overflow false (instantAt env.basedate) f).value "flash_extent_density" (row, col))
    (avgK := fun f => (storeFile overflow false (instantAt env.basedate) f).value "average_flash_area" (row, col))
    (teK := fun f => (storeFile overflow false (instantAt env.basedate) f).value "total_energy" (row, col))
    (gedK := fun f => (storeFile overflow false (instantAt env.basedate) f).value "group_extent_density" (row, col))
    (mfaK := fun f => (storeFile overflow false (instantAt env.basedate) f).value "minimum_flash_area" (row, col))
    h.xPos h.yPos (fun d hd => (h.fit d hd).areas) s1 s2 (a3.imp fun u f hu => by
      obtain ⟨fed, fa, te, ged, ga, mfa, k1, k2⟩ := image_read overflow (instantAt env.basedate) hu hX hY
      rw [shown_floats] at k2
      exact ⟨fed, fa, te, ged, ga, mfa, k1, k2 _ _ (by simp), k2 _ _ (by simp), k2 _ _ (by simp), k2 _ _ (by simp),
        k2 _ _ (by simp)⟩) hold
  rw [shown_floats] at hval
  simp only [aggregatedFields, List.mem_cons, List.not_mem_nil, or_false] at hname
  rcases hname with rfl | rfl | rfl | rfl | rfl
  · rw [hsums _ (by decide), hval _ img fed himem (by simp), Option.getD_some]
    exact t1
  · rw [hsums _ (by decide), hval _ img ged himem (by simp), Option.getD_some]
    exact t2
  · rw [hsums _ (by decide), hval _ img te himem (by simp), Option.getD_some]
    exact t3
  · rw [hval _ img (averageOf fa fed) himem (by simp), (bin_average hagg hb (row, col)).1, hin]
    have n1 : nanSum ((Q.map fun f => Frame.mk (instantAt env.basedate f.start)
        (storeFile overflow false (instantAt env.basedate) f).value).map fun f =>
        mulNan (f.value "average_flash_area" (row, col)) (f.value "flash_extent_density" (row, col))) = fa := by
      unfold nanSum
      rw [List.map_map, List.map_map]
      exact t4
    have n2 : nanSum ((Q.map fun f => Frame.mk (instantAt env.basedate f.start)
        (storeFile overflow false (instantAt env.basedate) f).value).map fun f =>
        f.value "flash_extent_density" (row, col)) = fed := by
      unfold nanSum
      rw [List.map_map, List.map_map]
      exact t1
    rw [n1, n2]
    unfold averageOf
    by_cases h0 : fed = 0
    · rw [if_pos (Or.inr h0), if_pos h0, Option.getD_none]
    · rw [if_neg (by rw [List.map_eq_nil_iff]; exact fun hc => hc.elim hQ h0), if_neg h0, Option.getD_some]
  · rw [hval _ img mfa himem (by simp)]
    obtain ⟨m1, m2⟩ := C74_minimum glm minutes startEnd out hagg b hb (row, col)
    rw [hin, List.filterMap_map] at m1 m2
    by_cases h0 : Q.filterMap (fun f => (storeFile overflow false (instantAt env.basedate) f).value "minimum_flash_area" (row, col)) = []
    · rw [m1 h0, t5 h0, Option.getD_none]
    · obtain ⟨m, hm, hm'⟩ := m2 h0
      rw [hm, t6 m hm', Option.getD_some]

/-- What the intervals of the aggregate show, if they begin and end with short frames: the image of the frame that begins and
ends one short frame later. -/
theorem C151_late_partial {env : Surroundings} {F G : Framing} (hF : PicksByTime F) (hG : PicksByTime G)
    {order : List Int → List Int} {nav : Rat → Rat → Rat × Rat} {kw shared : Dict} {xlo ylo dx dy : Rat} {M N s : Nat}
    {me mg : Option Int} {files : List GFile} (h : FileCall env order nav kw xlo ylo dx dy M N s me mg files)
    (htime : KeepsTime env files) (hinc : F.tEdges.Pairwise (fun p q => instantAt env.basedate p < instantAt env.basedate q))
    {r r' : TileRun TileState ImageFile}
    (hr : SameTile env F G kw shared files r r') {overflow : Rat → Option Rat} {glm : TimeSeries} {minutes : Nat}
    {startEnd : Option (Int × Int)} {out : Aggregated} (hread : readSeries overflow env.basedate r = .ok glm)
    (hagg : aggregate glm minutes startEnd = .ok out) {b : AggBin} (hb : b ∈ out.bins) {n : Nat} {t : Rat × Rat}
    {nf : String × ImageFile} (hn : (pairwise G.tEdges)[n]? = some t) (hnf : r'.written[n]? = some nf) (ht : t.1 < t.2)
    {a z : Rat} (h1 : (a, t.1) ∈ pairwise F.tEdges) (h2 : (z, t.2) ∈ pairwise F.tEdges)
    (hl : b.left = instantAt env.basedate a) (hrt : b.right = instantAt env.basedate z) : ShowsImage b nf.2 := by
  have hinc' : F.tEdges.Pairwise (· < ·) := hinc.imp fun {p q} hpq => by
    by_contra hc
    exact absurd (instantAt_mono env.basedate (not_lt.mp hc)) (not_le.mpr hpq)
  have before : ∀ p q, (p, q) ∈ pairwise F.tEdges → q ∈ F.tEdges ∧ JustBefore env.basedate F.tEdges q (instantAt env.basedate p) := by
    intro p q hpq
    obtain ⟨k, hk⟩ := List.getElem?_of_mem hpq
    obtain ⟨k1, k2⟩ := pairwise_get.mp hk
    refine ⟨List.mem_of_getElem? k2, ?_, ?_⟩
    · rw [List.pairwise_iff_getElem] at hinc
      obtain ⟨l1, e1⟩ := List.getElem?_eq_some_iff.mp k1
      obtain ⟨l2, e2⟩ := List.getElem?_eq_some_iff.mp k2
      have := hinc k (k + 1) l1 l2 (by omega)
      rw [e1, e2] at this
      exact this
    · intro u hu huq
      obtain ⟨m, hm⟩ := List.getElem?_of_mem hu
      apply instantAt_mono
      rw [increasing_le hinc' hm k1]
      by_contra hc
      exact absurd ((increasing_le hinc' k2 hm).mpr (by omega)) (not_le.mpr huq)
  obtain ⟨m1, b1⟩ := before _ _ h1
  obtain ⟨m2, b2⟩ := before _ _ h2
  rw [← hl] at b1
  rw [← hrt] at b2
  exact C151_partial hF hG h htime hinc' hr hread hagg hb hn hnf ht m1 m2 b1 b2

/-! ## Samples -/

/-- The call of the sample of C149, without packing. -/
def floatCall : Dict := wideCall ++ [("output_kwargs", .none)]

def floatOptions : Dict := [("scale_and_offset", .bool false)]

theorem floatCall_asked : FixedGridAsked floatCall 0 (-1/1000) (1/1000) (1/1000) 6 6 1 (some 2) none :=
  { proj := ⟨_, rfl⟩
    fixed := ⟨by decide +kernel, by decide +kernel⟩
    xBox := rfl
    yBox := rfl
    x := by decide +kernel
    y := by decide +kernel
    subdivide := Or.inr ⟨rfl, rfl⟩
    given := by decide +kernel
    minEvents := Or.inl ⟨2, rfl, rfl⟩
    minGroups := Or.inr ⟨Or.inr rfl, rfl⟩ }

/-- The sample meets the hypotheses of `C151_partial` about calls and files. -/
theorem float_call {files : List GFile} (hne : files ≠ []) (hf : ∀ d ∈ files, d = plainFile ∨ d = lateFile) :
    FileCall framesEnv id sampleNav floatCall 0 (-1/1000) (1/1000) (1/1000) 6 6 1 (some 2) none files :=
  let h := frames_call hne hf
  { asked := floatCall_asked
    xPos := h.xPos
    yPos := h.yPos
    tiles := h.tiles
    xTiles := h.xTiles
    yTiles := h.yTiles
    xPad := h.xPad
    yPad := h.yPad
    edges := h.edges
    clip := h.clip
    sets := h.sets
    ids := h.ids
    opens := h.opens
    some := h.some
    fit := h.fit }

/-- The tile of a call, if there is just one. -/
def onlyTile (tEdges : List Rat) (files : List GFile) : Option (TileRun TileState ImageFile) :=
  match gridGlmFlashes (framesGridder framesEnv (sampleFrames tEdges)) files floatCall floatOptions with
  | .ok ([r], _) => if r.scale = .bool false then some r else none
  | _ => none

theorem onlyTile_call {tEdges : List Rat} {files : List GFile} {r : TileRun TileState ImageFile} (h : onlyTile tEdges files = some r) :
    (∃ runs shared', gridGlmFlashes (framesGridder framesEnv (sampleFrames tEdges)) files floatCall floatOptions = .ok (runs, shared') ∧
      r ∈ runs) ∧ r.scale = .bool false := by
  unfold onlyTile at h
  split at h
  · rename_i r0 sh hg
    split at h
    · rename_i hs
      obtain rfl := Option.some.inj h
      exact ⟨⟨_, _, hg, List.mem_singleton_self _⟩, hs⟩
    · cases h
  · cases h

theorem onlyTile_place {tEdges : List Rat} {files : List GFile} (hne : files ≠ []) (hf : ∀ d ∈ files, d = plainFile ∨ d = lateFile)
    {r : TileRun TileState ImageFile} (h : onlyTile tEdges files = some r) : r.ij = (0, 0) := by
  obtain ⟨⟨runs, sh, h1, h2⟩, -⟩ := onlyTile_call h
  obtain ⟨runs', sh', g1, g2, -⟩ := C149_partial (sampleFrames_pick tEdges) floatOptions (float_call hne hf) (frames_time hf)
  obtain ⟨rfl, rfl⟩ := Prod.mk.inj (Except.ok.inj (h1.symm.trans g1))
  have : r.ij ∈ runs.map fun r => r.ij := List.mem_map_of_mem h2
  rw [g2] at this
  simpa using this

theorem onlyTile_same {tEdges tEdges' : List Rat} {files : List GFile} (hne : files ≠ [])
    (hf : ∀ d ∈ files, d = plainFile ∨ d = lateFile) {r r' : TileRun TileState ImageFile} (h : onlyTile tEdges files = some r)
    (h' : onlyTile tEdges' files = some r') :
    SameTile framesEnv (sampleFrames tEdges) (sampleFrames tEdges') floatCall floatOptions files r r' :=
  { short := (onlyTile_call h).1
    long := (onlyTile_call h').1
    place := (onlyTile_place hne hf h).trans (onlyTile_place hne hf h').symm
    floats := (onlyTile_call h).2
    floats' := (onlyTile_call h').2 }

/-- The energy of a pixel in the first image of the sample, with the size of the image. -/
def firstEnergy (tEdges : List Rat) (files : List GFile) : Option (Nat × Nat × Rat) :=
  (onlyTile tEdges files).bind fun r => r.written[0]?.bind fun nf =>
    (nf.2.fields.find? fun p => p.1 = "total_energy").map fun p => (p.2.rows, p.2.cols, p.2.val 2 1)

/-- The energy of the pixel in the first interval of the aggregate. -/
def aggregatedEnergy (tEdges : List Rat) (files : List GFile) (minutes : Nat) (startEnd : Option (Int × Int)) :
    Option (Int × Int × Option Rat) :=
  (onlyTile tEdges files).bind fun r => (readSeries (fun _ => none) framesEnv.basedate r).toOption.bind fun glm =>
    (aggregate glm minutes startEnd).toOption.bind fun out => out.bins[0]?.map fun b => (b.left, b.right, b.value "total_energy" (2, 1))

/-- Two frames of 30 s and one of 60 s. -/
example : firstEnergy [0, 60, 120] [plainFile, lateFile] = some (6, 6, 11/3) := by decide +kernel

/-- An interval that begins and ends 1 ns before the frame shows its energy, as C151_partial says. -/
example : aggregatedEnergy [0, 30, 60, 90, 120] [plainFile, lateFile] 1 (some (-1, 119999999999)) =
    some (-1, 59999999999, some (11/3)) := by decide +kernel

example : JustBefore framesEnv.basedate (sampleFrames [0, 30, 60, 90, 120]).tEdges 0 (-1) ∧
    JustBefore framesEnv.basedate (sampleFrames [0, 30, 60, 90, 120]).tEdges 60 59999999999 := by
  unfold JustBefore
  decide +kernel

/-- The intervals that `aggregate` takes by itself are one frame late. -/
example : aggregatedEnergy [0, 30, 60, 90, 120] [plainFile, lateFile] 1 none = some (0, 60000000000, some (11/6)) := by decide +kernel

example : firstEnergy [30, 90] [plainFile, lateFile] = some (6, 6, 11/6) := by decide +kernel

/-- C151 does not hold in full: the first short frame is not in the interval that begins with it. -/
theorem C151_full_false : ¬ C151_full := by
  intro hfull
  have hf : ∀ d ∈ [plainFile, lateFile], d = plainFile ∨ d = lateFile := by simp
  have hA : aggregatedEnergy [0, 30, 60, 90, 120] [plainFile, lateFile] 1 none = some (0, 60000000000, some (11/6)) := by
    decide +kernel
  have hB : firstEnergy [0, 60, 120] [plainFile, lateFile] = some (6, 6, 11/3) := by decide +kernel
  obtain ⟨r, hr, hA⟩ := Option.bind_eq_some_iff.mp hA
  obtain ⟨glm, hglm, hA⟩ := Option.bind_eq_some_iff.mp hA
  obtain ⟨out, hout, hA⟩ := Option.bind_eq_some_iff.mp hA
  obtain ⟨b, hb, hA⟩ := Option.map_eq_some_iff.mp hA
  obtain ⟨r', hr', hB⟩ := Option.bind_eq_some_iff.mp hB
  obtain ⟨nf, hnf, hB⟩ := Option.bind_eq_some_iff.mp hB
  obtain ⟨⟨name, img⟩, himg, hB⟩ := Option.map_eq_some_iff.mp hB
  have hname : name = "total_energy" := by
    have := List.find?_some himg
    simpa using this
  subst hname
  simp only [Prod.mk.injEq] at hA hB
  have ok : ∀ {α : Type} {x : Except Err α} {a : α}, x.toOption = some a → x = .ok a := by
    intro α x a h
    cases x with
    | error => cases h
    | ok => rw [Option.some.inj h]
  have := hfull framesEnv (sampleFrames [0, 30, 60, 90, 120]) (sampleFrames [0, 60, 120]) id sampleNav floatCall floatOptions
    0 (-1/1000) (1/1000) (1/1000) 6 6 1 (some 2) none [plainFile, lateFile] (sampleFrames_pick _) (sampleFrames_pick _)
    (float_call (by simp) hf) (frames_time hf) (by decide +kernel) r r' (onlyTile_same (by simp) hf hr hr') _ glm 1 none out
    (ok hglm) (ok hout) b (List.mem_of_getElem? hb) 0 (0, 60) nf rfl hnf (by simp [sampleFrames]) (by simp [sampleFrames])
    (by rw [hA.1]; decide +kernel) (by rw [hA.2.1]; decide +kernel)
    "total_energy" (by decide) img (List.mem_of_find?_eq_some himg) 2 1 (by omega) (by omega)
  rw [hA.2.2, hB.2.2, Option.getD_some] at this
  norm_num at this

end Verif.Props
