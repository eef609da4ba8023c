import Verif.Proofs.Lookup
import Mathlib.Data.List.ProdSigma

/-!
# Lemmas on index arrays of pixels
-/

namespace Verif.Proofs

open Verif.Py Verif.Model Verif.Spec

theorem list_eq_range_map {β : Type} (l : List β) (d : β) :
    l = (List.range l.length).map fun i => l.getD i d := by
  apply List.ext_getElem (by simp)
  intro i h1 h2
  simp [List.getElem?_eq_getElem h1]

/-- A rectangular array, flattened, is the list of its elements in row-major order. -/
theorem flatten_eq {β : Type} [Inhabited β] {a : List (List β)} {m n : Nat} (h : HasShape a m n) :
    a.flatten = (List.range m ×ˢ List.range n).map fun ij => get2 a ij.1 ij.2 := by
  have ha : a = (List.range m).map fun i => (List.range n).map fun j => get2 a i j := by
    conv_lhs => rw [list_eq_range_map a []]
    rw [h.1]
    apply List.map_congr_left
    intro i hi
    have hi' : i < a.length := by rw [h.1]; exact List.mem_range.mp hi
    have hlen : (a.getD i []).length = n := by
      apply h.2
      rw [List.getD_eq_getElem?_getD, List.getElem?_eq_getElem hi']
      exact List.getElem_mem hi'
    conv_lhs => rw [list_eq_range_map (a.getD i []) default]
    rw [hlen]
    rfl
  conv_lhs => rw [ha]
  simp only [SProd.sprod, List.product, List.map_flatMap, List.map_map, ← List.flatMap_def]
  rfl

theorem filter_zip_map {α β : Type} (l : List α) (f : α → β) (g : α → Bool) :
    (((l.map f).zip (l.map g)).filter Prod.snd).map Prod.fst = (l.filter g).map f := by
  induction l with
  | nil => rfl
  | cons a l ih =>
    simp only [List.map_cons, List.zip_cons_cons, List.filter_cons]
    cases g a <;> simp [ih]

theorem maskSelect_eq {β : Type} [Inhabited β] {a : List (List β)} {good : List (List Bool)}
    {m n : Nat} (ha : HasShape a m n) (hg : HasShape good m n) :
    maskSelect a good = ((List.range m ×ˢ List.range n).filter fun ij => get2 good ij.1 ij.2).map
      fun ij => get2 a ij.1 ij.2 := by
  unfold maskSelect
  rw [flatten_eq ha, flatten_eq hg, filter_zip_map]

theorem get2_zipWith {α β γ : Type} [Inhabited α] [Inhabited β] [Inhabited γ] (f : α → β → γ)
    {a : List (List α)} {b : List (List β)} {m n i j : Nat} (ha : HasShape a m n)
    (hb : HasShape b m n) (hi : i < m) (hj : j < n) :
    get2 (List.zipWith (List.zipWith f) a b) i j = f (get2 a i j) (get2 b i j) := by
  have hia : i < a.length := by rw [ha.1]; exact hi
  have hib : i < b.length := by rw [hb.1]; exact hi
  have hja : j < (a[i]).length := by rw [ha.2 _ (List.getElem_mem hia)]; exact hj
  have hjb : j < (b[i]).length := by rw [hb.2 _ (List.getElem_mem hib)]; exact hj
  unfold get2
  simp only [List.getD_eq_getElem?_getD, List.getElem?_zipWith, List.getElem?_eq_getElem hia,
    List.getElem?_eq_getElem hib, Option.getD_some, List.getElem?_eq_getElem hja,
    List.getElem?_eq_getElem hjb]

theorem shape_zipWith {α β γ : Type} (f : α → β → γ) {a : List (List α)} {b : List (List β)}
    {m n : Nat} (ha : HasShape a m n) (hb : HasShape b m n) :
    HasShape (List.zipWith (List.zipWith f) a b) m n := by
  refine ⟨by rw [List.length_zipWith, ha.1, hb.1, Nat.min_self], ?_⟩
  intro r hr
  rw [List.mem_iff_getElem?] at hr
  obtain ⟨i, hi⟩ := hr
  rw [List.getElem?_zipWith_eq_some] at hi
  obtain ⟨x, y, hx, hy, rfl⟩ := hi
  rw [List.length_zipWith, ha.2 x (List.mem_of_getElem? hx), hb.2 y (List.mem_of_getElem? hy),
    Nat.min_self]

theorem shape_map {α β : Type} (f : α → β) {a : List (List α)} {m n : Nat} (h : HasShape a m n) :
    HasShape (a.map (List.map f)) m n := by
  refine ⟨by rw [List.length_map, h.1], ?_⟩
  intro r hr
  obtain ⟨r', hr', rfl⟩ := List.mem_map.mp hr
  rw [List.length_map, h.2 r' hr']

theorem shape_sub {α : Type} {a a' : List (List α)} {f : List α → List α} {m n : Nat}
    (h : HasShape a (m + 1) (n + 1)) (ha' : a' = a.dropLast ∨ a' = a.tail)
    (hf : f = List.dropLast ∨ f = List.tail) : HasShape (a'.map f) m n := by
  have hsub : ∀ r ∈ a', r ∈ a := by
    rcases ha' with rfl | rfl
    · exact fun r hr => List.mem_of_mem_dropLast hr
    · exact fun r hr => List.mem_of_mem_tail hr
  refine ⟨?_, ?_⟩
  · rw [List.length_map]
    rcases ha' with rfl | rfl <;> simp [h.1]
  · intro r hr
    obtain ⟨r', hr', rfl⟩ := List.mem_map.mp hr
    have := h.2 r' (hsub r' hr')
    rcases hf with rfl | rfl <;> simp [this]

theorem centres_shape {edge : List (List Rat)} {m n : Nat} (h : HasShape edge (m + 1) (n + 1)) :
    HasShape (centres edge) m n := by
  unfold centres
  apply shape_map
  exact shape_zipWith _ (shape_zipWith _ (shape_zipWith _
    (shape_sub h (.inl rfl) (.inl rfl)) (shape_sub h (.inr rfl) (.inr rfl)))
    (shape_sub h (.inr rfl) (.inl rfl))) (shape_sub h (.inl rfl) (.inr rfl))

theorem indexGrids_shape (m n : Nat) :
    HasShape (indexGrids m n).1 m n ∧ HasShape (indexGrids m n).2 m n := by
  unfold indexGrids
  refine ⟨⟨by simp, ?_⟩, ⟨by simp, ?_⟩⟩
  · intro r hr
    obtain ⟨i, -, rfl⟩ := List.mem_map.mp hr
    simp
  · intro r hr
    rw [List.eq_of_mem_replicate hr]; simp

theorem indexGrids_get {m n i j : Nat} (hi : i < m) (hj : j < n) :
    get2 (indexGrids m n).1 i j = i ∧ get2 (indexGrids m n).2 i j = j := by
  unfold indexGrids get2
  simp [List.getElem?_replicate, hi, hj]

/-- The lookup arrays, given the mask of good pixels. -/
theorem lookup_eq {lons lats : MaskedArr} {m n : Nat} {good : List (List Bool)}
    (hlon : HasShape lons.data m n) (hlat : HasShape lats.data m n) (hg : HasShape good m n)
    (hgood : goodMask lons lats = .ok good) :
    createPixelLookup lons lats = .ok
      { points := ((List.range m ×ˢ List.range n).filter fun ij => get2 good ij.1 ij.2).map
          fun ij => (get2 lons.data ij.1 ij.2, get2 lats.data ij.1 ij.2)
        xIdx := ((List.range m ×ˢ List.range n).filter fun ij => get2 good ij.1 ij.2).map Prod.fst
        yIdx := ((List.range m ×ˢ List.range n).filter fun ij => get2 good ij.1 ij.2).map
          Prod.snd } := by
  unfold createPixelLookup
  simp only [hgood, bind, Except.bind, pure, Except.pure]
  have hn : m = 0 ∨ (lons.data.headD []).length = n := by
    cases hd : lons.data with
    | nil => left; rw [← hlon.1, hd]; rfl
    | cons r l => right; exact hlon.2 r (by rw [hd]; exact List.mem_cons_self)
  have hx : ∀ k : List (List Nat) × List (List Nat) → List (List Nat), (k = Prod.fst ∨ k = Prod.snd) →
      HasShape (k (indexGrids lons.data.length (lons.data.headD []).length)) m n := by
    intro k hk
    rcases hn with rfl | hn
    · have h0 : lons.data = [] := List.length_eq_zero_iff.mp hlon.1
      rcases hk with rfl | rfl <;> simp [h0, indexGrids, HasShape]
    · rw [hlon.1, hn]
      rcases hk with rfl | rfl
      · exact (indexGrids_shape m n).1
      · exact (indexGrids_shape m n).2
  have hget : ∀ ij ∈ (List.range m ×ˢ List.range n).filter fun ij => get2 good ij.1 ij.2,
      get2 (indexGrids lons.data.length (lons.data.headD []).length).1 ij.1 ij.2 = ij.1 ∧
      get2 (indexGrids lons.data.length (lons.data.headD []).length).2 ij.1 ij.2 = ij.2 := by
    intro ij hij
    have := (List.mem_filter.mp hij).1
    rw [List.mem_product, List.mem_range, List.mem_range] at this
    rcases hn with rfl | hn
    · omega
    · rw [hlon.1, hn]
      exact indexGrids_get this.1 this.2
  congr 1
  rw [maskSelect_eq hlon hg, maskSelect_eq hlat hg, maskSelect_eq (hx Prod.fst (.inl rfl)) hg,
    maskSelect_eq (hx Prod.snd (.inr rfl)) hg, List.zip_map']
  rw [List.map_congr_left fun ij hij => (hget ij hij).1,
    List.map_congr_left fun ij hij => (hget ij hij).2]

theorem get2_map {α β : Type} [Inhabited α] [Inhabited β] (f : α → β) {a : List (List α)}
    {m n i j : Nat} (h : HasShape a m n) (hi : i < m) (hj : j < n) :
    get2 (a.map (List.map f)) i j = f (get2 a i j) := by
  have hia : i < a.length := by rw [h.1]; exact hi
  have hja : j < (a[i]).length := by rw [h.2 _ (List.getElem_mem hia)]; exact hj
  unfold get2
  simp only [List.getD_eq_getElem?_getD, List.getElem?_map, List.getElem?_eq_getElem hia,
    Option.map_some, Option.getD_some, List.getElem?_eq_getElem hja]

/-- The lookup arrays for plain arrays. -/
theorem lookup_plain {lons lats : List (List Rat)} {m n : Nat} (hlon : HasShape lons m n)
    (hlat : HasShape lats m n) :
    createPixelLookup ⟨lons, none⟩ ⟨lats, none⟩ = .ok
      { points := (List.range m ×ˢ List.range n).map
          fun ij => (get2 lons ij.1 ij.2, get2 lats ij.1 ij.2)
        xIdx := (List.range m ×ˢ List.range n).map Prod.fst
        yIdx := (List.range m ×ˢ List.range n).map Prod.snd } := by
  have h := lookup_eq (lons := ⟨lons, none⟩) (lats := ⟨lats, none⟩) hlon hlat
    (shape_map (fun _ => true) hlat) rfl
  rw [h]
  have : (List.range m ×ˢ List.range n).filter
      (fun ij => get2 (lats.map (List.map fun _ => true)) ij.1 ij.2) =
      List.range m ×ˢ List.range n := by
    rw [List.filter_eq_self]
    intro ij hij
    rw [List.mem_product, List.mem_range, List.mem_range] at hij
    exact get2_map _ hlat hij.1 hij.2
  rw [this]

theorem get2_sub {α : Type} [Inhabited α] {a : List (List α)} {m n i j : Nat}
    (h : HasShape a (m + 1) (n + 1)) (hi : i < m) (hj : j < n) :
    get2 (a.dropLast.map List.dropLast) i j = get2 a i j ∧
    get2 (a.dropLast.map List.tail) i j = get2 a i (j + 1) ∧
    get2 (a.tail.map List.dropLast) i j = get2 a (i + 1) j ∧
    get2 (a.tail.map List.tail) i j = get2 a (i + 1) (j + 1) := by
  have hi0 : i < a.length := by rw [h.1]; omega
  have hi1 : i + 1 < a.length := by rw [h.1]; omega
  have hj0 : (a[i]).length = n + 1 := h.2 _ (List.getElem_mem hi0)
  have hj1 : (a[i + 1]).length = n + 1 := h.2 _ (List.getElem_mem hi1)
  have hd : i < a.length - 1 := by omega
  unfold get2
  simp only [List.getD_eq_getElem?_getD, List.getElem?_map, List.getElem?_dropLast,
    List.getElem?_tail, if_pos hd, List.getElem?_eq_getElem hi0, List.getElem?_eq_getElem hi1,
    Option.map_some, Option.getD_some, hj0, hj1]
  have : j < n + 1 - 1 := by omega
  simp only [if_pos this]
  trivial

theorem centres_get {edge : List (List Rat)} {m n i j : Nat} (h : HasShape edge (m + 1) (n + 1))
    (hi : i < m) (hj : j < n) :
    get2 (centres edge) i j =
      (get2 edge i j + get2 edge (i + 1) (j + 1) + get2 edge (i + 1) j + get2 edge i (j + 1)) / 4 := by
  have s1 := shape_sub h (.inl rfl) (.inl rfl)
  have s2 := shape_sub h (.inr rfl) (.inr rfl)
  have s3 := shape_sub h (.inr rfl) (.inl rfl)
  have s4 := shape_sub h (.inl rfl) (.inr rfl)
  have e1 := shape_zipWith (· + · : Rat → Rat → Rat) s1 s2
  have e2 := shape_zipWith (· + · : Rat → Rat → Rat) e1 s3
  have e3 := shape_zipWith (· + · : Rat → Rat → Rat) e2 s4
  obtain ⟨g1, g2, g3, g4⟩ := get2_sub h hi hj
  unfold centres
  simp only
  rw [get2_map _ e3 hi hj, get2_zipWith _ e2 s4 hi hj, get2_zipWith _ e1 s3 hi hj,
    get2_zipWith _ s1 s2 hi hj, g1, g2, g3, g4]

theorem entry_dstack {x y : List (List Rat)} {m n i j : Nat} (hx : HasShape x m n)
    (hy : HasShape y m n) (hi : i < m) (hj : j < n) :
    entry (dstack x y) i j = (get2 x i j, get2 y i j) := by
  have := get2_zipWith (fun a b : Rat => (a, b)) hx hy hi hj
  unfold dstack
  exact this

end Verif.Proofs
