import Verif.Model.LassoStats
import Verif.Props.Examples
import Verif.Props.LassoGrid
import Verif.Props.Plot

/-!
# C125: the flash statistics of `glm-lasso-stats.py`
-/

namespace Verif.Props

open Verif.Py Verif.Model Verif.Spec Verif.Proofs

/-! ### How such a file is read -/

/-- The parts of a text between the places of a character. -/
def splitText (sep : Char) : Text → List Text
  | [] => [[]]
  | c :: cs =>
    if c = sep then [] :: splitText sep cs
    else match splitText sep cs with
      | [] => [[c]]
      | w :: ws => (c :: w) :: ws

/-- The fields of a line: what is between the commas, without leading blanks. -/
def csvFields (line : Text) : List Text := (splitText ',' line).map fun w => w.dropWhile (· = ' ')

/-- The fields of the lines of a file; each line is ended by a line feed. -/
def csvRows (text : Text) : List (List Text) := (splitText '\n' text).dropLast.map csvFields

/-- A text without commas, blanks and line feeds, such as that of a number. -/
def Plain (t : Text) : Prop := ∀ c ∈ t, c ≠ ',' ∧ c ≠ ' ' ∧ c ≠ '\n'

theorem splitText_ne_nil (sep : Char) (t : Text) : splitText sep t ≠ [] := by
  cases t with
  | nil => simp [splitText]
  | cons c cs =>
    simp only [splitText]
    split
    · simp
    · split <;> simp

theorem splitText_free {sep : Char} {t : Text} (h : sep ∉ t) : splitText sep t = [t] := by
  induction t with
  | nil => rfl
  | cons c cs ih =>
    simp only [List.mem_cons, not_or] at h
    simp only [splitText]
    rw [if_neg (fun e => h.1 e.symm), ih h.2]

theorem splitText_append {sep : Char} {a : Text} (b : Text) (h : sep ∉ a) :
    splitText sep (a ++ sep :: b) = a :: splitText sep b := by
  induction a with
  | nil => simp [splitText]
  | cons c cs ih =>
    simp only [List.mem_cons, not_or] at h
    simp only [List.cons_append, splitText]
    rw [if_neg (fun e => h.1 e.symm), ih h.2]

theorem splitText_lines (lines : List Text) (h : ∀ l ∈ lines, '\n' ∉ l) :
    splitText '\n' (lines.map fun l => l ++ ['\n']).flatten = lines ++ [[]] := by
  induction lines with
  | nil => rfl
  | cons l ls ih =>
    rw [List.map_cons, List.flatten_cons, List.append_assoc, List.singleton_append,
      splitText_append _ (h l List.mem_cons_self), ih fun m hm => h m (List.mem_cons_of_mem _ hm)]
    rfl

theorem csvRows_lines (lines : List Text) (h : ∀ l ∈ lines, '\n' ∉ l) :
    csvRows (lines.map fun l => l ++ ['\n']).flatten = lines.map csvFields := by
  unfold csvRows
  rw [splitText_lines lines h, List.dropLast_concat]

theorem dropWhile_plain {t : Text} (h : Plain t) : t.dropWhile (· = ' ') = t := by
  cases t with
  | nil => rfl
  | cons c cs => rw [List.dropWhile_cons, if_neg (by simp [(h c List.mem_cons_self).2.1])]

/-- The line without its line feed. -/
def joinFields : List Text → Text
  | [] => []
  | [v] => v
  | v :: w :: vs => v ++ ',' :: ' ' :: joinFields (w :: vs)

theorem statLine_eq (vs : List Text) : statLine vs = joinFields vs ++ ['\n'] := by
  induction vs with
  | nil => rfl
  | cons v vs ih =>
    cases vs with
    | nil => rfl
    | cons w ws => simp only [statLine, joinFields, ih]; simp

theorem joinFields_no_feed {vs : List Text} (h : ∀ v ∈ vs, Plain v) : '\n' ∉ joinFields vs := by
  induction vs with
  | nil => simp [joinFields]
  | cons v vs ih =>
    have hv : '\n' ∉ v := fun hm => (h v List.mem_cons_self _ hm).2.2 rfl
    cases vs with
    | nil => exact hv
    | cons w ws =>
      have := ih fun x hx => h x (List.mem_cons_of_mem _ hx)
      simp only [joinFields, List.mem_append, List.mem_cons, not_or]
      exact ⟨hv, by decide, by decide, this⟩

theorem splitText_blank (t : Text) :
    (splitText ',' (' ' :: t)).map (fun w => w.dropWhile (· = ' ')) =
      (splitText ',' t).map fun w => w.dropWhile (· = ' ') := by
  simp only [splitText]
  rw [if_neg (by decide)]
  cases hs : splitText ',' t with
  | nil => exact absurd hs (splitText_ne_nil _ _)
  | cons w ws => simp

theorem csvFields_joinFields {vs : List Text} (hne : vs ≠ []) (h : ∀ v ∈ vs, Plain v) :
    csvFields (joinFields vs) = vs := by
  induction vs with
  | nil => exact absurd rfl hne
  | cons v vs ih =>
    have hv : ',' ∉ v := fun hm => (h v List.mem_cons_self _ hm).1 rfl
    have hd := dropWhile_plain (h v List.mem_cons_self)
    cases vs with
    | nil => unfold csvFields; simp only [joinFields]; rw [splitText_free hv]; simp [hd]
    | cons w ws =>
      have := ih (by simp) fun x hx => h x (List.mem_cons_of_mem _ hx)
      unfold csvFields at this ⊢
      simp only [joinFields]
      rw [splitText_append _ hv, List.map_cons, hd, splitText_blank, this]

/-! ### Times -/

theorem digit_csv (n : Nat) : digit n ≠ ',' ∧ digit n ≠ ' ' ∧ digit n ≠ '\n' := by
  have h := digit_isDigit n
  refine ⟨?_, ?_, ?_⟩ <;> · intro e; rw [e] at h; revert h; decide

theorem plain_append {a b : Text} (ha : Plain a) (hb : Plain b) : Plain (a ++ b) := by
  intro c hc
  rcases List.mem_append.mp hc with h | h
  · exact ha c h
  · exact hb c h

theorem plain_cons {c : Char} {b : Text} (hc : c ≠ ',' ∧ c ≠ ' ' ∧ c ≠ '\n') (hb : Plain b) : Plain (c :: b) := by
  intro d hd
  rcases List.mem_cons.mp hd with h | h
  · rw [h]; exact hc
  · exact hb d h

theorem plain_nil : Plain [] := by intro c hc; simp at hc

theorem plain_two (n : Nat) : Plain (two n) :=
  plain_cons (digit_csv _) (plain_cons (digit_csv _) plain_nil)

theorem plain_three (n : Nat) : Plain (three n) :=
  plain_cons (digit_csv _) (plain_cons (digit_csv _) (plain_cons (digit_csv _) plain_nil))

theorem plain_four (n : Nat) : Plain (four n) :=
  plain_cons (digit_csv _) (plain_cons (digit_csv _) (plain_cons (digit_csv _) (plain_cons (digit_csv _) plain_nil)))

theorem plain_iso (t : DateTime) : Plain (isoformat 'T' t) := by
  unfold isoformat
  refine plain_append (plain_four _) (plain_cons (by decide) (plain_append (plain_two _) (plain_cons (by decide)
    (plain_append (plain_two _) (plain_cons (by decide) (plain_append (plain_two _) (plain_cons (by decide)
    (plain_append (plain_two _) (plain_cons (by decide) (plain_append (plain_two _) ?_))))))))))
  split
  · exact plain_nil
  · exact plain_cons (by decide) (plain_append (plain_three _) (plain_three _))

/-! ### The file -/

/-- The statistics of the columns after the two times. -/
def statNames : List String :=
  ["number", "mean", "variance", "skewness", "kurtosis", "energy", "energy_per_flash", "total_energy",
   "specific_energy"]

/-- What is assumed of `flash_size_stats`: it has the nine statistics, as numbers, and no field with the name of a time. -/
def GivesStats (sizeStats : List ParentRow → StatRow) : Prop :=
  ∀ fl, (∀ k ∈ statNames, ∃ v, (sizeStats fl).lookup k = some v) ∧
    (∀ k v, (sizeStats fl).lookup k = some v → Plain v) ∧
    (sizeStats fl).lookup "start_isoformat" = none ∧ (sizeStats fl).lookup "end_isoformat" = none

theorem lookup_append_some {r s : StatRow} {k : String} {v : Text} (h : r.lookup k = some v) :
    (r ++ s).lookup k = some v := by
  rw [List.lookup_append, h]; rfl

theorem lookup_append_none {r s : StatRow} {k : String} (h : r.lookup k = none) :
    (r ++ s).lookup k = s.lookup k := by
  rw [List.lookup_append, h]; rfl

theorem mapM_ok_of {α β : Type} {f : α → Except Err β} {g : α → β} {l : List α}
    (h : ∀ a ∈ l, f a = .ok (g a)) : l.mapM f = .ok (l.map g) := by
  induction l with
  | nil => rfl
  | cons a l ih =>
    rw [List.mapM_cons, h a List.mem_cons_self, ih fun b hb => h b (List.mem_cons_of_mem _ hb)]
    rfl

/-- The values of one line. -/
def lineValues (r : StatRow) (t0 t1 : Text) : List Text :=
  t0 :: t1 :: statNames.map fun k => (r.lookup k).getD []

theorem statKeys_mapM {sizeStats : List ParentRow → StatRow} (hs : GivesStats sizeStats) (fl : List ParentRow)
    (t0 t1 : Text) :
    statKeys.mapM (statField (sizeStats fl ++ [("start_isoformat", t0), ("end_isoformat", t1)])) =
      .ok (lineValues (sizeStats fl) t0 t1) := by
  obtain ⟨h1, -, h3, h4⟩ := hs fl
  have e : statKeys = "start_isoformat" :: "end_isoformat" :: statNames := rfl
  rw [e, List.mapM_cons, List.mapM_cons]
  have a1 : statField (sizeStats fl ++ [("start_isoformat", t0), ("end_isoformat", t1)]) "start_isoformat" = .ok t0 := by
    unfold statField; rw [lookup_append_none h3]; rfl
  have a2 : statField (sizeStats fl ++ [("start_isoformat", t0), ("end_isoformat", t1)]) "end_isoformat" = .ok t1 := by
    unfold statField; rw [lookup_append_none h4]; rfl
  have a3 : statNames.mapM (statField (sizeStats fl ++ [("start_isoformat", t0), ("end_isoformat", t1)])) =
      .ok (statNames.map fun k => ((sizeStats fl).lookup k).getD []) := by
    refine mapM_ok_of fun k hk => ?_
    obtain ⟨v, hv⟩ := h1 k hk
    unfold statField
    rw [lookup_append_some hv, hv]
    rfl
  rw [a1, a2, a3]
  rfl

theorem lineValues_plain {sizeStats : List ParentRow → StatRow} (hs : GivesStats sizeStats) (fl : List ParentRow)
    (t0 t1 : DateTime) : ∀ v ∈ lineValues (sizeStats fl) (isoformat 'T' t0) (isoformat 'T' t1), Plain v := by
  intro v hv
  unfold lineValues at hv
  rcases List.mem_cons.mp hv with h | h
  · rw [h]; exact plain_iso _
  rcases List.mem_cons.mp h with h | h
  · rw [h]; exact plain_iso _
  obtain ⟨k, hk, rfl⟩ := List.mem_map.mp h
  obtain ⟨w, hw⟩ := (hs fl).1 k hk
  rw [hw]
  exact (hs fl).2.1 k w hw

theorem statHeader_eq : statHeader = joinFields ("# start_isoformat".toList :: "end_isoformat".toList ::
    statNames.map String.toList) ++ ['\n'] := by decide +kernel

/-- A flash meets the bounds of the command line; altitudes there are in km. -/
def InBounds (a A z Z e E : Rat) (p : ParentRow) : Prop :=
  a ≤ p.area ∧ p.area ≤ A ∧ z * 1000 ≤ p.ctrAlt ∧ p.ctrAlt ≤ Z * 1000 ∧ e ≤ p.totalEnergy ∧ p.totalEnergy ≤ E

instance (a A z Z e E : Rat) (p : ParentRow) : Decidable (InBounds a A z Z e E p) :=
  inferInstanceAs (Decidable (_ ∧ _))

theorem filtered_flashes (events : List (List ChildRow)) (flashes : List (List ParentRow)) (a A z Z e E : Rat)
    (hl : events.length = flashes.length) :
    (filteredTimeSeries events flashes (lassoBounds a A z Z e E)).map Prod.snd =
      flashes.map fun fl => fl.filter fun p => decide (InBounds a A z Z e E p) := by
  unfold filteredTimeSeries
  rw [List.map_map]
  have e1 : flashes = (events.zip flashes).map Prod.snd := by
    rw [List.map_snd_zip]; omega
  conv_rhs => rw [e1]
  rw [List.map_map]
  refine List.map_congr_left fun ef _ => ?_
  simp only [Function.comp]
  refine List.filter_congr fun p _ => ?_
  rw [lasso_flash]
  rfl

theorem zip_map_zip {α β γ : Type} (f : β → γ) (xs : List α) (ys : List β) (h : xs.length = ys.length) :
    (xs.zip ys).map (fun p => f p.2) = ys.map f := by
  have : (xs.zip ys).map (fun p => f p.2) = ((xs.zip ys).map Prod.snd).map f := by rw [List.map_map]; rfl
  rw [this, List.map_snd_zip (by omega)]

/-- C125: the file has a line for each interval, in order; it begins with the start and the end of the interval, and
every further column has the statistic that the first line names, of the flashes of that interval that meet the
bounds. -/
theorem C125_file (sizeStats : List ParentRow → StatRow) (hs : GivesStats sizeStats)
    (events : List (List ChildRow)) (flashes : List (List ParentRow)) (tEdges : List DateTime) (a A z Z e E : Rat)
    (hl : events.length = flashes.length) (ht : tEdges.length = flashes.length + 1) (hne : flashes ≠ []) :
    ∃ text head rows, lassoStatsFile sizeStats events flashes (lassoBounds a A z Z e E) tEdges = .ok text ∧
      csvRows text = head :: rows ∧
      head = ["# start_isoformat".toList, "end_isoformat".toList, "number".toList, "mean".toList, "variance".toList,
        "skewness".toList, "kurtosis".toList, "energy".toList, "energy_per_flash".toList, "total_energy".toList,
        "specific_energy".toList] ∧
      rows.length = flashes.length ∧
      ∀ i fl t0 t1, flashes[i]? = some fl → tEdges[i]? = some t0 → tEdges[i + 1]? = some t1 →
        ∃ row, rows[i]? = some row ∧ row.length = head.length ∧
          row[0]? = some (isoformat 'T' t0) ∧ row[1]? = some (isoformat 'T' t1) ∧
          ∀ (j : Nat) (name : String), 2 ≤ j → head[j]? = some name.toList →
            ∃ v, (sizeStats (fl.filter fun p => decide (InBounds a A z Z e E p))).lookup name = some v ∧
              row[j]? = some v := by
  set kept : List ParentRow → List ParentRow := fun fl => fl.filter fun p => decide (InBounds a A z Z e E p) with hk
  set vals : List (List Text) := List.zipWith (fun fl (t : DateTime × DateTime) =>
    lineValues (sizeStats (kept fl)) (isoformat 'T' t.1) (isoformat 'T' t.2)) flashes (tEdges.dropLast.zip tEdges.tail)
    with hv
  have hfl := filtered_flashes events flashes a A z Z e E hl
  have hfne : filteredTimeSeries events flashes (lassoBounds a A z Z e E) ≠ [] := by
    intro h
    rw [h] at hfl
    exact hne (List.map_eq_nil_iff.mp hfl.symm)
  have hsum : flashSummarySeries sizeStats ((filteredTimeSeries events flashes (lassoBounds a A z Z e E)).map Prod.fst)
      ((filteredTimeSeries events flashes (lassoBounds a A z Z e E)).map Prod.snd) =
      flashes.map fun fl => sizeStats (kept fl) := by
    unfold flashSummarySeries
    rw [zip_map_zip _ _ _ (by simp), hfl, List.map_map]
    rfl
  have happ : appendTimes (flashes.map fun fl => sizeStats (kept fl)) (edgesToIsoformat tEdges) =
      List.zipWith (fun fl (t : DateTime × DateTime) => sizeStats (kept fl) ++
        [("start_isoformat", isoformat 'T' t.1), ("end_isoformat", isoformat 'T' t.2)]) flashes
        (tEdges.dropLast.zip tEdges.tail) := by
    unfold appendTimes edgesToIsoformat
    rw [List.zip_map, List.zipWith_map]
    rfl
  have hlines : (List.zipWith (fun fl (t : DateTime × DateTime) => sizeStats (kept fl) ++
        [("start_isoformat", isoformat 'T' t.1), ("end_isoformat", isoformat 'T' t.2)]) flashes
        (tEdges.dropLast.zip tEdges.tail)).mapM (fun stats => do
          let vals ← statKeys.mapM (statField stats)
          pure (statLine vals)) = .ok (vals.map statLine) := by
    rw [hv]
    generalize tEdges.dropLast.zip tEdges.tail = ts
    clear hsum happ hfl hfne hv hne ht hl
    clear vals
    induction flashes generalizing ts with
    | nil => rfl
    | cons fl fls ih =>
      cases ts with
      | nil => rfl
      | cons t ts =>
        rw [List.zipWith_cons_cons, List.zipWith_cons_cons, List.mapM_cons, statKeys_mapM hs, ih]
        rfl
  have hplain : ∀ vs ∈ vals, vs ≠ [] ∧ ∀ v ∈ vs, Plain v := by
    intro vs hvs
    rw [hv, ← List.map_uncurry_zip_eq_zipWith] at hvs
    obtain ⟨x, -, rfl⟩ := List.mem_map.mp hvs
    exact ⟨List.cons_ne_nil _ _, lineValues_plain hs _ _ _⟩
  have hlen : vals.length = flashes.length := by
    rw [hv, List.length_zipWith, List.length_zip, List.length_dropLast, List.length_tail, ht]
    omega
  have hall : statHeader ++ (vals.map statLine).flatten = ((joinFields ("# start_isoformat".toList ::
      "end_isoformat".toList :: statNames.map String.toList) :: vals.map joinFields).map fun l => l ++ ['\n']).flatten := by
    rw [statHeader_eq, List.map_cons, List.flatten_cons, List.map_map]
    congr 2
    refine List.map_congr_left fun vs _ => ?_
    exact statLine_eq vs
  refine ⟨statHeader ++ (vals.map statLine).flatten, _, vals, ?_, ?_, rfl, hlen, ?_⟩
  · unfold lassoStatsFile
    simp only [if_neg hfne]
    rw [hsum, happ]
    unfold writeSizeStatData
    rw [hlines]
    rfl
  · rw [hall, csvRows_lines, List.map_cons, List.map_map]
    · have h1 : csvFields (joinFields ("# start_isoformat".toList :: "end_isoformat".toList ::
          statNames.map String.toList)) = "# start_isoformat".toList :: "end_isoformat".toList ::
          statNames.map String.toList := by decide +kernel
      rw [h1]
      have h2 : vals.map (csvFields ∘ joinFields) = vals := by
        conv_rhs => rw [← List.map_id vals]
        exact List.map_congr_left fun vs hvs => csvFields_joinFields (hplain vs hvs).1 (hplain vs hvs).2
      rw [h2]
      rfl
    · intro l hl'
      rcases List.mem_cons.mp hl' with h | h
      · rw [h]; decide +kernel
      · obtain ⟨vs, hvs, rfl⟩ := List.mem_map.mp h
        exact joinFields_no_feed (hplain vs hvs).2
  · intro i fl t0 t1 h1 h2 h3
    have hi : i < flashes.length := (List.getElem?_eq_some_iff.mp h1).1
    refine ⟨lineValues (sizeStats (kept fl)) (isoformat 'T' t0) (isoformat 'T' t1), ?_, rfl, rfl, rfl, ?_⟩
    · rw [hv, List.getElem?_zipWith, h1]
      have : (tEdges.dropLast.zip tEdges.tail)[i]? = some (t0, t1) := by
        rw [List.getElem?_zip_eq_some]
        refine ⟨?_, ?_⟩
        · rw [List.getElem?_dropLast, if_pos (by omega)]; exact h2
        · rw [List.getElem?_tail]; exact h3
      rw [this]
    · intro j name hj hname
      obtain ⟨j, rfl⟩ : ∃ k, j = k + 2 := ⟨j - 2, by omega⟩
      have hn : statNames[j]? = some name := by
        have : (statNames.map String.toList)[j]? = some name.toList := hname
        rw [List.getElem?_map, Option.map_eq_some_iff] at this
        obtain ⟨m, hm, hmn⟩ := this
        rw [hm, String.toList_injective hmn]
      obtain ⟨v, hvv⟩ := (hs (kept fl)).1 name (List.mem_of_getElem? hn)
      refine ⟨v, hvv, ?_⟩
      show (statNames.map fun k => ((sizeStats (kept fl)).lookup k).getD [])[j]? = some v
      rw [List.getElem?_map, hn, Option.map_some, hvv]
      rfl

/-- Without intervals the program ends with an exception. -/
theorem C125_no_intervals (sizeStats : List ParentRow → StatRow) (bounds : List (String × Rat × Rat))
    (tEdges : List DateTime) : lassoStatsFile sizeStats [] [] bounds tEdges = .error .valueError := rfl

/-- With an interval for which a statistic is missing, there is no file. -/
theorem C125_missing (rows : List StatRow) (r : StatRow) (hr : r ∈ rows) (k : String) (hk : k ∈ statKeys)
    (h : r.lookup k = none) : writeSizeStatData rows = .error .valueError := by
  have field : ∀ (r : StatRow) (k : String) (e : Err), statField r k = .error e → e = .valueError := by
    intro r k e he
    unfold statField at he
    split at he
    · cases he
    · cases he; rfl
  have keys : ∀ r : StatRow, (∃ v, statKeys.mapM (statField r) = .ok v) ∨ statKeys.mapM (statField r) = .error .valueError := by
    intro r
    generalize statKeys = ks
    induction ks with
    | nil => exact .inl ⟨[], rfl⟩
    | cons a ks ih =>
      rw [List.mapM_cons]
      cases ha : statField r a with
      | error e => rw [field r a e ha]; exact .inr rfl
      | ok v =>
        rcases ih with ⟨w, hw⟩ | hw
        · rw [hw]; exact .inl ⟨v :: w, rfl⟩
        · rw [hw]; exact .inr rfl
  have hrow : statKeys.mapM (statField r) = .error .valueError := by
    rcases keys r with ⟨v, hv⟩ | hv
    · have := mapM_ok_forall₂ hv
      obtain ⟨i, hi, hik⟩ := List.getElem_of_mem hk
      have h1 := (List.forall₂_iff_get.mp this).2 i hi (this.length_eq ▸ hi)
      simp only [List.get_eq_getElem, hik, statField, h] at h1
      cases h1
    · exact hv
  unfold writeSizeStatData
  have : (rows.mapM fun stats => do
      let vals ← statKeys.mapM (statField stats)
      pure (statLine vals)) = (.error .valueError : Except Err (List Text)) := by
    induction rows with
    | nil => cases hr
    | cons a rows ih =>
      rw [List.mapM_cons]
      rcases keys a with ⟨v, hv⟩ | hv
      · rw [hv]
        rcases List.mem_cons.mp hr with e | e
        · rw [← e, hrow] at hv; cases hv
        · rw [ih e]; rfl
      · rw [hv]; rfl
  rw [this]
  rfl

example : "number" ∈ statKeys ∧ ([("mean", ['1'])] : StatRow).lookup "number" = none := by decide

/-! ### Spectra -/

/-- Two times that agree up to the second, and in the last two digits of the year. -/
def SameShort (a b : DateTime) : Prop :=
  a.year % 100 = b.year % 100 ∧ a.month = b.month ∧ a.day = b.day ∧ a.hour = b.hour ∧ a.minute = b.minute ∧
    a.second = b.second

theorem two_mod {a b : Nat} (h : two a = two b) : a % 100 = b % 100 := by
  simp only [two, List.cons.injEq, and_true] at h
  have h1 := digit_inj h.1
  have h2 := digit_inj h.2
  omega

theorem shortStamp_inj {a b : DateTime} (ha : ValidTime a) (hb : ValidTime b) (h : shortStamp a = shortStamp b) :
    SameShort a b := by
  unfold shortStamp at h
  simp only [List.append_assoc] at h
  obtain ⟨e1, h⟩ := List.append_inj h rfl
  obtain ⟨e2, h⟩ := List.append_inj h rfl
  obtain ⟨e3, h⟩ := List.append_inj h rfl
  obtain ⟨e4, h⟩ := List.append_inj h rfl
  obtain ⟨e5, e6⟩ := List.append_inj h rfl
  have d1 := daysIn_lt a.year a.month
  have d2 := daysIn_lt b.year b.month
  have := ha.month; have := hb.month; have := ha.day; have := hb.day
  have := ha.hour; have := hb.hour; have := ha.minute; have := hb.minute; have := ha.second; have := hb.second
  exact ⟨two_mod e1, two_inj (by omega) (by omega) e2, two_inj (by omega) (by omega) e3,
    two_inj (by omega) (by omega) e4, two_inj (by omega) (by omega) e5, two_inj (by omega) (by omega) e6⟩

/-- C125: there is a spectrum for each interval, made from the areas of the flashes of that interval.  Spectra with the
same file name are of intervals with the same start and end, up to the second and the century. -/
theorem C125_spectra (flashes : List (List ParentRow)) (tEdges : List DateTime)
    (ht : tEdges.length = flashes.length + 1) (hvalid : ∀ t ∈ tEdges, ValidTime t) :
    (energySpectra flashes tEdges).length = flashes.length ∧
    (∀ (i : Nat) s, (energySpectra flashes tEdges)[i]? = some s →
      ∃ fl, flashes[i]? = some fl ∧ s.2 = fl.map ParentRow.area) ∧
    ∀ (i j : Nat) s s', (energySpectra flashes tEdges)[i]? = some s → (energySpectra flashes tEdges)[j]? = some s' →
      s.1 = s'.1 → ∃ t0 t1 t0' t1', tEdges[i]? = some t0 ∧ tEdges[i + 1]? = some t1 ∧ tEdges[j]? = some t0' ∧
        tEdges[j + 1]? = some t1' ∧ SameShort t0 t0' ∧ SameShort t1 t1' := by
  have key : ∀ (i : Nat) s, (energySpectra flashes tEdges)[i]? = some s → ∃ fl t0 t1, flashes[i]? = some fl ∧
      tEdges[i]? = some t0 ∧ tEdges[i + 1]? = some t1 ∧
      s = ("energy_spectrum_".toList ++ shortStamp t0 ++ '_' :: shortStamp t1 ++ ".pdf".toList,
        fl.map fun p => p.area) := by
    intro i s h
    unfold energySpectra at h
    rw [List.getElem?_map, Option.map_eq_some_iff] at h
    obtain ⟨⟨fl, t0, t1⟩, h, rfl⟩ := h
    rw [List.getElem?_zip_eq_some, List.getElem?_zip_eq_some] at h
    obtain ⟨h1, h2, h3⟩ := h
    have hi : i < flashes.length := (List.getElem?_eq_some_iff.mp h1).1
    refine ⟨fl, t0, t1, h1, ?_, ?_, rfl⟩
    · simp only [List.getElem?_dropLast] at h2
      rw [if_pos (by omega)] at h2
      exact h2
    · simpa [List.getElem?_tail] using h3
  refine ⟨?_, ?_, ?_⟩
  · unfold energySpectra
    rw [List.length_map, List.length_zip, List.length_zip, List.length_dropLast, List.length_tail, ht]
    omega
  · intro i s h
    obtain ⟨fl, -, -, h1, -, -, rfl⟩ := key i s h
    exact ⟨fl, h1, rfl⟩
  · intro i j s s' h h' he
    obtain ⟨fl, t0, t1, -, h2, h3, rfl⟩ := key i s h
    obtain ⟨fl', t0', t1', -, h2', h3', rfl⟩ := key j s' h'
    refine ⟨t0, t1, t0', t1', h2, h3, h2', h3', ?_⟩
    simp only [List.append_assoc, List.cons_append] at he
    have he := List.append_cancel_left he
    obtain ⟨e1, he⟩ := List.append_inj he rfl
    have he := (List.cons.inj he).2
    have e2 := (List.append_inj he rfl).1
    have v : ∀ {k : Nat} {t : DateTime}, tEdges[k]? = some t → ValidTime t := fun h => hvalid _ (List.mem_of_getElem? h)
    exact ⟨shortStamp_inj (v h2) (v h2') e1, shortStamp_inj (v h3) (v h3') e2⟩

/-! ### A case -/

/-- Statistics whose first is the number of flashes, the second the sum of their areas. -/
def sampleStats (fl : List ParentRow) : StatRow :=
  statNames.zip (two fl.length :: four (fl.map ParentRow.area).sum.num.toNat :: List.replicate 7 "0.5".toList)

/-- Edges of two intervals. -/
def twoIntervalEdges : List DateTime :=
  [⟨2018, 7, 2, 4, 33, 0, 0⟩, ⟨2018, 7, 2, 4, 34, 0, 0⟩, ⟨2018, 7, 2, 4, 35, 0, 500000⟩]

/-- The first interval has two flashes, of areas 5 and 70; the second has none. -/
def twoIntervals : List (List ParentRow) :=
  [[⟨5, 2, 0, 0, 0, 0, none, none, 0, 0, 0, 1, 1⟩, ⟨70, 2, 0, 0, 0, 0, none, none, 0, 0, 0, 2, 1⟩], []]

example : twoIntervalEdges.length = twoIntervals.length + 1 ∧ twoIntervals ≠ [] := by decide

/-- The file, with the small flash filtered out. -/
example : (lassoStatsFile sampleStats [[], []] twoIntervals (lassoBounds 10 1000 (-1) 100 0 1000) twoIntervalEdges).map
      (fun t => String.ofList t) =
    .ok ("# start_isoformat, end_isoformat, number, mean, variance, skewness, kurtosis, energy, energy_per_flash, " ++
      "total_energy, specific_energy\n" ++
      "2018-07-02T04:33:00, 2018-07-02T04:34:00, 01, 0070, 0.5, 0.5, 0.5, 0.5, 0.5, 0.5, 0.5\n" ++
      "2018-07-02T04:34:00, 2018-07-02T04:35:00.500000, 00, 0000, 0.5, 0.5, 0.5, 0.5, 0.5, 0.5, 0.5\n") := by
  decide +kernel

/-- Statistics as `C125_file` assumes them. -/
example : GivesStats sampleStats := by
  intro fl
  refine ⟨?_, ?_, rfl, rfl⟩
  · intro k hk
    simp only [statNames, List.mem_cons, List.not_mem_nil, or_false] at hk
    rcases hk with rfl | rfl | rfl | rfl | rfl | rfl | rfl | rfl | rfl <;> exact ⟨_, rfl⟩
  · intro k v h
    obtain ⟨l, r, hl, -⟩ := List.lookup_eq_some_iff.mp h
    have hm : (k, v) ∈ sampleStats fl := by rw [hl]; simp
    have hv := (List.of_mem_zip hm).2
    simp only [List.mem_cons, List.mem_replicate] at hv
    rcases hv with rfl | rfl | ⟨-, rfl⟩
    · exact plain_two _
    · exact plain_four _
    · unfold Plain; decide

/-- Names of spectra. -/
example : (energySpectra twoIntervals twoIntervalEdges).map (fun s => (String.ofList s.1, s.2)) =
    [("energy_spectrum_180702043300_180702043400.pdf", [5, 70]),
     ("energy_spectrum_180702043400_180702043500.pdf", [])] := by decide +kernel

example : ∀ t ∈ twoIntervalEdges, ValidTime t := by
  intro t ht
  simp only [twoIntervalEdges, List.mem_cons, List.not_mem_nil, or_false] at ht
  rcases ht with rfl | rfl | rfl <;> constructor <;> decide

end Verif.Props
