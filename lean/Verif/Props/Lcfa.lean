import Verif.Spec.Lcfa
import Verif.Proofs.Lut
import Verif.Props.Values

/-!
# C60: LCFA text files
-/

namespace Verif.Props

open Verif.Py Verif.Model Verif.Spec Verif.Proofs

variable {F : Type}

/-! ## Words -/

theorem splitWords_token (w tok rest : Text) (h : ∀ c ∈ tok, ¬ isWhite c) :
    splitWords w (tok ++ rest) = splitWords (w ++ tok) rest := by
  induction tok generalizing w with
  | nil => simp
  | cons c cs ih =>
    have hc : isWhite c = false := by simpa using h c (by simp)
    rw [List.cons_append, splitWords, hc, if_neg (by simp), ih _ (fun d hd => h d (by simp [hd]))]
    simp

theorem splitWords_white (tail : Text) (h : ∀ c ∈ tail, isWhite c) (w : Text) :
    splitWords w tail = if w = [] then [] else [w] := by
  induction tail generalizing w with
  | nil => rfl
  | cons c cs ih =>
    have hc : isWhite c = true := h c (by simp)
    rw [splitWords, if_pos hc, ih (fun d hd => h d (by simp [hd]))]
    by_cases hw : w = [] <;> simp [hw]

theorem splitWords_tokens (tokens : List Text) (h : ∀ t ∈ tokens, t ≠ [] ∧ ∀ c ∈ t, ¬ isWhite c)
    (tail : Text) (ht : ∀ c ∈ tail, isWhite c) :
    splitWords [] ([' '].intercalate tokens ++ tail) = tokens := by
  induction tokens with
  | nil => simpa using splitWords_white tail ht []
  | cons t ts ih =>
    obtain ⟨hne, hc⟩ := h t (by simp)
    cases ts with
    | nil =>
      rw [List.intercalate_singleton, splitWords_token _ _ _ hc, splitWords_white _ ht]
      simp [hne]
    | cons t' ts' =>
      have e : [' '].intercalate (t :: t' :: ts') ++ tail =
          t ++ (' ' :: ([' '].intercalate (t' :: ts') ++ tail)) := by
        rw [List.intercalate_cons_cons]; simp
      rw [e, splitWords_token _ _ _ hc, List.nil_append, splitWords, if_pos (by decide), if_neg hne,
        ih (fun x hx => h x (by simp [hx]))]

theorem splitColon_none (w : Text) (h : ':' ∉ w) : splitColon w = [w] := by
  induction w with
  | nil => rfl
  | cons c cs ih =>
    have hc : c ≠ ':' := fun e => h (by simp [e])
    rw [splitColon, if_neg hc, ih (fun hm => h (by simp [hm]))]

theorem splitColon_label (label w : Text) (hl : ':' ∉ label) (h : ':' ∉ w) :
    splitColon (label ++ ':' :: w) = [label, w] := by
  induction label with
  | nil => rw [List.nil_append, splitColon, if_pos rfl, splitColon_none w h]
  | cons c cs ih =>
    have hc : c ≠ ':' := fun e => hl (by simp [e])
    rw [List.cons_append, splitColon, if_neg hc, ih (fun hm => hl (by simp [hm]))]

/-! ## Lines -/

theorem linesOf_line (acc l rest : Text) (h : '\n' ∉ l) :
    linesOf acc (l ++ '\n' :: rest) = (acc ++ l ++ ['\n']) :: linesOf [] rest := by
  induction l generalizing acc with
  | nil => rw [List.nil_append, linesOf, if_pos rfl, List.append_nil]
  | cons c cs ih =>
    have hc : c ≠ '\n' := fun e => h (by simp [e])
    rw [List.cons_append, linesOf, if_neg hc, ih _ (fun hm => h (by simp [hm]))]
    simp

theorem linesOf_last (acc l : Text) (h : '\n' ∉ l) :
    linesOf acc l = if acc ++ l = [] then [] else [acc ++ l] := by
  induction l generalizing acc with
  | nil => rw [linesOf, List.append_nil]
  | cons c cs ih =>
    have hc : c ≠ '\n' := fun e => h (by simp [e])
    rw [linesOf, if_neg hc, ih _ (fun hm => h (by simp [hm]))]
    simp

theorem newlines_plain (l rest : Text) (h : '\r' ∉ l) :
    universalNewlines (l ++ rest) = l ++ universalNewlines rest := by
  induction l with
  | nil => rfl
  | cons c cs ih =>
    have hc : c ≠ '\r' := fun e => h (by simp [e])
    rw [List.cons_append, List.cons_append, ← ih (fun hm => h (by simp [hm]))]
    rw [universalNewlines]
    · intro _ he _; exact hc he
    · intro he; exact hc he

theorem newlines_lf (rest : Text) : universalNewlines ('\n' :: rest) = '\n' :: universalNewlines rest := by
  simp [universalNewlines]

theorem newlines_crlf (rest : Text) :
    universalNewlines ('\r' :: '\n' :: rest) = '\n' :: universalNewlines rest := by
  simp [universalNewlines]

/-! ## Records -/

/-- One number of a record. -/
def readCell (N : Numbers F) (isInt : Bool) (w : Text) : Except Err (Cell F) :=
  if isInt then (N.int w).map .int else (N.float w).map .float

theorem readCell_ok (N : Numbers F) (isInt : Bool) (w : Text) (c : Cell F) :
    readCell N isInt w = .ok c ↔ Reads N isInt w c := by
  unfold readCell Reads
  cases isInt
  · simp only [Bool.false_eq_true, if_false]
    cases N.float w with
    | error e => simp [Except.map]
    | ok x => simp [Except.map, eq_comm]
  · simp only [if_true]
    cases N.int w with
    | error e => simp [Except.map]
    | ok x => simp [Except.map, eq_comm]

theorem floatField_at {N : Numbers F} {cols : List Text} {i : Nat} {label w : Text}
    (h : cols[i]? = some (label ++ ':' :: w)) (hl : ':' ∉ label) (hw : IsNumberText w) :
    floatField N cols i = readCell N false w := by
  have hc : ':' ∉ w := fun hm => (hw _ hm).1 rfl
  unfold floatField afterColon textAt readCell
  simp only [h, bind, Except.bind, splitColon_label _ _ hl hc, pure, Except.pure, Bool.false_eq_true,
    if_false, List.getElem?_cons_succ, List.getElem?_cons_zero]
  cases N.float w <;> rfl

theorem intField_at {N : Numbers F} {cols : List Text} {i : Nat} {label w : Text}
    (h : cols[i]? = some (label ++ ':' :: w)) (hl : ':' ∉ label) (hw : IsNumberText w) :
    intField N cols i = readCell N true w := by
  have hc : ':' ∉ w := fun hm => (hw _ hm).1 rfl
  unfold intField afterColon textAt readCell
  simp only [h, bind, Except.bind, splitColon_label _ _ hl hc, pure, Except.pure,
    if_true, List.getElem?_cons_succ, List.getElem?_cons_zero]
  cases N.int w <;> rfl

theorem idField_at {N : Numbers F} {cols : List Text} {i : Nat} {w : Text}
    (h : cols[i]? = some ('#' :: w)) : idField N cols i = readCell N true w := by
  unfold idField textAt readCell
  simp only [h, bind, Except.bind, pure, Except.pure, if_true, List.drop_succ_cons, List.drop_zero]
  cases N.int w <;> rfl

/-- The words of a line. -/
def flashTokens (f : FlashText) : List Text :=
  ["D".toList, "Flash".toList, '#' :: f.id, "Start".toList, "Time".toList ++ ':' :: f.start,
   "End".toList, "Time".toList ++ ':' :: f.stop, "Centroid".toList, "Lat".toList ++ ':' :: f.lat,
   "Centroid".toList, "Lon".toList ++ ':' :: f.lon, "Energy".toList ++ ':' :: f.energy,
   "Footprint".toList ++ ':' :: f.footprint, "Child_Count".toList ++ ':' :: f.childCount]

def groupTokens (g : GroupText) : List Text :=
  ["D".toList, "Group".toList, '#' :: g.id, "Child".toList, '#' :: g.child, "Start".toList,
   "Time".toList ++ ':' :: g.start,
   "End".toList, "Time".toList ++ ':' :: g.stop, "Centroid".toList, "Lat".toList ++ ':' :: g.lat,
   "Centroid".toList, "Lon".toList ++ ':' :: g.lon, "Energy".toList ++ ':' :: g.energy,
   "Footprint".toList ++ ':' :: g.footprint, "Parent_ID".toList ++ ':' :: g.parentId,
   "Child_Count".toList ++ ':' :: g.childCount]

def eventTokens (e : EventText) : List Text :=
  ["Event".toList, '#' :: e.id, "Child".toList, '#' :: e.child, "Time".toList ++ ':' :: e.time,
   "X_Pixel".toList ++ ':' :: e.xPixel, "Y_Pixel".toList ++ ':' :: e.yPixel,
   "Lat".toList ++ ':' :: e.lat, "Lon".toList ++ ':' :: e.lon, "Energy".toList ++ ':' :: e.energy,
   "Parent_ID".toList ++ ':' :: e.parentId]

theorem flash_text (f : FlashText) : f.text = [' '].intercalate (flashTokens f) := by
  delta FlashText.text flashTokens
  simp [List.intercalate]

theorem group_text (g : GroupText) : g.text = '\t' :: [' '].intercalate (groupTokens g) := by
  delta GroupText.text groupTokens
  simp [List.intercalate]

theorem event_text (e : EventText) : e.text = '\t' :: '\t' :: [' '].intercalate (eventTokens e) := by
  delta EventText.text eventTokens
  simp [List.intercalate]

theorem not_white {w : Text} (hw : IsNumberText w) {c : Char} (hc : c ∈ w) : ¬ isWhite c := by
  obtain ⟨-, h1, -⟩ := hw c hc
  have key : ∀ d : Char, d.toNat < 0x21 → c ≠ d := fun d hd he => by rw [he] at h1; omega
  simp only [isWhite, Bool.or_eq_true, decide_eq_true_eq, Bool.and_eq_true, not_or, not_and]
  exact ⟨⟨⟨⟨⟨⟨key _ (by decide), key _ (by decide)⟩, key _ (by decide)⟩, key _ (by decide)⟩, key _ (by decide)⟩,
    key _ (by decide)⟩, by omega⟩

/-- A word made of a label and a number. -/
theorem good_token (label w : Text) (hne : label ≠ []) (hl : ∀ c ∈ label, ¬ isWhite c)
    (hw : IsNumberText w) : label ++ ':' :: w ≠ [] ∧ ∀ c ∈ label ++ ':' :: w, ¬ isWhite c := by
  refine ⟨by simp, ?_⟩
  intro c hc
  rcases List.mem_append.mp hc with h | h
  · exact hl c h
  · rcases List.mem_cons.mp h with rfl | h
    · decide
    · exact not_white hw h

theorem good_id (w : Text) (hw : IsNumberText w) :
    '#' :: w ≠ [] ∧ ¬ isWhite '#' = true ∧ ∀ c ∈ w, ¬ isWhite c = true :=
  ⟨by simp, by decide, fun c hc => not_white hw hc⟩

theorem flash_tokens_good (f : FlashText) (h : (Line.flash f).WellFormed) :
    ∀ t ∈ flashTokens f, t ≠ [] ∧ ∀ c ∈ t, ¬ isWhite c := by
  have h : ∀ w ∈ [f.id, f.start, f.stop, f.lat, f.lon, f.energy, f.footprint, f.childCount],
      IsNumberText w := h
  simp only [List.forall_mem_cons, List.not_mem_nil, false_implies, implies_true, and_true] at h
  obtain ⟨h1, h2, h3, h4, h5, h6, h7, h8⟩ := h
  delta flashTokens
  simp only [List.forall_mem_cons]
  exact ⟨by decide, by decide, good_id _ h1, by decide, good_token _ _ (by decide) (by decide) h2,
    by decide, good_token _ _ (by decide) (by decide) h3, by decide,
    good_token _ _ (by decide) (by decide) h4, by decide, good_token _ _ (by decide) (by decide) h5,
    good_token _ _ (by decide) (by decide) h6, good_token _ _ (by decide) (by decide) h7,
    good_token _ _ (by decide) (by decide) h8, by simp⟩

theorem group_tokens_good (g : GroupText) (h : (Line.group g).WellFormed) :
    ∀ t ∈ groupTokens g, t ≠ [] ∧ ∀ c ∈ t, ¬ isWhite c := by
  have h : ∀ w ∈ [g.id, g.child, g.start, g.stop, g.lat, g.lon, g.energy, g.footprint, g.parentId,
      g.childCount], IsNumberText w := h
  simp only [List.forall_mem_cons, List.not_mem_nil, false_implies, implies_true, and_true] at h
  obtain ⟨h1, h2, h3, h4, h5, h6, h7, h8, h9, h10⟩ := h
  delta groupTokens
  simp only [List.forall_mem_cons]
  exact ⟨by decide, by decide, good_id _ h1, by decide, good_id _ h2, by decide,
    good_token _ _ (by decide) (by decide) h3,
    by decide, good_token _ _ (by decide) (by decide) h4, by decide,
    good_token _ _ (by decide) (by decide) h5, by decide, good_token _ _ (by decide) (by decide) h6,
    good_token _ _ (by decide) (by decide) h7, good_token _ _ (by decide) (by decide) h8,
    good_token _ _ (by decide) (by decide) h9, good_token _ _ (by decide) (by decide) h10, by simp⟩

theorem event_tokens_good (e : EventText) (h : (Line.event e).WellFormed) :
    ∀ t ∈ eventTokens e, t ≠ [] ∧ ∀ c ∈ t, ¬ isWhite c := by
  have h : ∀ w ∈ [e.id, e.child, e.time, e.xPixel, e.yPixel, e.lat, e.lon, e.energy, e.parentId],
      IsNumberText w := h
  simp only [List.forall_mem_cons, List.not_mem_nil, false_implies, implies_true, and_true] at h
  obtain ⟨h1, h2, h3, h4, h5, h6, h7, h8, h9⟩ := h
  delta eventTokens
  simp only [List.forall_mem_cons]
  exact ⟨by decide, good_id _ h1, by decide, good_id _ h2,
    good_token _ _ (by decide) (by decide) h3, good_token _ _ (by decide) (by decide) h4,
    good_token _ _ (by decide) (by decide) h5, good_token _ _ (by decide) (by decide) h6,
    good_token _ _ (by decide) (by decide) h7, good_token _ _ (by decide) (by decide) h8,
    good_token _ _ (by decide) (by decide) h9, by simp⟩

/-- All numbers of a record. -/
def readRecord {R : Type} (N : Numbers F) (columns : List (String × Bool × (R → Text))) (r : R) :
    Except Err (List (Cell F)) := columns.mapM fun col => readCell N col.2.1 (col.2.2 r)

theorem flash_record (N : Numbers F) (f : FlashText) (h : (Line.flash f).WellFormed) (tail : Text)
    (ht : ∀ c ∈ tail, isWhite c) : flashRecord N (f.text ++ tail) = readRecord N flashColumns f := by
  have hw : splitWords [] (f.text ++ tail) = flashTokens f := by
    rw [flash_text, splitWords_tokens _ (flash_tokens_good f h) _ ht]
  have h : ∀ w ∈ [f.id, f.start, f.stop, f.lat, f.lon, f.energy, f.footprint, f.childCount],
      IsNumberText w := h
  simp only [List.forall_mem_cons, List.not_mem_nil, false_implies, implies_true, and_true] at h
  obtain ⟨h1, h2, h3, h4, h5, h6, h7, h8⟩ := h
  delta flashRecord
  rw [hw]
  have r1 : idField N (flashTokens f) 2 = _ := idField_at rfl
  have r2 : floatField N (flashTokens f) 4 = _ := floatField_at rfl (by decide) h2
  have r3 : floatField N (flashTokens f) 6 = _ := floatField_at rfl (by decide) h3
  have r4 : floatField N (flashTokens f) 8 = _ := floatField_at rfl (by decide) h4
  have r5 : floatField N (flashTokens f) 10 = _ := floatField_at rfl (by decide) h5
  have r6 : floatField N (flashTokens f) 11 = _ := floatField_at rfl (by decide) h6
  have r7 : floatField N (flashTokens f) 12 = _ := floatField_at rfl (by decide) h7
  have r8 : intField N (flashTokens f) 13 = _ := intField_at rfl (by decide) h8
  simp only [r1, r2, r3, r4, r5, r6, r7, r8]
  delta readRecord flashColumns
  simp only [List.mapM_cons, List.mapM_nil, bind_assoc, pure_bind]

theorem group_record (N : Numbers F) (g : GroupText) (h : (Line.group g).WellFormed) (tail : Text)
    (ht : ∀ c ∈ tail, isWhite c) : groupRecord N (g.text ++ tail) = readRecord N groupColumns g := by
  have hw : splitWords [] (g.text ++ tail) = groupTokens g := by
    rw [group_text, List.cons_append, splitWords, if_pos (by decide), if_pos rfl,
      splitWords_tokens _ (group_tokens_good g h) _ ht]
  have h : ∀ w ∈ [g.id, g.child, g.start, g.stop, g.lat, g.lon, g.energy, g.footprint, g.parentId,
      g.childCount], IsNumberText w := h
  simp only [List.forall_mem_cons, List.not_mem_nil, false_implies, implies_true, and_true] at h
  obtain ⟨h1, h2, h3, h4, h5, h6, h7, h8, h9, h10⟩ := h
  delta groupRecord
  rw [hw]
  have r1 : idField N (groupTokens g) 2 = _ := idField_at rfl
  have r2 : floatField N (groupTokens g) 6 = _ := floatField_at rfl (by decide) h3
  have r3 : floatField N (groupTokens g) 10 = _ := floatField_at rfl (by decide) h5
  have r4 : floatField N (groupTokens g) 12 = _ := floatField_at rfl (by decide) h6
  have r5 : floatField N (groupTokens g) 13 = _ := floatField_at rfl (by decide) h7
  have r6 : floatField N (groupTokens g) 14 = _ := floatField_at rfl (by decide) h8
  have r7 : intField N (groupTokens g) 15 = _ := intField_at rfl (by decide) h9
  have r8 : intField N (groupTokens g) 16 = _ := intField_at rfl (by decide) h10
  simp only [r1, r2, r3, r4, r5, r6, r7, r8]
  delta readRecord groupColumns
  simp only [List.mapM_cons, List.mapM_nil, bind_assoc, pure_bind]

theorem event_record (N : Numbers F) (e : EventText) (h : (Line.event e).WellFormed) (tail : Text)
    (ht : ∀ c ∈ tail, isWhite c) : eventRecord N (e.text ++ tail) = readRecord N eventColumns e := by
  have hw : splitWords [] (e.text ++ tail) = eventTokens e := by
    rw [event_text, List.cons_append, List.cons_append, splitWords, if_pos (by decide), if_pos rfl,
      splitWords, if_pos (by decide), if_pos rfl, splitWords_tokens _ (event_tokens_good e h) _ ht]
  have h : ∀ w ∈ [e.id, e.child, e.time, e.xPixel, e.yPixel, e.lat, e.lon, e.energy, e.parentId],
      IsNumberText w := h
  simp only [List.forall_mem_cons, List.not_mem_nil, false_implies, implies_true, and_true] at h
  obtain ⟨h1, h2, h3, h4, h5, h6, h7, h8, h9⟩ := h
  delta eventRecord
  rw [hw]
  have r1 : idField N (eventTokens e) 1 = _ := idField_at rfl
  have r2 : floatField N (eventTokens e) 4 = _ := floatField_at rfl (by decide) h3
  have r3 : intField N (eventTokens e) 5 = _ := intField_at rfl (by decide) h4
  have r4 : intField N (eventTokens e) 6 = _ := intField_at rfl (by decide) h5
  have r5 : floatField N (eventTokens e) 7 = _ := floatField_at rfl (by decide) h6
  have r6 : floatField N (eventTokens e) 8 = _ := floatField_at rfl (by decide) h7
  have r7 : floatField N (eventTokens e) 9 = _ := floatField_at rfl (by decide) h8
  have r8 : intField N (eventTokens e) 10 = _ := intField_at rfl (by decide) h9
  simp only [r1, r2, r3, r4, r5, r6, r7, r8]
  delta readRecord eventColumns
  simp only [List.mapM_cons, List.mapM_nil, bind_assoc, pure_bind]

/-! ## Files -/

theorem white_newline : isWhite '\n' = true ∧ isWhite '\r' = true := by decide

theorem text_plain (l : Line) (h : l.WellFormed) : '\n' ∉ l.text ∧ '\r' ∉ l.text := by
  have key : ∀ tokens : List Text, (∀ t ∈ tokens, t ≠ [] ∧ ∀ c ∈ t, ¬ isWhite c) →
      ∀ c ∈ [' '].intercalate tokens, c = ' ' ∨ ¬ isWhite c := by
    intro tokens ht
    induction tokens with
    | nil => intro c hc; simp [List.intercalate] at hc
    | cons t ts ih =>
      intro c hc
      cases ts with
      | nil => rw [List.intercalate_singleton] at hc; exact Or.inr ((ht t (by simp)).2 c hc)
      | cons t' ts' =>
        rw [List.intercalate_cons_cons] at hc
        rcases List.mem_append.mp hc with hc | hc
        · rcases List.mem_append.mp hc with hc | hc
          · exact Or.inr ((ht t (by simp)).2 c hc)
          · exact Or.inl (by simpa using hc)
        · exact ih (fun x hx => ht x (by simp [hx])) c hc
  have fin : ∀ (tokens : List Text) (c : Char), (∀ t ∈ tokens, t ≠ [] ∧ ∀ c ∈ t, ¬ isWhite c) →
      isWhite c = true → c ≠ ' ' → c ∉ [' '].intercalate tokens := by
    intro tokens c ht hw hs hc
    rcases key tokens ht c hc with h | h
    · exact hs h
    · exact h hw
  cases l with
  | flash f =>
    show '\n' ∉ f.text ∧ '\r' ∉ f.text
    rw [flash_text]
    exact ⟨fin _ _ (flash_tokens_good f h) (by decide) (by decide),
      fin _ _ (flash_tokens_good f h) (by decide) (by decide)⟩
  | group g =>
    show '\n' ∉ g.text ∧ '\r' ∉ g.text
    rw [group_text, List.mem_cons, List.mem_cons, not_or, not_or]
    exact ⟨⟨by decide, fin _ _ (group_tokens_good g h) (by decide) (by decide)⟩, by decide,
      fin _ _ (group_tokens_good g h) (by decide) (by decide)⟩
  | event e =>
    show '\n' ∉ e.text ∧ '\r' ∉ e.text
    rw [event_text, List.mem_cons, List.mem_cons, List.mem_cons, List.mem_cons, not_or, not_or, not_or,
      not_or]
    exact ⟨⟨by decide, by decide, fin _ _ (event_tokens_good e h) (by decide) (by decide)⟩, by decide,
      by decide, fin _ _ (event_tokens_good e h) (by decide) (by decide)⟩
  | other t => exact ⟨h.1, h.2.1⟩

/-- The lines that are read from a document. -/
theorem document_lines (lines : List (Line × Bool)) (last : Option Line)
    (hl : ∀ l ∈ lines, l.1.WellFormed) (hlast : ∀ l ∈ last, l.WellFormed) :
    linesOf [] (universalNewlines (document lines last)) =
      lines.map (fun l => l.1.text ++ ['\n']) ++
        ((last.map Line.text).toList.filter fun t => !t.isEmpty) := by
  unfold document
  induction lines with
  | nil =>
    cases last with
    | none => rfl
    | some l =>
      obtain ⟨h1, h2⟩ := text_plain l (hlast l rfl)
      simp only [List.flatMap_nil, Option.map_some, Option.getD_some, List.nil_append, List.map_nil,
        Option.toList_some]
      have e := newlines_plain l.text [] h2
      rw [List.append_nil] at e
      rw [e]
      show linesOf [] (l.text ++ []) = _
      rw [List.append_nil, linesOf_last _ _ h1, List.nil_append]
      by_cases hn : l.text = []
      · rw [if_pos hn, hn]; rfl
      · rw [if_neg hn, List.filter_cons_of_pos (by simpa using hn)]; rfl
  | cons l ls ih =>
    obtain ⟨h1, h2⟩ := text_plain l.1 (hl l (by simp))
    have ih := ih fun x hx => hl x (by simp [hx])
    rw [List.flatMap_cons, List.append_assoc, List.append_assoc, newlines_plain _ _ h2, List.map_cons,
      List.cons_append, ← ih]
    cases l.2 with
    | true =>
      rw [if_pos rfl, List.cons_append, List.cons_append, List.nil_append, newlines_crlf,
        linesOf_line _ _ _ h1, List.nil_append]
    | false =>
      rw [if_neg (by simp), List.cons_append, List.nil_append, newlines_lf, linesOf_line _ _ _ h1,
        List.nil_append]

/-- The beginnings of the lines. -/
theorem starts (l : Line) (h : l.WellFormed) (tail : Text) (ht : tail = ['\n'] ∨ tail = []) :
    startsWith "D Flash".toList (l.text ++ tail) = l.flash?.isSome ∧
    startsWith "\tD Group".toList (l.text ++ tail) = l.group?.isSome ∧
    startsWith "\t\tEvent".toList (l.text ++ tail) = l.event?.isSome := by
  cases l with
  | flash f =>
    refine ⟨?_, ?_, ?_⟩ <;>
    · show startsWith _ (f.text ++ tail) = _
      delta FlashText.text
      simp [startsWith, List.isPrefixOf, Line.flash?, Line.group?, Line.event?]
  | group g =>
    refine ⟨?_, ?_, ?_⟩ <;>
    · show startsWith _ (g.text ++ tail) = _
      delta GroupText.text
      simp [startsWith, List.isPrefixOf, Line.flash?, Line.group?, Line.event?]
  | event e =>
    refine ⟨?_, ?_, ?_⟩ <;>
    · show startsWith _ (e.text ++ tail) = _
      delta EventText.text
      simp [startsWith, List.isPrefixOf, Line.flash?, Line.group?, Line.event?]
  | other t =>
    have key : ∀ p : Text, '\n' ∉ p → ¬ p <+: t → startsWith p (t ++ tail) = false := by
      intro p hp hn
      unfold startsWith
      by_contra hc
      have hc : p <+: t ++ tail := List.isPrefixOf_iff_prefix.mp (by simpa using hc)
      rcases ht with rfl | rfl
      · rw [List.prefix_concat_iff] at hc
        rcases hc with hc | hc
        · exact hp (by rw [hc]; simp)
        · exact hn hc
      · rw [List.append_nil] at hc; exact hn hc
    obtain ⟨-, -, h1, h2, h3⟩ := h
    exact ⟨key _ (by decide) h1, key _ (by decide) h2, key _ (by decide) h3⟩

/-- Reading the records of one kind. -/
theorem gen_kind {R : Type} (N : Numbers F) (start : Text) (record : Text → Except Err (List (Cell F)))
    (kind : Line → Option R) (columns : List (String × Bool × (R → Text)))
    (hstart : start ≠ [])
    (hs : ∀ l : Line, l.WellFormed → ∀ tail : Text, tail = ['\n'] ∨ tail = [] →
      startsWith start (l.text ++ tail) = (kind l).isSome)
    (hr : ∀ l : Line, l.WellFormed → ∀ tail : Text, tail = ['\n'] ∨ tail = [] → ∀ r, kind l = some r →
      record (l.text ++ tail) = readRecord N columns r)
    (lines : List (Line × Bool)) (last : Option Line)
    (hl : ∀ l ∈ lines, l.1.WellFormed) (hlast : ∀ l ∈ last, l.WellFormed) :
    genRecords start record (document lines last) =
      ((lines.map Prod.fst ++ last.toList).filterMap kind).mapM (readRecord N columns) := by
  unfold genRecords
  rw [document_lines lines last hl hlast]
  -- an empty last line is not read, and would not have been a record
  have hempty : ∀ t : Text, startsWith start t = true → t.isEmpty = false := by
    intro t h
    cases t with
    | nil =>
      cases start with
      | nil => exact absurd rfl hstart
      | cons c cs => simp [startsWith] at h
    | cons c cs => rfl
  have hfilter : ∀ ts : List Text, (ts.filter fun t => !t.isEmpty).filter (startsWith start) =
      ts.filter (startsWith start) := by
    intro ts
    rw [List.filter_filter]
    apply List.filter_congr
    intro t _
    cases h : startsWith start t with
    | false => rfl
    | true => rw [hempty t h]; rfl
  rw [List.filter_append, hfilter, ← List.filter_append]
  have e : lines.map (fun l => l.1.text ++ ['\n']) ++ (last.map Line.text).toList =
      (lines.map (fun l => (l.1, ['\n'])) ++ last.toList.map fun l => (l, ([] : Text))).map
        fun p => p.1.text ++ p.2 := by
    rw [List.map_append, List.map_map, List.map_map]
    congr 1
    cases last with
    | none => rfl
    | some l => simp
  have e2 : lines.map Prod.fst ++ last.toList =
      (lines.map (fun l => (l.1, ['\n'])) ++ last.toList.map fun l => (l, ([] : Text))).map Prod.fst := by
    rw [List.map_append, List.map_map, List.map_map]
    congr 1
    simp [Function.comp_def]
  have hwf : ∀ p ∈ lines.map (fun l => (l.1, ['\n'])) ++ last.toList.map fun l => (l, ([] : Text)),
      p.1.WellFormed ∧ (p.2 = ['\n'] ∨ p.2 = []) := by
    intro p hp
    rcases List.mem_append.mp hp with hp | hp
    · obtain ⟨l, hl', rfl⟩ := List.mem_map.mp hp
      exact ⟨hl l hl', Or.inl rfl⟩
    · obtain ⟨l, hl', rfl⟩ := List.mem_map.mp hp
      exact ⟨hlast l (by simpa using hl'), Or.inr rfl⟩
  rw [e, e2]
  generalize lines.map (fun l => (l.1, ['\n'])) ++ last.toList.map (fun l => (l, ([] : Text))) = raw at hwf
  induction raw with
  | nil => rfl
  | cons p ps ih =>
    obtain ⟨h1, h2⟩ := hwf p (by simp)
    have ih := ih fun x hx => hwf x (by simp [hx])
    rw [List.map_cons, List.map_cons]
    have h3 := hs p.1 h1 p.2 h2
    cases hk : kind p.1 with
    | none =>
      rw [hk] at h3
      rw [List.filter_cons_of_neg (by simp [h3]), List.filterMap_cons_none hk, ih]
    | some r =>
      rw [hk] at h3
      rw [List.filter_cons_of_pos h3, List.filterMap_cons_some hk, List.mapM_cons, List.mapM_cons, ih,
        hr p.1 h1 p.2 h2 r hk]

/-- Records and columns. -/
theorem frame_of_records {R : Type} (N : Numbers F) (columns : List (String × Bool × (R → Text)))
    (rs : List R) (recs : List (List (Cell F)))
    (h : List.Forall₂ (fun r rec => readRecord N columns r = .ok rec) rs recs) :
    FrameOf N columns rs (fromRecords recs (columns.map Prod.fst)) := by
  unfold FrameOf fromRecords
  rw [List.forall₂_iff_get]
  refine ⟨by simp, ?_⟩
  intro i h1 h2
  simp only [List.get_eq_getElem, List.getElem_map, List.getElem_zipIdx, Nat.zero_add]
  refine ⟨trivial, ?_⟩
  induction h with
  | nil => exact List.Forall₂.nil
  | @cons r rec rs recs hr _ ih =>
    have h3 := mapM_ok_forall₂ hr
    have hlen := h3.length_eq
    have h4 := (List.forall₂_iff_get.mp h3).2 i h1 (hlen ▸ h1)
    have h5 : rec[i]? = some (rec[i]'(hlen ▸ h1)) := List.getElem?_eq_getElem _
    rw [List.filterMap_cons_some (f := fun x : List (Cell F) => x[i]?) h5]
    refine List.Forall₂.cons ?_ (ih (by simpa using h1))
    exact (readCell_ok N _ _ _).mp h4

theorem flash_names : flashColumns.map Prod.fst = flashColNames := rfl
theorem group_names : groupColumns.map Prod.fst = groupColNames := rfl
theorem event_names : eventColumns.map Prod.fst = eventColNames := rfl

/-- The three generators on a document. -/
theorem gen_document (N : Numbers F) (lines : List (Line × Bool)) (last : Option Line)
    (hl : ∀ l ∈ lines, l.1.WellFormed) (hlast : ∀ l ∈ last, l.WellFormed) :
    genRecords "D Flash".toList (flashRecord N) (document lines last) =
      ((lines.map Prod.fst ++ last.toList).filterMap Line.flash?).mapM (readRecord N flashColumns) ∧
    genRecords "\tD Group".toList (groupRecord N) (document lines last) =
      ((lines.map Prod.fst ++ last.toList).filterMap Line.group?).mapM (readRecord N groupColumns) ∧
    genRecords "\t\tEvent".toList (eventRecord N) (document lines last) =
      ((lines.map Prod.fst ++ last.toList).filterMap Line.event?).mapM (readRecord N eventColumns) := by
  have hwhite : ∀ tail : Text, tail = ['\n'] ∨ tail = [] → ∀ c ∈ tail, isWhite c := by
    rintro tail (rfl | rfl) c hc
    · rw [List.mem_singleton.mp hc]; decide
    · cases hc
  refine ⟨?_, ?_, ?_⟩
  · refine gen_kind N _ _ _ _ (by decide) (fun l h t ht => (starts l h t ht).1) ?_ _ _ hl hlast
    intro l h t ht r hr
    cases l <;> cases hr
    exact flash_record N _ h t (hwhite t ht)
  · refine gen_kind N _ _ _ _ (by decide) (fun l h t ht => (starts l h t ht).2.1) ?_ _ _ hl hlast
    intro l h t ht r hr
    cases l <;> cases hr
    exact group_record N _ h t (hwhite t ht)
  · refine gen_kind N _ _ _ _ (by decide) (fun l h t ht => (starts l h t ht).2.2) ?_ _ _ hl hlast
    intro l h t ht r hr
    cases l <;> cases hr
    exact event_record N _ h t (hwhite t ht)

/-- C60: what is read from a file are the flashes, groups and events in it, each in order, with every
number in its documented column. -/
theorem C60_frames (N : Numbers F) (lines : List (Line × Bool)) (last : Option Line)
    (hl : ∀ l ∈ lines, l.1.WellFormed) (hlast : ∀ l ∈ last, l.WellFormed)
    (flashes groups events : DataFrame F)
    (h : parseLcfa N (document lines last) = .ok (flashes, groups, events)) :
    FrameOf N flashColumns ((lines.map Prod.fst ++ last.toList).filterMap Line.flash?) flashes ∧
    FrameOf N groupColumns ((lines.map Prod.fst ++ last.toList).filterMap Line.group?) groups ∧
    FrameOf N eventColumns ((lines.map Prod.fst ++ last.toList).filterMap Line.event?) events := by
  obtain ⟨g1, g2, g3⟩ := gen_document N lines last hl hlast
  unfold parseLcfa at h
  rw [g1, g2, g3] at h
  obtain ⟨f, hf, h⟩ := bind_ok h
  obtain ⟨g, hg, h⟩ := bind_ok h
  obtain ⟨e, he, h⟩ := bind_ok h
  cases h
  exact ⟨frame_of_records N _ _ _ (mapM_ok_forall₂ hf), frame_of_records N _ _ _ (mapM_ok_forall₂ hg),
    frame_of_records N _ _ _ (mapM_ok_forall₂ he)⟩

/-- C60: reading succeeds if all numbers that have a column can be read. -/
theorem C60_success (N : Numbers F) (lines : List (Line × Bool)) (last : Option Line)
    (hl : ∀ l ∈ lines, l.1.WellFormed) (hlast : ∀ l ∈ last, l.WellFormed)
    (hf : ∀ f ∈ (lines.map Prod.fst ++ last.toList).filterMap Line.flash?, ∀ col ∈ flashColumns,
      ∃ c, Reads N col.2.1 (col.2.2 f) c)
    (hg : ∀ g ∈ (lines.map Prod.fst ++ last.toList).filterMap Line.group?, ∀ col ∈ groupColumns,
      ∃ c, Reads N col.2.1 (col.2.2 g) c)
    (he : ∀ e ∈ (lines.map Prod.fst ++ last.toList).filterMap Line.event?, ∀ col ∈ eventColumns,
      ∃ c, Reads N col.2.1 (col.2.2 e) c) :
    ∃ flashes groups events, parseLcfa N (document lines last) = .ok (flashes, groups, events) := by
  obtain ⟨g1, g2, g3⟩ := gen_document N lines last hl hlast
  have key : ∀ {R : Type} (columns : List (String × Bool × (R → Text))) (rs : List R),
      (∀ r ∈ rs, ∀ col ∈ columns, ∃ c, Reads N col.2.1 (col.2.2 r) c) →
      ∃ recs, rs.mapM (readRecord N columns) = .ok recs := by
    intro R columns rs h
    obtain ⟨recs, h1, -⟩ := mapM_ok_of_forall (f := readRecord N columns) (P := fun _ _ => True) (l := rs)
      (fun r hr => by
        obtain ⟨rec, h2, -⟩ := mapM_ok_of_forall (f := fun col : String × Bool × (R → Text) =>
          readCell N col.2.1 (col.2.2 r)) (P := fun _ _ => True) (l := columns)
          (fun col hc => by
            obtain ⟨c, hc⟩ := h r hr col hc
            exact ⟨c, (readCell_ok N _ _ _).mpr hc, trivial⟩)
        exact ⟨rec, h2, trivial⟩)
    exact ⟨recs, h1⟩
  obtain ⟨r1, k1⟩ := key _ _ hf
  obtain ⟨r2, k2⟩ := key _ _ hg
  obtain ⟨r3, k3⟩ := key _ _ he
  unfold parseLcfa
  rw [g1, g2, g3, k1, k2, k3]
  exact ⟨_, _, _, rfl⟩

/-- Numbers without sign and fraction, for an example. -/
def toyNumbers : Numbers Nat where
  int := fun w => if w ≠ [] ∧ w.all Char.isDigit then
    .ok (w.foldl (fun n c => 10 * n + (c.toNat - 48)) 0 : Nat) else .error .valueError
  float := fun w => if w ≠ [] ∧ w.all Char.isDigit then
    .ok (w.foldl (fun n c => 10 * n + (c.toNat - 48)) 0) else .error .valueError

def sampleFlash (n : Text) : FlashText :=
  ⟨n, "11".toList, "12".toList, "13".toList, "14".toList, "15".toList, "16".toList, "1".toList⟩

def sampleGroup (n parent : Text) : GroupText :=
  ⟨n, "0".toList, "21".toList, "22".toList, "23".toList, "24".toList, "25".toList, "26".toList, parent,
    "1".toList⟩

def sampleEvent (n parent : Text) : EventText :=
  ⟨n, "0".toList, "31".toList, "32".toList, "33".toList, "34".toList, "35".toList, "36".toList, parent⟩

def sampleLines : List (Line × Bool) :=
  [(.other "Header: D Flash".toList, false), (.flash (sampleFlash "7".toList), false),
   (.group (sampleGroup "8".toList "7".toList), true),
   (.event (sampleEvent "9".toList "8".toList), false), (.other [], false),
   (.flash (sampleFlash "70".toList), true)]

instance (w : Text) : Decidable (IsNumberText w) := inferInstanceAs (Decidable (∀ c ∈ w, _))

instance (l : Line) : Decidable l.WellFormed :=
  match l with
  | .flash _ => inferInstanceAs (Decidable (∀ w ∈ _, IsNumberText w))
  | .group _ => inferInstanceAs (Decidable (∀ w ∈ _, IsNumberText w))
  | .event _ => inferInstanceAs (Decidable (∀ w ∈ _, IsNumberText w))
  | .other t => inferInstanceAs (Decidable ('\n' ∉ t ∧ '\r' ∉ t ∧ ¬ "D Flash".toList <+: t ∧
      ¬ "\tD Group".toList <+: t ∧ ¬ "\t\tEvent".toList <+: t))

/-- A file with lines of all kinds, which is read. -/
example : (∀ l ∈ sampleLines, l.1.WellFormed) ∧
    (Line.group (sampleGroup "80".toList "70".toList)).WellFormed := by
  decide

example : (parseLcfa toyNumbers
    (document sampleLines (some (.group (sampleGroup "80".toList "70".toList))))).toOption.map
      (fun r => [r.1, r.2.1, r.2.2]) =
    some [fromRecords [[.int 7, .float 11, .float 12, .float 13, .float 14, .float 15, .float 16, .int 1],
        [.int 70, .float 11, .float 12, .float 13, .float 14, .float 15, .float 16, .int 1]] flashColNames,
      fromRecords [[.int 8, .float 21, .float 23, .float 24, .float 25, .float 26, .int 7, .int 1],
        [.int 80, .float 21, .float 23, .float 24, .float 25, .float 26, .int 70, .int 1]] groupColNames,
      fromRecords [[.int 9, .float 31, .int 32, .int 33, .float 34, .float 35, .float 36, .int 8]]
        eventColNames] := by
  decide +kernel

end Verif.Props
