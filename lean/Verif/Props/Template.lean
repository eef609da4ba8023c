import Verif.Model.Template
import Verif.Props.Meta

/-!
# C148: templates of paths
-/

namespace Verif.Props

open Verif.Py Verif.Model

/-! ## Specification -/

/-- What can be asked of a time. -/
inductive Directive
  | year
  | yearOfCentury
  | month
  | monthName
  | day
  | hour
  | minute
  | second
  | dayOfYear
  | microsecond
  | percent
  deriving DecidableEq

/-- The letter by which it is asked for. -/
def Directive.letter : Directive → Char
  | .year => 'Y'
  | .yearOfCentury => 'y'
  | .month => 'm'
  | .monthName => 'b'
  | .day => 'd'
  | .hour => 'H'
  | .minute => 'M'
  | .second => 'S'
  | .dayOfYear => 'j'
  | .microsecond => 'f'
  | .percent => '%'

/-- The names of the months. -/
def englishMonths : List String :=
  ["Jan", "Feb", "Mar", "Apr", "May", "Jun", "Jul", "Aug", "Sep", "Oct", "Nov", "Dec"]

/-- How it is shown. -/
def Directive.Shows (t : DateTime) : Directive → Text → Prop
  | .year, s => IsDecimal 4 t.year s
  | .yearOfCentury, s => IsDecimal 2 (t.year % 100) s
  | .month, s => IsDecimal 2 t.month s
  | .monthName, s => ∃ m, englishMonths[t.month - 1]? = some m ∧ s = m.toList
  | .day, s => IsDecimal 2 t.day s
  | .hour, s => IsDecimal 2 t.hour s
  | .minute, s => IsDecimal 2 t.minute s
  | .second, s => IsDecimal 2 t.second s
  | .dayOfYear, s => IsDecimal 3 (yearDay t.year t.month t.day) s
  | .microsecond, s => IsDecimal 6 t.microsecond s
  | .percent, s => s = ['%']

/-- A part of the format of a time: a character that stands for itself, or a directive. -/
inductive Stroke
  | char (c : Char)
  | directive (d : Directive)
  deriving DecidableEq

def Stroke.written : Stroke → Text
  | .char c => [c]
  | .directive d => ['%', d.letter]

def Stroke.Shows (t : DateTime) : Stroke → Text → Prop
  | .char c, s => s = [c]
  | .directive d, s => d.Shows t s

/-- Characters that mean something in the format of a time. -/
def Stroke.Valid : Stroke → Prop
  | .char c => c ≠ '%' ∧ c ≠ '{' ∧ c ≠ '}'
  | .directive _ => True

/-- A part of a template: text, the name of the data set, the start and the end of the image. -/
inductive Piece
  | text (t : Text)
  | name
  | start (format : List Stroke)
  | stop (format : List Stroke)
  deriving DecidableEq

/-- Braces are written twice. -/
def escaped (t : Text) : Text :=
  t.flatMap fun c => if c = '{' then ['{', '{'] else if c = '}' then ['}', '}'] else [c]

/-- A part of a template as it is written. -/
def Piece.written : Piece → Text
  | .text t => escaped t
  | .name => "{dataset_name}".toList
  | .start f => "{start_time:".toList ++ f.flatMap Stroke.written ++ ['}']
  | .stop f => "{end_time:".toList ++ f.flatMap Stroke.written ++ ['}']

/-- The format of a time is not empty, and has no special characters. -/
def Piece.Valid : Piece → Prop
  | .start f => f ≠ [] ∧ ∀ s ∈ f, s.Valid
  | .stop f => f ≠ [] ∧ ∀ s ∈ f, s.Valid
  | _ => True

/-- The text of a time in a format. -/
def ShowsTime (t : DateTime) (f : List Stroke) (s : Text) : Prop :=
  ∃ parts, List.Forall₂ (fun k p => Stroke.Shows t k p) f parts ∧ s = parts.flatten

/-- A part of a path, for an image with the given start, end and name. -/
def Piece.Shows (start stop : DateTime) (name : Text) : Piece → Text → Prop
  | .text t, s => s = t
  | .name, s => s = name
  | .start f, s => ShowsTime start f s
  | .stop f, s => ShowsTime stop f s

/-- A template as it is written. -/
def templateOf (pieces : List Piece) : Text := pieces.flatMap Piece.written

/-- The path of an image. -/
def ShowsPath (start stop : DateTime) (name : Text) (pieces : List Piece) (path : Text) : Prop :=
  ∃ parts, List.Forall₂ (fun k p => Piece.Shows start stop name k p) pieces parts ∧ path = parts.flatten

/-! ## What the model makes of the parts -/

def Directive.value (t : DateTime) : Directive → Text
  | .year => strftimeYear t.year
  | .yearOfCentury => two t.year
  | .month => two t.month
  | .monthName => Model.monthName t.month
  | .day => two t.day
  | .hour => two t.hour
  | .minute => two t.minute
  | .second => two t.second
  | .dayOfYear => three (Model.dayOfYear t.year t.month t.day)
  | .microsecond => six t.microsecond
  | .percent => ['%']

def Stroke.value (t : DateTime) : Stroke → Text
  | .char c => [c]
  | .directive d => d.value t

def Piece.value (start stop : DateTime) (name : Text) : Piece → Text
  | .text t => t
  | .name => name
  | .start f => f.flatMap (Stroke.value start)
  | .stop f => f.flatMap (Stroke.value stop)

def pathOf (pieces : List Piece) (start stop : DateTime) (name : Text) : Text :=
  pieces.flatMap (Piece.value start stop name)

theorem directive_value (o : FormatOthers) (t : DateTime) (d : Directive) : strftimeDirective o d.letter t = d.value t := by
  cases d <;> rfl

theorem strftime_strokes (o : FormatOthers) (t : DateTime) (f : List Stroke) (hf : ∀ s ∈ f, s.Valid) :
    strftime o t (f.flatMap Stroke.written) = f.flatMap (Stroke.value t) := by
  induction f with
  | nil => rfl
  | cons s f ih =>
    have ih := ih fun s hs => hf s (List.mem_cons_of_mem _ hs)
    have hs := hf s (by simp)
    rw [List.flatMap_cons, List.flatMap_cons]
    cases s with
    | char c =>
      have hc : c ≠ '%' := hs.1
      show strftime o t (c :: f.flatMap Stroke.written) = c :: f.flatMap (Stroke.value t)
      rw [strftime, ih]
      intro c' rest h
      exact absurd h hc
    | directive d =>
      show strftime o t ('%' :: d.letter :: f.flatMap Stroke.written) = d.value t ++ f.flatMap (Stroke.value t)
      rw [strftime, directive_value, ih]

theorem stroke_letters {f : List Stroke} (hf : ∀ s ∈ f, s.Valid) : ∀ c ∈ f.flatMap Stroke.written, c ≠ '{' ∧ c ≠ '}' := by
  intro c hc
  obtain ⟨s, hs, hc⟩ := List.mem_flatMap.mp hc
  have hv := hf s hs
  cases s with
  | char a =>
    have hc : c ∈ [a] := hc
    rw [List.mem_singleton] at hc
    exact hc ▸ hv.2
  | directive d =>
    have hc : c ∈ ['%', d.letter] := hc
    rcases List.mem_cons.mp hc with rfl | hc
    · decide
    · rw [List.mem_singleton] at hc
      subst hc
      cases d <;> decide

theorem strokes_nonempty {f : List Stroke} (hf : f ≠ []) : f.flatMap Stroke.written ≠ [] := by
  cases f with
  | nil => exact absurd rfl hf
  | cons s f => cases s <;> simp [Stroke.written]

/-! ## Reading a template -/

variable (o : FormatOthers) (start stop : DateTime) (name : Text)

theorem escaped_cons (c : Char) (t : Text) : escaped (c :: t) =
    (if c = '{' then ['{', '{'] else if c = '}' then ['}', '}'] else [c]) ++ escaped t := rfl

theorem go_text (t rest : Text) : formatGo o start stop name none (escaped t ++ rest) =
    (formatGo o start stop name none rest).map (t ++ ·) := by
  induction t with
  | nil => show formatGo o start stop name none rest = _; cases formatGo o start stop name none rest <;> rfl
  | cons c t ih =>
    rw [escaped_cons, List.append_assoc]
    by_cases h1 : c = '{'
    · subst h1
      show formatGo o start stop name none ('{' :: '{' :: (escaped t ++ rest)) = _
      rw [formatGo, ih]
      cases formatGo o start stop name none rest <;> rfl
    · by_cases h2 : c = '}'
      · subst h2
        show formatGo o start stop name none ('}' :: '}' :: (escaped t ++ rest)) = _
        rw [formatGo, ih]
        cases formatGo o start stop name none rest <;> rfl
      · rw [if_neg h1, if_neg h2]
        show formatGo o start stop name none (c :: (escaped t ++ rest)) = _
        rw [formatGo, if_neg h1, if_neg h2, ih]
        · cases formatGo o start stop name none rest <;> rfl
        · intro rest h; exact absurd h h1
        · intro rest h; exact absurd h h2

theorem go_field (f : Text) (hf : '}' ∉ f) (acc rest : Text) :
    formatGo o start stop name (some acc) (f ++ '}' :: rest) = (do
      let value ← formatField o start stop name (acc.reverse ++ f)
      let after ← formatGo o start stop name none rest
      pure (value ++ after)) := by
  induction f generalizing acc with
  | nil => simp [formatGo]
  | cons c f ih =>
    have hc : c ≠ '}' := fun h => hf (by simp [h])
    rw [List.cons_append, formatGo, if_neg hc, ih (fun h => hf (by simp [h]))]
    simp

theorem go_open (c : Char) (hc : c ≠ '{') (f : Text) (hf : '}' ∉ c :: f) (rest : Text) :
    formatGo o start stop name none ('{' :: c :: (f ++ '}' :: rest)) = (do
      let value ← formatField o start stop name (c :: f)
      let after ← formatGo o start stop name none rest
      pure (value ++ after)) := by
  have e : formatGo o start stop name none ('{' :: c :: (f ++ '}' :: rest)) =
      formatGo o start stop name (some []) ((c :: f) ++ '}' :: rest) := by
    conv_lhs => rw [formatGo.eq_def]
    split
    · rename_i h; cases h
    · rename_i h; cases h
    · rename_i h _; cases h
    · rename_i h; cases h; exact absurd rfl hc
    · rename_i h; cases h
    · rename_i h; cases h; rfl
  rw [e, go_field o start stop name _ hf]
  rfl

theorem split_start (spec : Text) : fieldParts ("start_time:".toList ++ spec) = ("start_time".toList, spec) := rfl
theorem split_stop (spec : Text) : fieldParts ("end_time:".toList ++ spec) = ("end_time".toList, spec) := rfl

theorem formatTemplate_pieces (pieces : List Piece) (hp : ∀ p ∈ pieces, p.Valid) (rest : Text) :
    formatGo o start stop name none (templateOf pieces ++ rest) =
      (formatGo o start stop name none rest).map (pathOf pieces start stop name ++ ·) := by
  induction pieces with
  | nil => show formatGo o start stop name none rest = _; cases formatGo o start stop name none rest <;> rfl
  | cons p pieces ih =>
    have ih := ih fun q hq => hp q (List.mem_cons_of_mem _ hq)
    have hv := hp p (by simp)
    unfold templateOf pathOf at ih ⊢
    rw [List.flatMap_cons, List.flatMap_cons, List.append_assoc]
    cases p with
    | text t =>
      show formatGo o start stop name none (escaped t ++ _) = _
      rw [go_text, ih]
      cases formatGo o start stop name none rest <;> simp [Except.map, Piece.value]
    | name =>
      show formatGo o start stop name none ('{' :: 'd' :: ("ataset_name".toList ++ '}' :: (pieces.flatMap Piece.written ++ rest))) = _
      rw [go_open o start stop name _ (by decide) _ (by decide), ih]
      have : formatField o start stop name ('d' :: "ataset_name".toList) = .ok name := rfl
      rw [this]
      cases formatGo o start stop name none rest <;> simp [Except.map, Piece.value, bind, Except.bind, pure, Except.pure]
    | start f =>
      have hb := stroke_letters hv.2
      show formatGo o start stop name none ((("{start_time:".toList ++ f.flatMap Stroke.written) ++ ['}']) ++ _) = _
      have e : (("{start_time:".toList ++ f.flatMap Stroke.written) ++ ['}']) ++ (pieces.flatMap Piece.written ++ rest) =
          '{' :: 's' :: (("tart_time:".toList ++ f.flatMap Stroke.written) ++ '}' :: (pieces.flatMap Piece.written ++ rest)) := by
        simp
      rw [e, go_open o start stop name _ (by decide) _ (by
        intro h
        have h : '}' ∈ "start_time:".toList ++ f.flatMap Stroke.written := h
        rcases List.mem_append.mp h with h | h
        · revert h; decide
        · exact (hb _ h).2 rfl), ih]
      have : formatField o start stop name ('s' :: ("tart_time:".toList ++ f.flatMap Stroke.written)) =
          .ok (f.flatMap (Stroke.value start)) := by
        show formatField o start stop name ("start_time:".toList ++ f.flatMap Stroke.written) = _
        unfold formatField
        rw [split_start]
        simp only
        rw [if_neg (by decide), if_neg, if_pos trivial]
        · unfold formatDateTime
          rw [if_neg (strokes_nonempty hv.1), strftime_strokes o start f hv.2]
        · intro h
          obtain ⟨c, hc, h⟩ := List.any_eq_true.mp h
          rcases List.mem_append.mp hc with hc | hc
          · exact absurd h (by clear h; revert hc; clear * -; revert c; decide)
          · exact (hb c hc).1 (by simpa using h)
      rw [this]
      cases formatGo o start stop name none rest <;> simp [Except.map, Piece.value, bind, Except.bind, pure, Except.pure]
    | stop f =>
      have hb := stroke_letters hv.2
      show formatGo o start stop name none ((("{end_time:".toList ++ f.flatMap Stroke.written) ++ ['}']) ++ _) = _
      have e : (("{end_time:".toList ++ f.flatMap Stroke.written) ++ ['}']) ++ (pieces.flatMap Piece.written ++ rest) =
          '{' :: 'e' :: (("nd_time:".toList ++ f.flatMap Stroke.written) ++ '}' :: (pieces.flatMap Piece.written ++ rest)) := by
        simp
      rw [e, go_open o start stop name _ (by decide) _ (by
        intro h
        have h : '}' ∈ "end_time:".toList ++ f.flatMap Stroke.written := h
        rcases List.mem_append.mp h with h | h
        · revert h; decide
        · exact (hb _ h).2 rfl), ih]
      have : formatField o start stop name ('e' :: ("nd_time:".toList ++ f.flatMap Stroke.written)) =
          .ok (f.flatMap (Stroke.value stop)) := by
        show formatField o start stop name ("end_time:".toList ++ f.flatMap Stroke.written) = _
        unfold formatField
        rw [split_stop]
        simp only
        rw [if_neg (by decide), if_neg, if_neg (by decide), if_pos trivial]
        · unfold formatDateTime
          rw [if_neg (strokes_nonempty hv.1), strftime_strokes o stop f hv.2]
        · intro h
          obtain ⟨c, hc, h⟩ := List.any_eq_true.mp h
          rcases List.mem_append.mp hc with hc | hc
          · exact absurd h (by clear h; revert hc; clear * -; revert c; decide)
          · exact (hb c hc).1 (by simpa using h)
      rw [this]
      cases formatGo o start stop name none rest <;> simp [Except.map, Piece.value, bind, Except.bind, pure, Except.pure]

theorem format_pathOf (pieces : List Piece) (hp : ∀ p ∈ pieces, p.Valid) :
    formatTemplate o (templateOf pieces) start stop name = .ok (pathOf pieces start stop name) := by
  have h := formatTemplate_pieces o start stop name pieces hp []
  rw [List.append_nil] at h
  unfold formatTemplate
  rw [h]
  simp [formatGo, Except.map]

/-! ## The parts of a path -/

theorem isDecimal_three {n : Nat} (h : n < 1000) : IsDecimal 3 n (three n) := by
  refine ⟨rfl, ?_, ?_⟩
  · intro c hc
    simp only [three, List.mem_cons, List.not_mem_nil, or_false] at hc
    rcases hc with rfl | rfl | rfl <;> exact digit_isDigit _
  · simp only [three, List.foldl_cons, List.foldl_nil, digit_toNat]
    omega

theorem isDecimal_unique {w n : Nat} {a b : Text} (ha : IsDecimal w n a) (hb : IsDecimal w n b) : a = b := by
  induction w generalizing n a b with
  | zero => rw [List.eq_nil_of_length_eq_zero ha.1, List.eq_nil_of_length_eq_zero hb.1]
  | succ w ih =>
    obtain ⟨a1, a2, a3⟩ := ha
    obtain ⟨b1, b2, b3⟩ := hb
    rcases List.eq_nil_or_concat a with rfl | ⟨as, x, rfl⟩
    · simp at a1
    rcases List.eq_nil_or_concat b with rfl | ⟨bs, y, rfl⟩
    · simp at b1
    rw [List.concat_eq_append] at a1 a2 a3 b1 b2 b3 ⊢
    rw [List.concat_eq_append]
    rw [List.foldl_append] at a3 b3
    simp only [List.foldl_cons, List.foldl_nil] at a3 b3
    have hx := a2 x (by simp)
    have hy := b2 y (by simp)
    have hx1 : 48 ≤ x.toNat := hx.1
    have hx2 : x.toNat ≤ 57 := hx.2
    have hy1 : 48 ≤ y.toNat := hy.1
    have hy2 : y.toNat ≤ 57 := hy.2
    have e1 : x.toNat = y.toNat := by
      generalize bs.foldl (fun acc c => 10 * acc + (c.toNat - 48)) 0 = B at b3
      generalize as.foldl (fun acc c => 10 * acc + (c.toNat - 48)) 0 = A at a3
      omega
    have e : bs.foldl (fun acc c => 10 * acc + (c.toNat - 48)) 0 = as.foldl (fun acc c => 10 * acc + (c.toNat - 48)) 0 := by
      generalize bs.foldl (fun acc c => 10 * acc + (c.toNat - 48)) 0 = B at b3 ⊢
      generalize as.foldl (fun acc c => 10 * acc + (c.toNat - 48)) 0 = A at a3 ⊢
      omega
    have e2 : as = bs := ih ⟨by simpa using a1, fun c hc => a2 c (List.mem_append_left _ hc), rfl⟩
      ⟨by simpa using b1, fun c hc => b2 c (List.mem_append_left _ hc), e⟩
    have e3 : x = y := by rw [← Char.ofNat_toNat x, e1, Char.ofNat_toNat]
    rw [e2, e3]

theorem directive_shows {t : DateTime} (ht : ValidTime t) (hy : 1000 ≤ t.year) (d : Directive) : d.Shows t (d.value t) := by
  have h1 := ht.year
  have h2 := ht.month
  have h3 := ht.day
  have h4 := daysIn_le t.year t.month
  have h5 := ht.hour
  have h6 := ht.minute
  have h7 := ht.second
  have h8 := ht.microsecond
  cases d with
  | year =>
    show IsDecimal 4 t.year (strftimeYear t.year)
    unfold strftimeYear
    rw [if_pos hy]
    exact isDecimal_four (by omega)
  | yearOfCentury =>
    have h := isDecimal_two (n := t.year % 100) (by omega)
    have e : two (t.year % 100) = two t.year := by
      unfold two digit
      rw [show t.year % 100 / 10 % 10 = t.year / 10 % 10 by omega, show t.year % 100 % 10 = t.year % 10 by omega]
    show IsDecimal 2 (t.year % 100) (two t.year)
    rw [← e]
    exact h
  | month => exact isDecimal_two (by omega)
  | monthName =>
    show ∃ m, englishMonths[t.month - 1]? = some m ∧ Model.monthName t.month = m.toList
    refine ⟨englishMonths[t.month - 1]'(by show _ < 12; omega), List.getElem?_eq_getElem _, ?_⟩
    unfold Model.monthName
    rw [List.getD_eq_getElem _ _ (by show _ < 12; omega)]
    rfl
  | day => exact isDecimal_two (by omega)
  | hour => exact isDecimal_two (by omega)
  | minute => exact isDecimal_two (by omega)
  | second => exact isDecimal_two (by omega)
  | dayOfYear =>
    show IsDecimal 3 _ (three (Model.dayOfYear t.year t.month t.day))
    rw [dayOfYear_eq _ _ _ h2]
    refine isDecimal_three ?_
    have := yearDay_le t.year t.month t.day h2 h3
    rcases daysInYear_cases t.year with h | h <;> omega
  | microsecond => exact isDecimal_six (by omega)
  | percent => exact rfl

theorem directive_unique {t : DateTime} {d : Directive} {a b : Text} (ha : d.Shows t a) (hb : d.Shows t b) : a = b := by
  cases d with
  | monthName =>
    obtain ⟨m, h1, rfl⟩ := ha
    obtain ⟨m', h2, rfl⟩ := hb
    rw [h1] at h2
    cases h2
    rfl
  | percent => exact Eq.trans ha (Eq.symm hb)
  | _ => exact isDecimal_unique ha hb

theorem forall₂_unique {α β : Type} {R : α → β → Prop} (h : ∀ a b c, R a b → R a c → b = c) {l : List α} {m n : List β}
    (hm : List.Forall₂ R l m) (hn : List.Forall₂ R l n) : m = n := by
  induction hm generalizing n with
  | nil => cases hn; rfl
  | cons h1 _ ih =>
    cases hn with
    | cons h2 h3 => rw [h _ _ _ h1 h2, ih h3]

theorem forall₂_values {α β : Type} {R : α → β → Prop} (f : α → β) (l : List α) (h : ∀ a ∈ l, R a (f a)) :
    List.Forall₂ R l (l.map f) := by
  induction l with
  | nil => exact .nil
  | cons a l ih => exact .cons (h a (by simp)) (ih fun a ha => h a (List.mem_cons_of_mem _ ha))

theorem showsTime_value {t : DateTime} (ht : ValidTime t) (hy : 1000 ≤ t.year) (f : List Stroke) :
    ShowsTime t f (f.flatMap (Stroke.value t)) := by
  refine ⟨f.map (Stroke.value t), forall₂_values _ _ fun k _ => ?_, by rw [List.flatMap_def]⟩
  cases k with
  | char c => exact rfl
  | directive d => exact directive_shows ht hy d

theorem showsTime_unique {t : DateTime} {f : List Stroke} {a b : Text} (ha : ShowsTime t f a) (hb : ShowsTime t f b) : a = b := by
  obtain ⟨p, hp, rfl⟩ := ha
  obtain ⟨q, hq, rfl⟩ := hb
  rw [forall₂_unique _ hp hq]
  intro k x y hx hy
  cases k with
  | char c => exact Eq.trans hx (Eq.symm hy)
  | directive d => exact directive_unique hx hy

/-- C148: what the specification says is one path. -/
theorem C148_one_path {start stop : DateTime} {name : Text} {pieces : List Piece} {p q : Text}
    (hp : ShowsPath start stop name pieces p) (hq : ShowsPath start stop name pieces q) : p = q := by
  obtain ⟨ps, hp, rfl⟩ := hp
  obtain ⟨qs, hq, rfl⟩ := hq
  rw [forall₂_unique _ hp hq]
  intro k x y hx hy
  cases k with
  | text t => exact Eq.trans hx (Eq.symm hy)
  | name => exact Eq.trans hx (Eq.symm hy)
  | start f => exact showsTime_unique hx hy
  | stop f => exact showsTime_unique hx hy

theorem pathOf_shows {start stop : DateTime} (h1 : ValidTime start) (h2 : ValidTime stop) (y1 : 1000 ≤ start.year)
    (y2 : 1000 ≤ stop.year) (name : Text) (pieces : List Piece) :
    ShowsPath start stop name pieces (pathOf pieces start stop name) := by
  refine ⟨pieces.map (Piece.value start stop name), forall₂_values _ _ fun k _ => ?_, by rw [pathOf, List.flatMap_def]⟩
  cases k with
  | text t => exact rfl
  | name => exact rfl
  | start f => exact showsTime_value h1 y1 f
  | stop f => exact showsTime_value h2 y2 f

/-- C148: the path of an image is the template with its fields filled in. -/
theorem C148_template (o : FormatOthers) {start stop : DateTime} (h1 : ValidTime start) (h2 : ValidTime stop)
    (y1 : 1000 ≤ start.year) (y2 : 1000 ≤ stop.year) (name : Text) (pieces : List Piece) (hp : ∀ p ∈ pieces, p.Valid) :
    ∃ path, formatTemplate o (templateOf pieces) start stop name = .ok path ∧ ShowsPath start stop name pieces path :=
  ⟨_, format_pathOf o start stop name pieces hp, pathOf_shows h1 h2 y1 y2 name pieces⟩

/-! ## Templates that are refused -/

theorem letters_split {key : Text} (h : ∀ c ∈ key, c.isAlpha ∨ c = '_') : fieldParts key = (key, []) := by
  induction key with
  | nil => rfl
  | cons c key ih =>
    have hc : c ≠ ':' := by
      rintro rfl
      rcases h ':' (by simp) with h | h <;> revert h <;> decide
    rw [fieldParts, if_neg hc, ih fun c hc => h c (List.mem_cons_of_mem _ hc)]

/-- C148: a name that is not one of the three is refused. -/
theorem C148_unknown_name (o : FormatOthers) (start stop : DateTime) (name : Text) (pieces : List Piece)
    (hp : ∀ p ∈ pieces, p.Valid) (key rest : Text) (hk : key ≠ []) (hl : ∀ c ∈ key, c.isAlpha ∨ c = '_')
    (h1 : key ≠ "start_time".toList) (h2 : key ≠ "end_time".toList) (h3 : key ≠ "dataset_name".toList) :
    formatTemplate o (templateOf pieces ++ '{' :: key ++ '}' :: rest) start stop name = .error .keyError := by
  obtain ⟨c, f, rfl⟩ := List.exists_cons_of_ne_nil hk
  have bad : ∀ d : Char, d.isAlpha = false → d ≠ '_' → ∀ x ∈ c :: f, x ≠ d := by
    rintro d hd hu x hx rfl
    rcases hl x hx with h | h
    · rw [hd] at h; cases h
    · exact hu h
  have e : templateOf pieces ++ '{' :: c :: f ++ '}' :: rest = templateOf pieces ++ ('{' :: c :: (f ++ '}' :: rest)) := by simp
  have no : ∀ q : Char → Bool, (∀ x ∈ c :: f, q x = false) → ¬ (c :: f).any q = true := by
    intro q hq h
    obtain ⟨x, hx, h⟩ := List.any_eq_true.mp h
    rw [hq x hx] at h
    cases h
  have hf : formatField o start stop name (c :: f) = .error .keyError := by
    unfold formatField
    rw [letters_split hl]
    simp only
    rw [if_neg, if_neg, if_neg h1, if_neg h2, if_neg h3, if_neg]
    · intro h
      have h := List.all_eq_true.mp h c (by simp)
      rcases hl c (by simp) with ha | ha
      · revert h ha
        simp only [Char.isDigit, Char.isAlpha, Char.isUpper, Char.isLower]
        intro h ha
        simp only [Bool.and_eq_true, Bool.or_eq_true, decide_eq_true_eq] at h ha
        have h2 : c.val.toNat ≤ 57 := h.2
        rcases ha with ha | ha
        · have h3 : 65 ≤ c.val.toNat := ha.1
          omega
        · have h3 : 97 ≤ c.val.toNat := ha.1
          omega
      · subst ha
        revert h
        decide
    · refine no _ fun x hx => ?_
      simp [bad '{' (by decide) (by decide) x hx]
    · refine no _ fun x hx => ?_
      simp [bad '.' (by decide) (by decide) x hx, bad '[' (by decide) (by decide) x hx, bad '!' (by decide) (by decide) x hx]
  unfold formatTemplate
  rw [e, formatTemplate_pieces o start stop name pieces hp,
    go_open o start stop name c (bad '{' (by decide) (by decide) c (by simp)) f (fun h => bad '}' (by decide) (by decide) _ h rfl), hf]
  rfl

theorem go_unclosed (f : Text) (hf : '}' ∉ f) (acc : Text) : formatGo o start stop name (some acc) f = .error .valueError := by
  induction f generalizing acc with
  | nil => rw [formatGo]
  | cons c f ih =>
    rw [formatGo, if_neg fun h => hf (by simp [h]), ih fun h => hf (by simp [h])]

/-- C148: a brace that is opened and not closed is refused. -/
theorem C148_unclosed (o : FormatOthers) (start stop : DateTime) (name : Text) (pieces : List Piece)
    (hp : ∀ p ∈ pieces, p.Valid) (f : Text) (hf : '}' ∉ f) (ho : f.head? ≠ some '{') :
    formatTemplate o (templateOf pieces ++ '{' :: f) start stop name = .error .valueError := by
  unfold formatTemplate
  rw [formatTemplate_pieces o start stop name pieces hp]
  have e : formatGo o start stop name none ('{' :: f) = formatGo o start stop name (some []) f := by
    conv_lhs => rw [formatGo.eq_def]
    split
    · rename_i h; cases h
    · rename_i h; cases h
    · rename_i h _; cases h
    · rename_i h; cases h; exact absurd rfl ho
    · rename_i h; cases h
    · rename_i h; cases h; rfl
  rw [e, go_unclosed o start stop name f hf]
  rfl

/-- C148: a brace that is closed and was not opened is refused. -/
theorem C148_unopened (o : FormatOthers) (start stop : DateTime) (name : Text) (pieces : List Piece)
    (hp : ∀ p ∈ pieces, p.Valid) (f : Text) (ho : f.head? ≠ some '}') :
    formatTemplate o (templateOf pieces ++ '}' :: f) start stop name = .error .valueError := by
  unfold formatTemplate
  rw [formatTemplate_pieces o start stop name pieces hp]
  have e : formatGo o start stop name none ('}' :: f) = .error .valueError := by
    conv_lhs => rw [formatGo.eq_def]
    split
    · rename_i h; cases h
    · rename_i h; cases h
    · rename_i h _; cases h
    · rename_i h; cases h
    · rename_i h; cases h; exact absurd rfl ho
    · rename_i h; cases h; rfl
  rw [e]
  rfl

/-! ## Which images share a path -/

theorem flatMap_name_length {α : Type} (f g : α → Text) (l : List α) (h : ∀ a ∈ l, (f a).length ≤ (g a).length)
    (a : α) (ha : a ∈ l) (hlt : (f a).length < (g a).length) : (l.flatMap f).length < (l.flatMap g).length := by
  have le : ∀ l : List α, (∀ a ∈ l, (f a).length ≤ (g a).length) → (l.flatMap f).length ≤ (l.flatMap g).length := by
    intro l h
    induction l with
    | nil => exact Nat.le_refl _
    | cons b l ih =>
      rw [List.flatMap_cons, List.flatMap_cons, List.length_append, List.length_append]
      have := h b (by simp)
      have := ih fun a ha => h a (List.mem_cons_of_mem _ ha)
      omega
  induction l with
  | nil => cases ha
  | cons b l ih =>
    rw [List.flatMap_cons, List.flatMap_cons, List.length_append, List.length_append]
    have h1 := h b (by simp)
    have hl : ∀ a ∈ l, (f a).length ≤ (g a).length := fun a ha => h a (List.mem_cons_of_mem _ ha)
    rcases List.mem_cons.mp ha with rfl | ha
    · have := le l hl
      omega
    · have := ih hl ha
      omega

theorem pathOf_eq_iff (pieces : List Piece) (start stop : DateTime) (n n' : Text) :
    pathOf pieces start stop n = pathOf pieces start stop n' ↔ .name ∉ pieces ∨ n = n' := by
  constructor
  · intro h
    by_cases hm : Piece.name ∈ pieces
    · right
      have len : n.length = n'.length := by
        have key : ∀ a b : Text, a.length < b.length → (pathOf pieces start stop a).length < (pathOf pieces start stop b).length := by
          intro a b hab
          refine flatMap_name_length _ _ _ (fun p _ => ?_) .name hm hab
          cases p with
          | name => exact Nat.le_of_lt hab
          | _ => exact Nat.le_refl _
        rcases Nat.lt_trichotomy n.length n'.length with hlt | he | hlt
        · exact absurd (congrArg List.length h) (Nat.ne_of_lt (key _ _ hlt))
        · exact he
        · exact absurd (congrArg List.length h).symm (Nat.ne_of_lt (key _ _ hlt))
      revert h hm
      induction pieces with
      | nil => intro _ hm; cases hm
      | cons p pieces ih =>
        intro h hm'
        unfold pathOf at h ih
        rw [List.flatMap_cons, List.flatMap_cons] at h
        have hl : (Piece.value start stop n p).length = (Piece.value start stop n' p).length := by
          cases p with
          | name => exact len
          | _ => rfl
        obtain ⟨e1, e2⟩ := List.append_inj h hl
        rcases List.mem_cons.mp hm' with rfl | hm'
        · exact e1
        · exact ih e2 hm'
    · exact .inl hm
  · rintro (h | rfl)
    · unfold pathOf
      induction pieces with
      | nil => rfl
      | cons p pieces ih =>
        rw [List.flatMap_cons, List.flatMap_cons, ih fun hm => h (List.mem_cons_of_mem _ hm)]
        cases p with
        | name => exact absurd (by simp) h
        | _ => rfl
    · rfl

/-- C148: two images of one frame have the same path if and only if the template does not ask for the name of the data set
or the names are the same. -/
theorem C148_same_frame (o : FormatOthers) (start stop : DateTime) (n n' : Text) (pieces : List Piece)
    (hp : ∀ p ∈ pieces, p.Valid) :
    formatTemplate o (templateOf pieces) start stop n = formatTemplate o (templateOf pieces) start stop n' ↔
      .name ∉ pieces ∨ n = n' := by
  rw [format_pathOf o start stop n pieces hp, format_pathOf o start stop n' pieces hp, ← pathOf_eq_iff pieces start stop n n']
  exact ⟨Except.ok.inj, congrArg _⟩

/-- C148: if the last part of the path is the name of the data set, then images with different names have different paths. -/
theorem C148_name_last (o : FormatOthers) (t1 u1 t2 u2 : DateTime) (n n' : Text) (pieces : List Piece)
    (hp : ∀ p ∈ pieces, p.Valid) (dir : Text) (h1 : '/' ∉ n) (h2 : '/' ∉ n') (path : Text)
    (e1 : formatTemplate o (templateOf (pieces ++ [.text (dir ++ ['/']), .name])) t1 u1 n = .ok path)
    (e2 : formatTemplate o (templateOf (pieces ++ [.text (dir ++ ['/']), .name])) t2 u2 n' = .ok path) : n = n' := by
  have hv : ∀ p ∈ pieces ++ [.text (dir ++ ['/']), .name], p.Valid := by
    intro p hm
    rcases List.mem_append.mp hm with hm | hm
    · exact hp p hm
    · simp only [List.mem_cons, List.not_mem_nil, or_false] at hm
      rcases hm with rfl | rfl <;> exact trivial
  rw [format_pathOf _ _ _ _ _ hv] at e1 e2
  have e := (Except.ok.inj e1).trans (Except.ok.inj e2).symm
  have shape : ∀ t u m, pathOf (pieces ++ [.text (dir ++ ['/']), .name]) t u m =
      (pathOf pieces t u m ++ dir) ++ '/' :: m := by
    intro t u m
    unfold pathOf
    simp [Piece.value]
  rw [shape, shape] at e
  have last : ∀ (a b m m' : Text), '/' ∉ m → '/' ∉ m' → a ++ '/' :: m = b ++ '/' :: m' → m = m' := by
    intro a b m m' hm hm' h
    rcases List.append_eq_append_iff.mp h with ⟨c, _, h⟩ | ⟨c, _, h⟩
    · cases c with
      | nil => exact (List.cons.inj h).2
      | cons x c => exact absurd (by rw [(List.cons.inj h).2]; simp) hm
    · cases c with
      | nil => exact (List.cons.inj h).2.symm
      | cons x c => exact absurd (by rw [(List.cons.inj h).2]; simp) hm'
  exact last _ _ _ _ h1 h2 e

/-- The template of the documentation with the start of the image only, imagery.py:494-496. -/
def startTemplate : Text := "./{start_time:%y/%b/%d}/GLM_{start_time:%Y%m%d_%H%M%S}.nc".toList

def startPieces : List Piece :=
  [.text "./".toList, .start [.directive .yearOfCentury, .char '/', .directive .monthName, .char '/', .directive .day],
   .text "/GLM_".toList, .start [.directive .year, .directive .month, .directive .day, .char '_', .directive .hour,
     .directive .minute, .directive .second], .text ".nc".toList]

theorem startTemplate_eq : startTemplate = templateOf startPieces := by decide

theorem startPieces_valid : ∀ p ∈ startPieces, p.Valid := by
  intro p hp
  simp only [startPieces, List.mem_cons, List.not_mem_nil, or_false] at hp
  rcases hp with rfl | rfl | rfl | rfl | rfl
  · exact trivial
  · refine ⟨by decide, fun s hs => ?_⟩
    simp only [List.mem_cons, List.not_mem_nil, or_false] at hs
    rcases hs with rfl | rfl | rfl | rfl | rfl <;> simp [Stroke.Valid]
  · exact trivial
  · refine ⟨by decide, fun s hs => ?_⟩
    simp only [List.mem_cons, List.not_mem_nil, or_false] at hs
    rcases hs with rfl | rfl | rfl | rfl | rfl | rfl | rfl <;> simp [Stroke.Valid]
  · exact trivial

/-- Two times in the same second. -/
def SameSecondTime (t u : DateTime) : Prop :=
  t.year = u.year ∧ t.month = u.month ∧ t.day = u.day ∧ t.hour = u.hour ∧ t.minute = u.minute ∧ t.second = u.second

/-- C148: with the template of the documentation, images have the same path if and only if they start in the same second,
whatever their scenes are. -/
theorem C148_start_template (o : FormatOthers) {t1 t2 : DateTime} (h1 : ValidTime t1) (h2 : ValidTime t2)
    (y1 : 1000 ≤ t1.year) (y2 : 1000 ≤ t2.year) (u1 u2 : DateTime) (n n' : Text) :
    formatTemplate o startTemplate t1 u1 n = formatTemplate o startTemplate t2 u2 n' ↔ SameSecondTime t1 t2 := by
  rw [startTemplate_eq, format_pathOf _ _ _ _ _ startPieces_valid, format_pathOf _ _ _ _ _ startPieces_valid]
  have shape : ∀ (t u : DateTime) (m : Text), pathOf startPieces t u m = ['.', '/'] ++ (two t.year ++ (['/'] ++
      (Model.monthName t.month ++ (['/'] ++ (two t.day ++ ("/GLM_".toList ++ (strftimeYear t.year ++ (two t.month ++ (two t.day ++
      (['_'] ++ (two t.hour ++ (two t.minute ++ (two t.second ++ ".nc".toList))))))))))))) := by
    intro t u m
    simp [pathOf, startPieces, Piece.value, Stroke.value, Directive.value]
  constructor
  · intro h
    have h := Except.ok.inj h
    rw [shape, shape] at h
    have len : ∀ t : DateTime, ValidTime t → (Model.monthName t.month).length = 3 := by
      intro t ht
      obtain ⟨m1, m2⟩ := ht.month
      unfold Model.monthName
      generalize t.month = m at m1 m2
      interval_cases m <;> rfl
    have ylen : ∀ t : DateTime, 1000 ≤ t.year → strftimeYear t.year = four t.year := by
      intro t ht
      unfold strftimeYear
      rw [if_pos ht]
    rw [ylen _ y1, ylen _ y2] at h
    obtain ⟨_, h⟩ := List.append_inj h rfl
    obtain ⟨_, h⟩ := List.append_inj h rfl
    obtain ⟨_, h⟩ := List.append_inj h rfl
    obtain ⟨_, h⟩ := List.append_inj h ((len _ h1).trans (len _ h2).symm)
    obtain ⟨_, h⟩ := List.append_inj h rfl
    obtain ⟨_, h⟩ := List.append_inj h rfl
    obtain ⟨_, h⟩ := List.append_inj h rfl
    obtain ⟨e1, h⟩ := List.append_inj h rfl
    obtain ⟨e2, h⟩ := List.append_inj h rfl
    obtain ⟨e3, h⟩ := List.append_inj h rfl
    obtain ⟨_, h⟩ := List.append_inj h rfl
    obtain ⟨e4, h⟩ := List.append_inj h rfl
    obtain ⟨e5, h⟩ := List.append_inj h rfl
    obtain ⟨e6, _⟩ := List.append_inj h rfl
    have inj2 : ∀ a b, a < 100 → b < 100 → two a = two b → a = b := by
      intro a b ha hb h
      have h1 := (isDecimal_two ha).2.2
      rw [h, (isDecimal_two hb).2.2] at h1
      exact h1.symm
    have inj4 : ∀ a b, a < 10000 → b < 10000 → four a = four b → a = b := by
      intro a b ha hb h
      have h1 := (isDecimal_four ha).2.2
      rw [h, (isDecimal_four hb).2.2] at h1
      exact h1.symm
    have := h1.year; have := h1.month; have := h1.day; have := daysIn_le t1.year t1.month
    have := h1.hour; have := h1.minute; have := h1.second
    have := h2.year; have := h2.month; have := h2.day; have := daysIn_le t2.year t2.month
    have := h2.hour; have := h2.minute; have := h2.second
    exact ⟨inj4 _ _ (by omega) (by omega) e1, inj2 _ _ (by omega) (by omega) e2, inj2 _ _ (by omega) (by omega) e3,
      inj2 _ _ (by omega) (by omega) e4, inj2 _ _ (by omega) (by omega) e5, inj2 _ _ (by omega) (by omega) e6⟩
  · rintro ⟨e1, e2, e3, e4, e5, e6⟩
    rw [shape, shape, e1, e2, e3, e4, e5, e6]

/-! ## Examples -/

/-- The start of an image. -/
def sampleStart : DateTime := ⟨2018, 7, 2, 4, 33, 0, 0⟩

def sampleStop : DateTime := ⟨2018, 7, 2, 4, 34, 0, 0⟩

theorem sampleStart_valid : ValidTime sampleStart :=
  ⟨by decide, by decide, by decide, by decide, by decide, by decide, by decide⟩

theorem sampleStop_valid : ValidTime sampleStop :=
  ⟨by decide, by decide, by decide, by decide, by decide, by decide, by decide⟩

/-- The library does nothing that is not modelled. -/
def noOthers : FormatOthers := ⟨fun _ => .error .valueError, fun _ _ => []⟩

/-- The template of the help of the script, make_GLM_grids.py:21. -/
def helpPieces : List Piece :=
  [.start [.directive .year, .char '/', .directive .monthName, .char '/', .directive .day], .text "/".toList, .name]

example : templateOf helpPieces = "{start_time:%Y/%b/%d}/{dataset_name}".toList := by decide

example : formatTemplate noOthers "{start_time:%Y/%b/%d}/{dataset_name}".toList sampleStart sampleStop "a.nc".toList =
    .ok "2018/Jul/02/a.nc".toList := by decide

example : formatTemplate noOthers startTemplate sampleStart sampleStop "a.nc".toList =
    .ok "./18/Jul/02/GLM_20180702_043300.nc".toList := by decide

/-- Braces that are written twice, both times, all directives. -/
def everyPiece : List Piece :=
  [.text "a{b}/".toList, .stop [.directive .yearOfCentury, .directive .month, .char ':', .directive .hour, .directive .minute,
    .directive .second], .text "}".toList, .start [.directive .dayOfYear, .directive .microsecond, .directive .percent], .name]

theorem everyPiece_valid : ∀ p ∈ everyPiece, p.Valid := by
  intro p hp
  simp only [everyPiece, List.mem_cons, List.not_mem_nil, or_false] at hp
  rcases hp with rfl | rfl | rfl | rfl | rfl
  · exact trivial
  · refine ⟨by decide, fun s hs => ?_⟩
    simp only [List.mem_cons, List.not_mem_nil, or_false] at hs
    rcases hs with rfl | rfl | rfl | rfl | rfl | rfl <;> simp [Stroke.Valid]
  · exact trivial
  · refine ⟨by decide, fun s hs => ?_⟩
    simp only [List.mem_cons, List.not_mem_nil, or_false] at hs
    rcases hs with rfl | rfl | rfl <;> simp [Stroke.Valid]
  · exact trivial

example : templateOf everyPiece = "a{{b}}/{end_time:%y%m:%H%M%S}}}{start_time:%j%f%%}{dataset_name}".toList := by decide

example : pathOf everyPiece sampleStart sampleStop "x.nc".toList = "a{b}/1807:043400}183000000%x.nc".toList := by decide

example : ∃ path, formatTemplate noOthers (templateOf everyPiece) sampleStart sampleStop "x.nc".toList = .ok path ∧
    ShowsPath sampleStart sampleStop "x.nc".toList everyPiece path :=
  C148_template noOthers sampleStart_valid sampleStop_valid (by decide) (by decide) _ _ everyPiece_valid

example : formatTemplate noOthers "a/{scene}/{dataset_name}".toList sampleStart sampleStop "x".toList = .error .keyError :=
  C148_unknown_name noOthers sampleStart sampleStop "x".toList [.text "a/".toList] (by simp [Piece.Valid]) "scene".toList
    "/{dataset_name}".toList (by decide) (by decide) (by decide) (by decide) (by decide)

example : formatTemplate noOthers "a/{dataset_name".toList sampleStart sampleStop "x".toList = .error .valueError :=
  C148_unclosed noOthers sampleStart sampleStop "x".toList [.text "a/".toList] (by simp [Piece.Valid]) "dataset_name".toList
    (by decide) (by decide)

example : formatTemplate noOthers "a/dataset_name}".toList sampleStart sampleStop "x".toList = .error .valueError :=
  C148_unopened noOthers sampleStart sampleStop "x".toList [.text "a/dataset_name".toList] (by simp [Piece.Valid]) []
    (by decide)

example : ¬ SameSecondTime sampleStart sampleStop := by unfold SameSecondTime; decide

example : formatTemplate noOthers startTemplate sampleStart sampleStop "a".toList =
    formatTemplate noOthers startTemplate sampleStart sampleStop "b".toList :=
  (C148_start_template noOthers sampleStart_valid sampleStart_valid (by decide) (by decide) _ _ _ _).mpr
    ⟨rfl, rfl, rfl, rfl, rfl, rfl⟩

end Verif.Props
