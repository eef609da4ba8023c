import Verif.Model.Cli
import Verif.Props.Setup

/-!
# The options of the command line

C112: the options of make_GLM_grids mean what its help says.
-/

namespace Verif.Props

open Verif.Py Verif.Model

/-! ## C112: specification -/

/-- One option on the command line: a flag, an option and its value, or both in one token with `=` between them. -/
inductive Item
  | flag (name : String)
  | value (name : String) (text : Text)
  | joined (name : String) (text : Text)

def Item.name : Item → String
  | .flag n => n
  | .value n _ => n
  | .joined n _ => n

def Item.text : Item → Text
  | .flag _ => []
  | .value _ t => t
  | .joined _ t => t

/-- The tokens of an option. -/
def Item.tokens : Item → List Text
  | .flag n => [n.toList]
  | .value n t => [n.toList, t]
  | .joined n t => [n.toList ++ '=' :: t]

def tokensOf (items : List Item) : List Text := items.flatMap Item.tokens

/-- A token that cannot be taken for an option: it does not begin with a hyphen or is a negative number. -/
def PlainValue (t : Text) : Prop :=
  t.head? ≠ some '-' ∨ ∃ whole frac : Text, (∀ c ∈ whole, c.isDigit = true) ∧ (∀ c ∈ frac, c.isDigit = true) ∧
    (whole ≠ [] ∧ t = '-' :: whole ∨ frac ≠ [] ∧ t = '-' :: (whole ++ '.' :: frac))

def flagNames : List String := ["--fixed_grid", "--split_events", "--float_output", "--lma"]

def textNames : List String :=
  ["-o", "--output_path", "--start", "--end", "--goes_position", "--goes_sector", "--corner_points"]

def numberNames : List String := ["--ctr_lat", "--ctr_lon", "--dx", "--dy", "--dt", "--width", "--height"]

def countNames : List String := ["--nevents", "--ngroups", "--subdivide_grid", "--ellipse"]

/-- The value is of the kind that the option expects. -/
def Fits (N : Numbers Rat) (name : String) (t : Text) : Prop :=
  name ∈ textNames ∨ (name ∈ numberNames ∧ ∃ q, N.float t = .ok q) ∨ (name ∈ countNames ∧ ∃ k, N.int t = .ok k)

/-- An option that is documented, with a value that fits. -/
def Item.Understood (N : Numbers Rat) : Item → Prop
  | .flag n => n ∈ flagNames
  | .value n t => Fits N n t ∧ PlainValue t
  | .joined n t => Fits N n t

/-- The last value that is given for an option. -/
def lastOf (names : List String) (items : List Item) : Option Text :=
  (items.filterMap fun i => if i.name ∈ names then some i.text else none).getLast?

/-- A flag is given. -/
def flagged (name : String) (items : List Item) : Bool := items.any fun i => i.name = name

/-- The number that was given for an option, or the default. -/
def numberOr (N : Numbers Rat) (default : Rat) (t : Option Text) (q : Rat) : Prop :=
  match t with
  | some t => N.float t = .ok q
  | none => q = default

def countOr (N : Numbers Rat) (default : Int) (t : Option Text) (k : Int) : Prop :=
  match t with
  | some t => N.int t = .ok k
  | none => k = default

/-- The arguments say what the options say. -/
structure Means (N : Numbers Rat) (items : List Item) (files : List Text) (a : Args) : Prop where
  filenames : a.filenames = files
  outdir : a.outdir.toList = (lastOf ["-o", "--output_path"] items).getD "./{dataset_name}".toList
  ctrLat : match lastOf ["--ctr_lat"] items with
    | some t => ∃ q, N.float t = .ok q ∧ a.ctrLat = some q
    | none => a.ctrLat = none
  ctrLon : match lastOf ["--ctr_lon"] items with
    | some t => ∃ q, N.float t = .ok q ∧ a.ctrLon = some q
    | none => a.ctrLon = none
  start : a.start = lastOf ["--start"] items
  stop : a.stop = lastOf ["--end"] items
  dx : numberOr N 10 (lastOf ["--dx"] items) a.dx
  dy : numberOr N 10 (lastOf ["--dy"] items) a.dy
  dt : numberOr N 60 (lastOf ["--dt"] items) a.dt
  width : numberOr N 400 (lastOf ["--width"] items) a.width
  height : numberOr N 400 (lastOf ["--height"] items) a.height
  minEvents : countOr N 1 (lastOf ["--nevents"] items) a.minEvents
  minGroups : countOr N 1 (lastOf ["--ngroups"] items) a.minGroups
  fixedGrid : a.fixedGrid = flagged "--fixed_grid" items
  subdivide : ∃ k, countOr N 1 (lastOf ["--subdivide_grid"] items) k ∧ (0 ≤ k → (a.subdivide : Int) = k)
  goesPosition : a.goesPosition.toList = (lastOf ["--goes_position"] items).getD "none".toList
  goesSector : a.goesSector.toList = (lastOf ["--goes_sector"] items).getD "none".toList
  splitEvents : a.splitEvents = flagged "--split_events" items
  ellipseRev : countOr N (-1) (lastOf ["--ellipse"] items) a.ellipseRev
  scaleAndOffset : a.scaleAndOffset = !flagged "--float_output" items

/-! ## C112: tokens -/

/-- All names of options. -/
def tableNames : List Text := gridOptions.flatMap Opt.names

theorem table_second : ∀ n ∈ tableNames, ∀ c, n[1]? = some c → c.isDigit = false ∧ c ≠ '.' := by
  intro n hn c hc
  have : ∀ n ∈ tableNames, (n[1]?.elim false fun c => !c.isDigit && c != '.') = true := by decide
  have := this n hn
  rw [hc] at this
  simpa using this

theorem mem_tableNames {o : Opt} (ho : o ∈ gridOptions) {n : Text} (hn : n ∈ o.names) : n ∈ tableNames :=
  List.mem_flatMap.mpr ⟨o, ho, hn⟩

theorem splitEquals_none {t : Text} (h : '=' ∉ t) : splitEquals t = none := by
  induction t with
  | nil => rfl
  | cons c t ih =>
    rw [List.mem_cons, not_or] at h
    unfold splitEquals
    rw [if_neg (fun e => h.1 e.symm), ih h.2]
    rfl

theorem splitEquals_join {n t : Text} (h : '=' ∉ n) : splitEquals (n ++ '=' :: t) = some (n, t) := by
  induction n with
  | nil => rfl
  | cons c n ih =>
    rw [List.mem_cons, not_or] at h
    rw [List.cons_append]
    unfold splitEquals
    rw [if_neg (fun e => h.1 e.symm), ih h.2]
    rfl

theorem startsWith_iff {a b : Text} : startsWith a b = true ↔ a <+: b := by
  unfold startsWith
  exact List.isPrefixOf_iff_prefix

/-- A number after a hyphen is no option. -/
theorem classify_negative {t : Text} {c : Char} (h1 : t[1]? = some c) (hc : c.isDigit = true ∨ c = '.')
    (he : '=' ∉ t) (hn : isNegativeNumber t = true) : classify gridOptions t = .argument := by
  have hne : ∀ n ∈ tableNames, ∀ d, n[1]? = some d → d ≠ c := by
    intro n hn d hd e
    subst e
    have := table_second n hn d hd
    rcases hc with hc | hc
    · rw [hc] at this; cases this.1
    · exact this.2 hc
  have hex : exactOption gridOptions t = none := by
    unfold exactOption
    rw [List.find?_eq_none]
    intro o ho hcon
    exact hne t (mem_tableNames ho (by simpa using hcon)) c h1 rfl
  have hab : abbreviated gridOptions t = [] := by
    unfold abbreviated
    have hdash : startsWith "--".toList t = false := by
      rw [Bool.eq_false_iff]
      intro hp
      rw [startsWith_iff] at hp
      obtain ⟨r, rfl⟩ := hp
      have : c = '-' := by
        rw [List.getElem?_append_left (by decide)] at h1
        exact (Option.some.inj h1).symm
      subst this
      rcases hc with hc | hc <;> revert hc <;> decide
    rw [hdash, if_neg (by decide), List.flatMap_eq_nil_iff]
    intro o ho
    rw [List.filterMap_eq_nil_iff]
    intro n hn'
    have hnt := mem_tableNames ho hn'
    rw [if_neg, if_neg]
    · intro hp
      rw [startsWith_iff] at hp
      obtain ⟨r, rfl⟩ := hp
      refine hne _ hnt c ?_ rfl
      rw [List.getElem?_append_left (List.getElem?_eq_some_iff.mp h1).1, h1]
    · intro e
      refine hne n hnt c ?_ rfl
      rw [e, List.getElem?_take_of_lt (by decide), h1]
  unfold classify
  split
  · rfl
  · rw [hex]
    simp only
    split
    · rfl
    · rw [splitEquals_none he]
      simp only [Option.bind_none]
      rw [hab]
      simp only [hn, Bool.true_or, if_true]

theorem isDigit_ne_eq {c : Char} (h : c.isDigit = true) : '=' ≠ c := by
  rintro rfl
  revert h
  decide

theorem classify_plain {t : Text} (h : PlainValue t) : classify gridOptions t = .argument := by
  rcases h with h | ⟨whole, frac, hw, hf, ⟨hne, rfl⟩ | ⟨hne, rfl⟩⟩
  · unfold classify
    rw [if_pos h]
  · obtain ⟨c, w, rfl⟩ := List.exists_cons_of_ne_nil hne
    refine classify_negative (c := c) rfl (Or.inl (hw c (by simp))) ?_ ?_
    · intro hm
      rcases List.mem_cons.mp hm with hm | hm
      · revert hm; decide
      · exact isDigit_ne_eq (hw _ hm) rfl
    · unfold isNegativeNumber
      simp only [List.dropWhile_eq_nil_iff.mpr hw]
      simp
  · have hd : (whole ++ '.' :: frac).dropWhile Char.isDigit = '.' :: frac := by
      rw [List.dropWhile_append_of_pos hw]
      rfl
    have hneg : isNegativeNumber ('-' :: (whole ++ '.' :: frac)) = true := by
      unfold isNegativeNumber
      simp only [hd, Bool.and_eq_true, decide_eq_true_eq, List.all_eq_true]
      exact ⟨hne, hf⟩
    have heq : '=' ∉ '-' :: (whole ++ '.' :: frac) := by
      simp only [List.mem_cons, List.mem_append, not_or]
      exact ⟨by decide, fun h => isDigit_ne_eq (hw _ h) rfl, by decide, fun h => isDigit_ne_eq (hf _ h) rfl⟩
    cases whole with
    | nil => exact classify_negative (c := '.') rfl (Or.inr rfl) heq hneg
    | cons c w => exact classify_negative (c := c) rfl (Or.inl (hw c (by simp))) heq hneg

theorem table_noEquals : ∀ n ∈ tableNames, '=' ∉ n := by decide

theorem exact_joined {n t : Text} : exactOption gridOptions (n ++ '=' :: t) = none := by
  unfold exactOption
  rw [List.find?_eq_none]
  intro o ho hcon
  exact table_noEquals _ (mem_tableNames ho (by simpa using hcon)) (by simp)

/-! ## C112: one option -/

/-- What an option sets. -/
def settingOf (N : Numbers Rat) (i : Item) : Option (String × Value) :=
  (exactOption gridOptions i.name.toList).bind fun o =>
    match o.action with
    | .help => none
    | .flag b => some (o.dest, .bool b)
    | .store c => (convert N c i.text).toOption.map fun v => (o.dest, v)

/-- The options by name: their attributes and kinds. -/
theorem options_known :
    (∀ n ∈ flagNames, ∃ o b, exactOption gridOptions n.toList = some o ∧ o.action = .flag b) ∧
    (∀ n ∈ textNames, ∃ o, exactOption gridOptions n.toList = some o ∧ o.action = .store .text) ∧
    (∀ n ∈ numberNames, ∃ o, exactOption gridOptions n.toList = some o ∧ o.action = .store .float) ∧
    (∀ n ∈ countNames, ∃ o, exactOption gridOptions n.toList = some o ∧ o.action = .store .int) := by
  have key : ∀ (l : List String) (P : Opt → Bool), (∀ n ∈ l, ((exactOption gridOptions n.toList).map P) = some true) →
      ∀ n ∈ l, ∃ o, exactOption gridOptions n.toList = some o ∧ P o = true := by
    intro l P h n hn
    have := h n hn
    rw [Option.map_eq_some_iff] at this
    exact this
  refine ⟨?_, ?_, ?_, ?_⟩
  · intro n hn
    obtain ⟨o, h1, h2⟩ := key flagNames (fun o => match o.action with | .flag _ => true | _ => false) (by decide) n hn
    refine ⟨o, ?_⟩
    cases ha : o.action with
    | flag b => exact ⟨b, h1, rfl⟩
    | store c => rw [ha] at h2; cases h2
    | help => rw [ha] at h2; cases h2
  · intro n hn
    obtain ⟨o, h1, h2⟩ := key textNames (fun o => o.action = .store .text) (by decide) n hn
    exact ⟨o, h1, by simpa using h2⟩
  · intro n hn
    obtain ⟨o, h1, h2⟩ := key numberNames (fun o => o.action = .store .float) (by decide) n hn
    exact ⟨o, h1, by simpa using h2⟩
  · intro n hn
    obtain ⟨o, h1, h2⟩ := key countNames (fun o => o.action = .store .int) (by decide) n hn
    exact ⟨o, h1, by simpa using h2⟩

theorem fits_store {N : Numbers Rat} {n : String} {t : Text} (h : Fits N n t) :
    ∃ o c v, exactOption gridOptions n.toList = some o ∧ o.action = .store c ∧ convert N c t = .ok v := by
  obtain ⟨-, k2, k3, k4⟩ := options_known
  rcases h with h | ⟨h, q, hq⟩ | ⟨h, q, hq⟩
  · obtain ⟨o, h1, h2⟩ := k2 n h
    exact ⟨o, _, _, h1, h2, rfl⟩
  · obtain ⟨o, h1, h2⟩ := k3 n h
    exact ⟨o, _, _, h1, h2, by simp only [convert, hq]; rfl⟩
  · obtain ⟨o, h1, h2⟩ := k4 n h
    exact ⟨o, _, _, h1, h2, by simp only [convert, hq]; rfl⟩

theorem names_dash {n : String} {o : Opt} (h : exactOption gridOptions n.toList = some o) :
    n.toList.head? = some '-' ∧ '=' ∉ n.toList := by
  have hm : n.toList ∈ tableNames := by
    unfold exactOption at h
    exact mem_tableNames (List.mem_of_find?_eq_some h) (by simpa using List.find?_some h)
  have : ∀ n ∈ tableNames, n.head? = some '-' := by decide
  exact ⟨this _ hm, table_noEquals _ hm⟩

theorem classify_exact {n : String} {o : Opt} (h : exactOption gridOptions n.toList = some o) :
    classify gridOptions n.toList = .option o none := by
  unfold classify
  rw [if_neg (by rw [(names_dash h).1]; simp), h]

theorem classify_joined {n : String} {o : Opt} (h : exactOption gridOptions n.toList = some o) (t : Text) :
    classify gridOptions (n.toList ++ '=' :: t) = .option o (some t) := by
  obtain ⟨h1, h2⟩ := names_dash h
  obtain ⟨c, w, hw⟩ : ∃ c w, n.toList = c :: w := by
    cases hn : n.toList with
    | nil => rw [hn] at h1; cases h1
    | cons c w => exact ⟨c, w, rfl⟩
  unfold classify
  rw [if_neg (by rw [hw] at h1 ⊢; simpa using h1), exact_joined]
  simp only
  rw [if_neg (by rw [hw]; simp), splitEquals_join h2]
  simp only [Option.bind_some, h, Option.map_some]

/-- An option that is understood sets one attribute. -/
theorem parse_item {N : Numbers Rat} {i : Item} (hi : i.Understood N) (s : Parsed) (rest : List Text) :
    ∃ o v, settingOf N i = some (o.dest, v) ∧
      parseTokens gridOptions N s (i.tokens ++ rest) = parseTokens gridOptions N (s.set o v) rest := by
  cases i with
  | flag n =>
    obtain ⟨o, b, h1, h2⟩ := options_known.1 n hi
    refine ⟨o, .bool b, ?_, ?_⟩
    · unfold settingOf
      simp only [Item.name, h1, Option.bind_some, h2]
    · simp only [Item.tokens, List.singleton_append]
      conv => lhs; unfold parseTokens
      simp only [classify_exact h1, h2]
  | value n t =>
    obtain ⟨o, c, v, h1, h2, h3⟩ := fits_store hi.1
    refine ⟨o, v, ?_, ?_⟩
    · unfold settingOf
      simp only [Item.name, Item.text, h1, Option.bind_some, h2, h3]
      rfl
    · simp only [Item.tokens, List.cons_append, List.nil_append]
      conv => lhs; unfold parseTokens
      simp only [classify_exact h1, h2, classify_plain hi.2, if_true, h3]
  | joined n t =>
    obtain ⟨o, c, v, h1, h2, h3⟩ := fits_store hi
    refine ⟨o, v, ?_, ?_⟩
    · unfold settingOf
      simp only [Item.name, Item.text, h1, Option.bind_some, h2, h3]
      rfl
    · simp only [Item.tokens, List.singleton_append]
      conv => lhs; unfold parseTokens
      simp only [classify_joined h1 t, h2, h3]

/-- The last value that is set. -/
def lastSet (N : Numbers Rat) (k : String) (items : List Item) : Option Value :=
  (items.filterMap fun i => (settingOf N i).bind fun p => if p.1 = k then some p.2 else none).getLast?

theorem parse_items {N : Numbers Rat} : ∀ {items : List Item}, (∀ i ∈ items, i.Understood N) → ∀ (s : Parsed)
    (rest : List Text), ∃ s', parseTokens gridOptions N s (tokensOf items ++ rest) = parseTokens gridOptions N s' rest ∧
      (∀ k, s'.ns k = (lastSet N k items).getD (s.ns k)) ∧
      s'.files = (if items = [] then s.files else s.files.close) ∧ s'.extras = s.extras := by
  intro items
  induction items with
  | nil => intro _ s rest; exact ⟨s, rfl, fun _ => rfl, rfl, rfl⟩
  | cons i items ih =>
    intro h s rest
    obtain ⟨o, v, h1, h2⟩ := parse_item (h i (by simp)) s (tokensOf items ++ rest)
    obtain ⟨s', h3, h4, h5, h6⟩ := ih (fun j hj => h j (by simp [hj])) (s.set o v) rest
    refine ⟨s', ?_, ?_, ?_, ?_⟩
    · rw [← h3, ← h2]
      simp [tokensOf]
    · intro k
      rw [h4 k]
      unfold lastSet
      rw [List.filterMap_cons, h1]
      simp only [Option.bind_some, Parsed.set]
      by_cases hk : o.dest = k
      · rw [if_pos hk, if_pos hk.symm]
        simp only [List.getLast?_cons, Option.getD_some]
      · rw [if_neg hk, if_neg (fun e => hk e.symm)]
    · rw [h5, if_neg (List.cons_ne_nil _ _)]
      simp only [Parsed.set]
      split
      · rfl
      · cases s.files <;> rfl
    · rw [h6]
      rfl

theorem parse_files {N : Numbers Rat} : ∀ {files : List Text}, (∀ f ∈ files, PlainValue f) → ∀ (s : Parsed)
    (rest : List Text), s.files = .none ∨ (∃ l, s.files = .reading l) →
    ∃ s', parseTokens gridOptions N s (files ++ rest) = parseTokens gridOptions N s' rest ∧ s'.ns = s.ns ∧
      s'.extras = s.extras ∧ s'.files.get = s.files.get ++ files ∧
      (s'.files = .none ∧ s.files = .none ∧ files = [] ∨ ∃ l, s'.files = .reading l) := by
  intro files
  induction files with
  | nil =>
    intro _ s rest hs
    refine ⟨s, rfl, rfl, rfl, by simp, ?_⟩
    rcases hs with hs | hs
    · exact Or.inl ⟨hs, hs, rfl⟩
    · exact Or.inr hs
  | cons f files ih =>
    intro h s rest hs
    have e : parseTokens gridOptions N s (f :: files ++ rest) = parseTokens gridOptions N (s.file f) (files ++ rest) := by
      rw [List.cons_append]
      conv => lhs; unfold parseTokens
      simp only [classify_plain (h f (by simp))]
    have hf : (s.file f).files = .reading (s.files.get ++ [f]) ∧ (s.file f).ns = s.ns ∧
        (s.file f).extras = s.extras := by
      unfold Parsed.file
      rcases hs with hs | ⟨l, hs⟩
      · rw [hs]; exact ⟨rfl, rfl, rfl⟩
      · rw [hs]; exact ⟨rfl, rfl, rfl⟩
    obtain ⟨s', h1, h2, h3, h4, h5⟩ := ih (fun g hg => h g (by simp [hg])) (s.file f) rest (Or.inr ⟨_, hf.1⟩)
    refine ⟨s', by rw [e, h1], by rw [h2, hf.2.1], by rw [h3, hf.2.2], ?_, ?_⟩
    · rw [h4, hf.1]
      simp [Files.get]
    · rcases h5 with ⟨-, h6, -⟩ | h5
      · rw [hf.1] at h6; cases h6
      · exact Or.inr h5

/-! ## C112: the meaning of the options -/

def documentedNames : List String := flagNames ++ (textNames ++ (numberNames ++ countNames))

/-- These options, and no others, set an attribute. -/
def Sets (k : String) (names : List String) : Prop :=
  ∀ n ∈ documentedNames,
    ((exactOption gridOptions n.toList).map fun o => decide (o.dest = k) == decide (n ∈ names)) = some true

instance (k : String) (names : List String) : Decidable (Sets k names) :=
  inferInstanceAs (Decidable (∀ n ∈ documentedNames, _))

theorem understood_name {N : Numbers Rat} {i : Item} (h : i.Understood N) : i.name ∈ documentedNames := by
  have key : ∀ n t, Fits N n t → n ∈ documentedNames := by
    intro n t hf
    unfold documentedNames
    rcases hf with hf | ⟨hf, -⟩ | ⟨hf, -⟩
    · exact List.mem_append_right _ (List.mem_append_left _ hf)
    · exact List.mem_append_right _ (List.mem_append_right _ (List.mem_append_left _ hf))
    · exact List.mem_append_right _ (List.mem_append_right _ (List.mem_append_right _ hf))
  cases i with
  | flag n => exact List.mem_append_left _ h
  | value n t => exact key n t h.1
  | joined n t => exact key n t h

theorem sets_iff {k : String} {names : List String} (h : Sets k names) {n : String} (hn : n ∈ documentedNames)
    {o : Opt} (ho : exactOption gridOptions n.toList = some o) : o.dest = k ↔ n ∈ names := by
  have := h n hn
  rw [ho] at this
  simpa using this

theorem settingOf_name {N : Numbers Rat} {i : Item} {k : String} {v : Value} (h : settingOf N i = some (k, v)) :
    ∃ o, exactOption gridOptions i.name.toList = some o ∧ o.dest = k ∧
      (o.action = .flag true ∧ v = .bool true ∨ o.action = .flag false ∧ v = .bool false ∨
        ∃ c, o.action = .store c ∧ convert N c i.text = .ok v) := by
  unfold settingOf at h
  rw [Option.bind_eq_some_iff] at h
  obtain ⟨o, e1, e2⟩ := h
  refine ⟨o, e1, ?_⟩
  cases ha : o.action with
  | help => rw [ha] at e2; cases e2
  | flag b =>
    rw [ha] at e2
    simp only [Option.some.injEq, Prod.mk.injEq] at e2
    cases b
    · exact ⟨e2.1, Or.inr (Or.inl ⟨rfl, e2.2.symm⟩)⟩
    · exact ⟨e2.1, Or.inl ⟨rfl, e2.2.symm⟩⟩
  | store c =>
    rw [ha] at e2
    simp only [Option.map_eq_some_iff, Prod.mk.injEq] at e2
    obtain ⟨w, e3, e4, e5⟩ := e2
    refine ⟨e4, Or.inr (Or.inr ⟨c, rfl, ?_⟩)⟩
    cases hc : convert N c i.text with
    | ok x => rw [hc] at e3; cases e3; rw [e5]
    | error e => rw [hc] at e3; cases e3

theorem lastSet_store {N : Numbers Rat} {items : List Item} (hi : ∀ i ∈ items, i.Understood N) {k : String}
    {names : List String} (hs : Sets k names) {c : Convert}
    (hc : ∀ n ∈ names, (exactOption gridOptions n.toList).map Opt.action = some (.store c)) :
    match lastOf names items with
    | some t => ∃ v, convert N c t = .ok v ∧ lastSet N k items = some v
    | none => lastSet N k items = none := by
  have hok : ∀ i ∈ items, i.name ∈ names → ∃ v, convert N c i.text = .ok v := by
    intro i hm hn
    have hcn := hc i.name hn
    have key : ∀ n t, Fits N n t → n ∈ names → ∃ v, convert N c t = .ok v := by
      intro n t hf hn
      obtain ⟨o, c', v, h1, h2, h3⟩ := fits_store hf
      have := hc n hn
      rw [h1] at this
      simp only [Option.map_some, Option.some.injEq, h2, Action.store.injEq] at this
      subst this
      exact ⟨v, h3⟩
    have hu := hi i hm
    cases i with
    | flag n =>
      obtain ⟨o, b, h1, h2⟩ := options_known.1 n hu
      simp only [Item.name, h1, Option.map_some, h2] at hcn
      cases hcn
    | value n t => exact key n t hu.1 hn
    | joined n t => exact key n t hu hn
  have hmap : (items.filterMap fun i => (settingOf N i).bind fun p => if p.1 = k then some p.2 else none) =
      (items.filterMap fun i => if i.name ∈ names then some i.text else none).map
        fun t => (convert N c t).toOption.getD .none := by
    rw [List.map_filterMap]
    apply List.filterMap_congr
    intro i hm
    have hu := hi i hm
    obtain ⟨o, v, h1, -⟩ := parse_item hu ⟨fun _ => .none, .none, false, []⟩ []
    obtain ⟨o', e1, e2, e3⟩ := settingOf_name h1
    rw [h1]
    simp only [Option.bind_some]
    by_cases hn : i.name ∈ names
    · rw [if_pos (by rw [← e2]; exact (sets_iff hs (understood_name hu) e1).mpr hn), if_pos hn]
      obtain ⟨w, hw⟩ := hok i hm hn
      have hact : o'.action = .store c := by
        have := hc i.name hn
        rw [e1] at this
        simpa using this
      rw [hact] at e3
      rcases e3 with ⟨h, -⟩ | ⟨h, -⟩ | ⟨c', h, h'⟩
      · cases h
      · cases h
      · cases h
        simp only [Option.map_some, h']
        rfl
    · rw [if_neg (fun hd => hn ((sets_iff hs (understood_name hu) e1).mp (by rw [e2]; exact hd))), if_neg hn]
      rfl
  have hlast : lastSet N k items = (lastOf names items).map fun t => (convert N c t).toOption.getD .none := by
    unfold lastSet lastOf
    rw [hmap, List.getLast?_map]
  cases hl : lastOf names items with
  | none => rw [hlast, hl]; rfl
  | some t =>
    have ht : t ∈ items.filterMap fun i => if i.name ∈ names then some i.text else none :=
      List.mem_of_getLast? hl
    obtain ⟨i, hm, he⟩ := List.mem_filterMap.mp ht
    split at he
    · cases he
      rename_i hn
      obtain ⟨v, hv⟩ := hok i hm hn
      refine ⟨v, hv, ?_⟩
      rw [hlast, hl]
      simp only [Option.map_some, hv]
      rfl
    · cases he

theorem lastSet_flag {N : Numbers Rat} : ∀ {items : List Item}, (∀ i ∈ items, i.Understood N) → ∀ {k name : String},
    Sets k [name] → ∀ {b : Bool}, (exactOption gridOptions name.toList).map Opt.action = some (.flag b) →
    lastSet N k items = if flagged name items then some (.bool b) else none := by
  intro items hi k name hs b hb
  have hmem : ∀ i ∈ items, ((settingOf N i).bind fun p => if p.1 = k then some p.2 else none) =
      if i.name = name then some (.bool b) else none := by
    intro i hm
    have hu := hi i hm
    obtain ⟨o, v, h1, -⟩ := parse_item hu ⟨fun _ => .none, .none, false, []⟩ []
    obtain ⟨o', e1, e2, e3⟩ := settingOf_name h1
    have hiff := sets_iff hs (understood_name hu) e1
    rw [List.mem_singleton] at hiff
    rw [h1]
    simp only [Option.bind_some]
    by_cases hn : i.name = name
    · rw [if_pos hn, if_pos (by rw [← e2]; exact hiff.mpr hn)]
      have hact : o'.action = .flag b := by
        rw [← hn, e1] at hb
        simpa using hb
      rw [hact] at e3
      rcases e3 with ⟨h, h'⟩ | ⟨h, h'⟩ | ⟨c', h, h'⟩
      · cases h; rw [h']
      · cases h; rw [h']
      · cases h
    · rw [if_neg hn, if_neg (fun h => hn (hiff.mp (by rw [e2]; exact h)))]
  unfold lastSet flagged
  rw [List.filterMap_congr hmem]
  clear hmem hi
  induction items with
  | nil => rfl
  | cons i items ih =>
    rw [List.filterMap_cons, List.any_cons]
    by_cases hn : i.name = name
    · rw [if_pos hn]
      simp only [hn, decide_true, Bool.true_or, if_true, List.getLast?_cons]
      rw [ih]
      split <;> rfl
    · rw [if_neg hn]
      simp only [hn, decide_false, Bool.false_or]
      exact ih

/-- **C112**: options in any order, before and after the files: the arguments of the program are the last values that
were given, and the documented defaults where none was given. -/
theorem parse_means (N : Numbers Rat) (before after : List Item) (files : List Text)
    (hi : ∀ i ∈ before ++ after, i.Understood N) (hf : ∀ f ∈ files, PlainValue f) :
    ∃ ns, parseArgs gridOptions N (tokensOf before ++ (files ++ tokensOf after)) = .ok (ns, files) ∧
      (∀ k, ns k = (lastSet N k (before ++ after)).getD (defaultsOf gridOptions k)) := by
  obtain ⟨s1, a1, a2, a3, a4⟩ := parse_items (items := before) (fun i h => hi i (by simp [h]))
    ⟨defaultsOf gridOptions, .none, false, []⟩ (files ++ tokensOf after)
  have a3' : s1.files = .none := by rw [a3]; split <;> rfl
  obtain ⟨s2, b1, b2, b3, b4, b5⟩ := parse_files hf s1 (tokensOf after) (Or.inl a3')
  obtain ⟨s3, c1, c2, c3, c4⟩ := parse_items (items := after) (fun i h => hi i (by simp [h])) s2 []
  rw [List.append_nil] at c1
  refine ⟨s3.ns, ?_, ?_⟩
  · unfold parseArgs
    rw [a1, b1, c1]
    have hreq : (gridOptions.any fun o => o.required && !s3.seen.contains o.dest) = false := by
      rw [List.any_eq_false]
      intro o ho
      have : ∀ o ∈ gridOptions, o.required = false := by decide
      rw [this o ho]
      simp
    have hex : s3.extras = false := by rw [c4, b3, a4]
    have hfl : s3.files.get = files := by
      have hg : s2.files.get = files := by rw [b4, a3']; rfl
      rw [c3]
      split
      · exact hg
      · cases hh : s2.files <;> rw [hh] at hg <;> exact hg
    simp only [parseTokens, bind, Except.bind, hreq, hex, hfl]
    rfl
  · intro k
    rw [c2 k, b2, a2 k]
    unfold lastSet
    rw [List.filterMap_append, List.getLast?_append]
    cases (after.filterMap fun i => (settingOf N i).bind fun p => if p.1 = k then some p.2 else none).getLast? <;> rfl

theorem C112_parse (N : Numbers Rat) (before after : List Item) (files : List Text)
    (hi : ∀ i ∈ before ++ after, i.Understood N) (hf : ∀ f ∈ files, PlainValue f) :
    ∃ ns, parseArgs gridOptions N (tokensOf before ++ (files ++ tokensOf after)) = .ok (ns, files) ∧
      Means N (before ++ after) files (namespaceArgs ns files) ∧
      (ns "is_lma").asBool = flagged "--lma" (before ++ after) := by
  obtain ⟨ns, h1, h2⟩ := parse_means N before after files hi hf
  refine ⟨ns, h1, ?_, ?_⟩
  · generalize before ++ after = items at hi h2
    have num : ∀ (k name : String) (d : Rat), Sets k [name] →
        (∀ n ∈ [name], (exactOption gridOptions n.toList).map Opt.action = some (.store .float)) →
        defaultsOf gridOptions k = .float d → numberOr N d (lastOf [name] items) (ns k).asRat := by
      intro k name d hs hc hd
      have := lastSet_store hi hs hc
      unfold numberOr
      cases hl : lastOf [name] items with
      | none => rw [hl] at this; rw [h2, this, hd]; rfl
      | some t =>
        rw [hl] at this
        obtain ⟨v, e1, e2⟩ := this
        rw [h2, e2]
        simp only [convert] at e1
        cases hq : N.float t with
        | ok q => rw [hq] at e1; cases e1; exact hq
        | error e => rw [hq] at e1; cases e1
    have cnt : ∀ (k name : String) (d : Int), Sets k [name] →
        (∀ n ∈ [name], (exactOption gridOptions n.toList).map Opt.action = some (.store .int)) →
        defaultsOf gridOptions k = .int d → countOr N d (lastOf [name] items) (ns k).asInt := by
      intro k name d hs hc hd
      have := lastSet_store hi hs hc
      unfold countOr
      cases hl : lastOf [name] items with
      | none => rw [hl] at this; rw [h2, this, hd]; rfl
      | some t =>
        rw [hl] at this
        obtain ⟨v, e1, e2⟩ := this
        rw [h2, e2]
        simp only [convert] at e1
        cases hq : N.int t with
        | ok q => rw [hq] at e1; cases e1; exact hq
        | error e => rw [hq] at e1; cases e1
    have opt : ∀ (k name : String), Sets k [name] →
        (∀ n ∈ [name], (exactOption gridOptions n.toList).map Opt.action = some (.store .float)) →
        defaultsOf gridOptions k = .none →
        match lastOf [name] items with
        | some t => ∃ q, N.float t = .ok q ∧ (ns k).asRat? = some q
        | none => (ns k).asRat? = none := by
      intro k name hs hc hd
      have := lastSet_store hi hs hc
      cases hl : lastOf [name] items with
      | none => rw [hl] at this; rw [h2, this, hd]; rfl
      | some t =>
        rw [hl] at this
        obtain ⟨v, e1, e2⟩ := this
        rw [h2, e2]
        simp only [convert] at e1
        cases hq : N.float t with
        | ok q => rw [hq] at e1; cases e1; exact ⟨q, hq, rfl⟩
        | error e => rw [hq] at e1; cases e1
    have txt : ∀ (k : String) (names : List String), Sets k names →
        (∀ n ∈ names, (exactOption gridOptions n.toList).map Opt.action = some (.store .text)) →
        lastSet N k items = (lastOf names items).map Value.text := by
      intro k names hs hc
      have := lastSet_store hi hs hc
      cases hl : lastOf names items with
      | none => rw [hl] at this; rw [this]; rfl
      | some t =>
        rw [hl] at this
        obtain ⟨v, e1, e2⟩ := this
        cases e1
        rw [e2]
        rfl
    have str : ∀ (k : String) (names : List String) (d : String), Sets k names →
        (∀ n ∈ names, (exactOption gridOptions n.toList).map Opt.action = some (.store .text)) →
        defaultsOf gridOptions k = .text d.toList →
        (ns k).asString.toList = (lastOf names items).getD d.toList := by
      intro k names d hs hc hd
      rw [h2, txt k names hs hc, hd]
      cases lastOf names items <;> simp [Value.asString, Value.asText?]
    have stx : ∀ (k : String) (names : List String), Sets k names →
        (∀ n ∈ names, (exactOption gridOptions n.toList).map Opt.action = some (.store .text)) →
        defaultsOf gridOptions k = .none → (ns k).asText? = lastOf names items := by
      intro k names hs hc hd
      rw [h2, txt k names hs hc, hd]
      cases lastOf names items <;> rfl
    have flg : ∀ (k name : String) (b : Bool), Sets k [name] →
        (exactOption gridOptions name.toList).map Opt.action = some (.flag b) →
        defaultsOf gridOptions k = .bool !b → (ns k).asBool = (b == flagged name items) := by
      intro k name b hs hb hd
      rw [h2, lastSet_flag hi hs hb, hd]
      cases flagged name items <;> cases b <;> rfl
    constructor
    · rfl
    · exact str "outdir" ["-o", "--output_path"] "./{dataset_name}" (by decide) (by decide) (by decide)
    · exact opt "ctr_lat" "--ctr_lat" (by decide) (by decide) (by decide)
    · exact opt "ctr_lon" "--ctr_lon" (by decide) (by decide) (by decide)
    · exact stx "start" ["--start"] (by decide) (by decide) (by decide)
    · exact stx "end" ["--end"] (by decide) (by decide) (by decide)
    · exact num "dx" "--dx" 10 (by decide) (by decide) (by decide)
    · exact num "dy" "--dy" 10 (by decide) (by decide) (by decide)
    · exact num "dt" "--dt" 60 (by decide) (by decide) (by decide)
    · exact num "width" "--width" 400 (by decide) (by decide) (by decide)
    · exact num "height" "--height" 400 (by decide) (by decide) (by decide)
    · exact cnt "min_events" "--nevents" 1 (by decide) (by decide) (by decide)
    · exact cnt "min_groups" "--ngroups" 1 (by decide) (by decide) (by decide)
    · exact (flg "fixed_grid" "--fixed_grid" true (by decide) (by decide) (by decide)).trans (by simp)
    · exact ⟨_, cnt "subdivide_grid" "--subdivide_grid" 1 (by decide) (by decide) (by decide), fun h =>
        Int.toNat_of_nonneg h⟩
    · exact str "goes_position" ["--goes_position"] "none" (by decide) (by decide) (by decide)
    · exact str "goes_sector" ["--goes_sector"] "none" (by decide) (by decide) (by decide)
    · exact (flg "split_events" "--split_events" true (by decide) (by decide) (by decide)).trans (by simp)
    · exact cnt "ellipse_rev" "--ellipse" (-1) (by decide) (by decide) (by decide)
    · exact (flg "output_scale_and_offset" "--float_output" false (by decide) (by decide) (by decide)).trans (by simp)
  · rw [h2, lastSet_flag hi (show Sets "is_lma" ["--lma"] by decide)
      (show (exactOption gridOptions "--lma".toList).map Opt.action = some (.flag true) by decide)]
    cases flagged "--lma" (before ++ after) <;> rfl

/-- **C112**: the program does what the arguments that the options mean ask for. -/
theorem C112_program {σ ι : Type} (lib : Lmatools) (G : DateTime → DateTime → Gridder σ ι) (read : Text → GFile) (N : Numbers Rat)
    (before after : List Item) (files : List Text) (hi : ∀ i ∈ before ++ after, i.Understood N)
    (hf : ∀ f ∈ files, PlainValue f) :
    (Item.flag "--lma" ∈ before ++ after →
      gridProgram lib G read N (tokensOf before ++ (files ++ tokensOf after)) = .lma files) ∧
    (Item.flag "--lma" ∉ before ++ after → ∃ a, Means N (before ++ after) files a ∧
      gridProgram lib G read N (tokensOf before ++ (files ++ tokensOf after)) = .glm (mainProgram lib G read a)) := by
  obtain ⟨ns, h1, h2, h3⟩ := C112_parse N before after files hi hf
  have hflag : flagged "--lma" (before ++ after) = true ↔ Item.flag "--lma" ∈ before ++ after := by
    unfold flagged
    rw [List.any_eq_true]
    constructor
    · rintro ⟨i, hm, hn⟩
      have hn : i.name = "--lma" := by simpa using hn
      have hu := hi i hm
      have key : ∀ t, ¬ Fits N "--lma" t := by
        intro t hfit
        rcases hfit with h | ⟨h, -⟩ | ⟨h, -⟩ <;> revert h <;> decide
      cases i with
      | flag n => cases hn; exact hm
      | value n t => cases hn; exact absurd hu.1 (key t)
      | joined n t => cases hn; exact absurd hu (key t)
    · intro h
      exact ⟨_, h, by simp [Item.name]⟩
  unfold gridProgram
  rw [h1]
  constructor
  · intro h
    simp only [h3, hflag.mpr h, if_true]
  · intro h
    refine ⟨_, h2, ?_⟩
    simp only [h3, Bool.eq_false_iff.mpr (fun e => h (hflag.mp e)), Bool.false_eq_true, if_false]

/-! ## C112: lines that are refused -/

theorem bind_exit {ε α β : Type} {x : Except ε α} {f : α → Except ε β} {b : β} (h : x >>= f = .ok b) :
    ∃ a, x = .ok a ∧ f a = .ok b := by
  cases x with
  | error e => cases h
  | ok a => exact ⟨a, rfl, h⟩

theorem parse_error {N : Numbers Rat} {before : List Item} (hi : ∀ i ∈ before, i.Understood N) {rest : List Text}
    {e : Exit} (h : ∀ s, parseTokens gridOptions N s rest = .error e) :
    parseArgs gridOptions N (tokensOf before ++ rest) = .error e := by
  obtain ⟨s', h1, -⟩ := parse_items hi ⟨defaultsOf gridOptions, .none, false, []⟩ rest
  unfold parseArgs
  rw [h1, h s']
  rfl

/-- **C112**: a value that the option cannot take, a value for a flag and a missing value are errors. -/
theorem C112_refused (N : Numbers Rat) (before : List Item) (hi : ∀ i ∈ before, i.Understood N) :
    (∀ name ∈ numberNames, ∀ t e, N.float t = .error e → ∀ rest,
      parseArgs gridOptions N (tokensOf before ++ (Item.joined name t).tokens ++ rest) = .error .usage ∧
      parseArgs gridOptions N (tokensOf before ++ (Item.value name t).tokens ++ rest) = .error .usage) ∧
    (∀ name ∈ countNames, ∀ t e, N.int t = .error e → ∀ rest,
      parseArgs gridOptions N (tokensOf before ++ (Item.joined name t).tokens ++ rest) = .error .usage ∧
      parseArgs gridOptions N (tokensOf before ++ (Item.value name t).tokens ++ rest) = .error .usage) ∧
    (∀ name ∈ flagNames, ∀ t rest,
      parseArgs gridOptions N (tokensOf before ++ (Item.joined name t).tokens ++ rest) = .error .usage) ∧
    (∀ name ∈ textNames ++ (numberNames ++ countNames),
      parseArgs gridOptions N (tokensOf before ++ [name.toList]) = .error .usage ∧
      ∀ name' ∈ documentedNames, ∀ rest,
        parseArgs gridOptions N (tokensOf before ++ (name.toList :: name'.toList :: rest)) = .error .usage) := by
  have bad : ∀ (name : String) (o : Opt) (c : Convert) (t : Text), exactOption gridOptions name.toList = some o →
      o.action = .store c → convert N c t = .error .usage → ∀ rest,
      parseArgs gridOptions N (tokensOf before ++ (Item.joined name t).tokens ++ rest) = .error .usage ∧
      parseArgs gridOptions N (tokensOf before ++ (Item.value name t).tokens ++ rest) = .error .usage := by
    intro name o c t h1 h2 h3 rest
    constructor
    · rw [List.append_assoc]
      refine parse_error hi fun s => ?_
      simp only [Item.tokens, List.singleton_append]
      unfold parseTokens
      simp only [classify_joined h1 t, h2, h3]
    · rw [List.append_assoc]
      refine parse_error hi fun s => ?_
      simp only [Item.tokens, List.cons_append, List.nil_append]
      unfold parseTokens
      simp only [classify_exact h1, h2, h3]
      split <;> rfl
  have store : ∀ name ∈ textNames ++ (numberNames ++ countNames), ∃ o c,
      exactOption gridOptions name.toList = some o ∧ o.action = .store c := by
    intro name hn
    rcases List.mem_append.mp hn with hn | hn
    · obtain ⟨o, h1, h2⟩ := options_known.2.1 name hn
      exact ⟨o, _, h1, h2⟩
    · rcases List.mem_append.mp hn with hn | hn
      · obtain ⟨o, h1, h2⟩ := options_known.2.2.1 name hn
        exact ⟨o, _, h1, h2⟩
      · obtain ⟨o, h1, h2⟩ := options_known.2.2.2 name hn
        exact ⟨o, _, h1, h2⟩
  refine ⟨?_, ?_, ?_, ?_⟩
  · intro name hn t e ht
    obtain ⟨o, h1, h2⟩ := options_known.2.2.1 name hn
    exact bad name o _ t h1 h2 (by simp only [convert, ht])
  · intro name hn t e ht
    obtain ⟨o, h1, h2⟩ := options_known.2.2.2 name hn
    exact bad name o _ t h1 h2 (by simp only [convert, ht])
  · intro name hn t rest
    obtain ⟨o, b, h1, h2⟩ := options_known.1 name hn
    rw [List.append_assoc]
    refine parse_error hi fun s => ?_
    simp only [Item.tokens, List.singleton_append]
    unfold parseTokens
    simp only [classify_joined h1 t, h2]
  · intro name hn
    obtain ⟨o, c, h1, h2⟩ := store name hn
    constructor
    · refine parse_error hi fun s => ?_
      unfold parseTokens
      simp only [classify_exact h1, h2]
    · intro name' hn' rest
      have : ∃ o', exactOption gridOptions name'.toList = some o' := by
        unfold documentedNames at hn'
        rcases List.mem_append.mp hn' with hn' | hn'
        · obtain ⟨o', -, h, -⟩ := options_known.1 name' hn'
          exact ⟨o', h⟩
        · obtain ⟨o', -, h, -⟩ := store name' hn'
          exact ⟨o', h⟩
      obtain ⟨o', h3⟩ := this
      refine parse_error hi fun s => ?_
      unfold parseTokens
      simp only [classify_exact h1, h2, classify_exact h3]
      rw [if_neg (by intro h; cases h)]

theorem extras_stay {N : Numbers Rat} : ∀ (n : Nat) (s s' : Parsed) (tokens : List Text), tokens.length ≤ n →
    parseTokens gridOptions N s tokens = .ok s' → s.extras = true → s'.extras = true := by
  intro n
  induction n with
  | zero =>
    intro s s' tokens hl h he
    cases tokens with
    | nil => unfold parseTokens at h; cases h; exact he
    | cons t rest => simp at hl
  | succ n ih =>
    intro s s' tokens hl h he
    cases tokens with
    | nil => unfold parseTokens at h; cases h; exact he
    | cons t rest =>
      have hr : rest.length ≤ n := by simpa using hl
      unfold parseTokens at h
      split at h
      · refine ih _ _ _ hr h ?_
        unfold Parsed.file
        split <;> first | exact he | rfl
      · exact ih _ _ _ hr h rfl
      · cases h
      · split at h
        · cases h
        · cases h
        · exact ih _ _ _ hr h he
        · cases h
        · split at h
          · exact ih _ _ _ hr h he
          · cases h
        · split at h
          · cases h
          · rename_i v rest'
            split at h
            · split at h
              · exact ih _ _ _ (by simp at hr; omega) h he
              · cases h
            · cases h

/-- **C112**: the names of the files stand together: a line that puts options between them is refused. -/
theorem C112_files_apart (N : Numbers Rat) (before between : List Item) (files : List Text) (f : Text)
    (rest : List Text) (hi : ∀ i ∈ before ++ between, i.Understood N) (hf : ∀ g ∈ files, PlainValue g)
    (hf' : PlainValue f) (hne : files ≠ []) (hne' : between ≠ []) :
    ∃ e, parseArgs gridOptions N (tokensOf before ++ (files ++ (tokensOf between ++ f :: rest))) = .error e := by
  cases hp : parseArgs gridOptions N (tokensOf before ++ (files ++ (tokensOf between ++ f :: rest))) with
  | error e => exact ⟨e, rfl⟩
  | ok r =>
    exfalso
    unfold parseArgs at hp
    obtain ⟨s', h, hp⟩ := bind_exit hp
    obtain ⟨s1, a1, a2, a3, a4⟩ := parse_items (items := before) (fun i h => hi i (by simp [h]))
      ⟨defaultsOf gridOptions, .none, false, []⟩ (files ++ (tokensOf between ++ f :: rest))
    have a3' : s1.files = .none := by rw [a3]; split <;> rfl
    obtain ⟨s2, b1, b2, b3, b4, b5⟩ := parse_files hf s1 (tokensOf between ++ f :: rest) (Or.inl a3')
    obtain ⟨s3, c1, c2, c3, c4⟩ := parse_items (items := between) (fun i h => hi i (by simp [h])) s2 (f :: rest)
    rw [a1, b1, c1] at h
    rw [if_neg hne'] at c3
    obtain ⟨l, hl⟩ : ∃ l, s3.files = .done l := by
      rcases b5 with ⟨-, -, h⟩ | ⟨l, h⟩
      · exact absurd h hne
      · exact ⟨l, by rw [c3, h]; rfl⟩
    unfold parseTokens at h
    simp only [classify_plain hf'] at h
    have he := extras_stay _ _ _ _ (le_refl _) h (by unfold Parsed.file; rw [hl])
    rw [he] at hp
    split at hp <;> cases hp

/-- A token that begins with a hyphen and abbreviates no name. -/
def UnknownOption (t : Text) : Prop :=
  ∃ word : Text, '=' ∉ word ∧ (t = '-' :: '-' :: word ∨ ∃ v, t = '-' :: '-' :: (word ++ '=' :: v)) ∧ ' ' ∉ t ∧
    ∀ n ∈ "--help" :: documentedNames, ¬ '-' :: '-' :: word <+: n.toList

theorem classify_unknown {t : Text} (h : UnknownOption t) : classify gridOptions t = .unknown := by
  obtain ⟨word, he, ht, hs, hn⟩ := h
  have hnames : ∀ n ∈ tableNames, ¬ '-' :: '-' :: word <+: n := by
    intro n hm hp
    have : ∀ n ∈ tableNames, n = "-h".toList ∨ n ∈ ("--help" :: documentedNames).map String.toList := by decide
    rcases this n hm with h | h
    · subst h
      have := hp.length_le
      obtain ⟨r, hr⟩ := hp
      have h2 := congrArg (fun l => l[1]?) hr
      simp at h2
    · obtain ⟨m, hm', rfl⟩ := List.mem_map.mp h
      exact hn m hm' hp
  have hpre : ∃ v, t = ('-' :: '-' :: word) ++ v := by
    rcases ht with ht | ⟨v, ht⟩
    · exact ⟨[], by rw [ht, List.append_nil]⟩
    · exact ⟨'=' :: v, by rw [ht]; rfl⟩
  have hex : exactOption gridOptions t = none := by
    unfold exactOption
    rw [List.find?_eq_none]
    intro o ho hcon
    obtain ⟨v, rfl⟩ := hpre
    exact hnames _ (mem_tableNames ho (by simpa using hcon)) (List.prefix_append _ _)
  have hexw : exactOption gridOptions ('-' :: '-' :: word) = none := by
    unfold exactOption
    rw [List.find?_eq_none]
    intro o ho hcon
    exact hnames _ (mem_tableNames ho (by simpa using hcon)) (List.prefix_refl _)
  have he' : '=' ∉ '-' :: '-' :: word := by simp [he]
  have hab : abbreviated gridOptions t = [] := by
    have hd : startsWith "--".toList t = true := by
      rw [startsWith_iff]
      obtain ⟨v, rfl⟩ := hpre
      exact ⟨word ++ v, rfl⟩
    have hsp : ((splitEquals t).elim (t, none) fun p => (p.1, some p.2)).1 = '-' :: '-' :: word := by
      rcases ht with rfl | ⟨v, rfl⟩
      · rw [splitEquals_none he']; rfl
      · have := splitEquals_join (n := '-' :: '-' :: word) (t := v) he'
        rw [List.cons_append, List.cons_append] at this
        rw [this]
        rfl
    unfold abbreviated
    rw [hd, if_pos rfl]
    simp only
    rw [hsp, List.flatMap_eq_nil_iff]
    intro o ho
    rw [List.map_eq_nil_iff, List.filter_eq_nil_iff]
    intro n hm hp
    rw [startsWith_iff] at hp
    exact hnames n (mem_tableNames ho hm) hp
  have hneg : isNegativeNumber t = false := by
    obtain ⟨v, rfl⟩ := hpre
    have : ('-' :: (word ++ v)).dropWhile Char.isDigit = '-' :: (word ++ v) := by
      rw [List.dropWhile_cons, if_neg (by decide)]
    unfold isNegativeNumber
    simp only [List.cons_append, this]
    rfl
  have hb : ((splitEquals t).bind fun p => (exactOption gridOptions p.1).map fun o => (o, p.2)) = none := by
    rcases ht with rfl | ⟨v, rfl⟩
    · rw [splitEquals_none he']; rfl
    · have := splitEquals_join (n := '-' :: '-' :: word) (t := v) he'
      rw [List.cons_append, List.cons_append] at this
      rw [this]
      simp only [Option.bind_some, hexw, Option.map_none]
  have hhead : t.head? = some '-' := by obtain ⟨v, rfl⟩ := hpre; rfl
  have hlen : t.length ≠ 1 := by obtain ⟨v, rfl⟩ := hpre; simp
  unfold classify
  rw [if_neg (by rw [hhead]; simp), hex]
  simp only [if_neg hlen, hb, hab, hneg]
  have : t.contains ' ' = false := by simpa using hs
  rw [this]
  rfl

/-- **C112**: a line with an option that is not documented is refused. -/
theorem C112_unknown (N : Numbers Rat) (before : List Item) (t : Text) (rest : List Text)
    (hi : ∀ i ∈ before, i.Understood N) (ht : UnknownOption t) :
    ∃ e, parseArgs gridOptions N (tokensOf before ++ t :: rest) = .error e := by
  cases hp : parseArgs gridOptions N (tokensOf before ++ t :: rest) with
  | error e => exact ⟨e, rfl⟩
  | ok r =>
    exfalso
    unfold parseArgs at hp
    obtain ⟨s', h, hp⟩ := bind_exit hp
    obtain ⟨s1, a1, -⟩ := parse_items (items := before) hi ⟨defaultsOf gridOptions, .none, false, []⟩ (t :: rest)
    rw [a1] at h
    unfold parseTokens at h
    simp only [classify_unknown ht] at h
    have he := extras_stay _ _ _ _ (le_refl _) h rfl
    rw [he] at hp
    split at hp <;> cases hp

/-! ## C112: abbreviations -/

theorem parse_congr {N : Numbers Rat} {t t' : Text} (h : classify gridOptions t = classify gridOptions t')
    (ha : classify gridOptions t ≠ .argument) (rest : List Text) : ∀ (n : Nat) (pre : List Text) (s : Parsed),
    pre.length ≤ n →
    parseTokens gridOptions N s (pre ++ t :: rest) = parseTokens gridOptions N s (pre ++ t' :: rest) := by
  have base : ∀ s, parseTokens gridOptions N s (t :: rest) = parseTokens gridOptions N s (t' :: rest) := by
    intro s
    conv => lhs; unfold parseTokens
    conv => rhs; unfold parseTokens
    rw [h]
    cases hc : classify gridOptions t' with
    | argument => rw [← h] at hc; exact absurd hc ha
    | unknown => rfl
    | ambiguous => rfl
    | option o v => rfl
  intro n
  induction n with
  | zero =>
    intro pre s hl
    cases pre with
    | nil => exact base s
    | cons u pre => simp at hl
  | succ n ih =>
    intro pre s hl
    cases pre with
    | nil => exact base s
    | cons u pre =>
      have hr : pre.length ≤ n := by simpa using hl
      rw [List.cons_append, List.cons_append]
      conv => lhs; unfold parseTokens
      conv => rhs; unfold parseTokens
      cases classify gridOptions u with
      | argument => exact ih _ _ hr
      | unknown => exact ih _ _ hr
      | ambiguous => rfl
      | option o v =>
        cases ho : o.action with
        | help => cases v <;> simp only [ho]
        | flag b =>
          cases v with
          | none => simp only [ho]; exact ih _ _ hr
          | some v => simp only [ho]
        | store c =>
          cases v with
          | some v =>
            simp only [ho]
            cases convert N c v with
            | ok w => exact ih _ _ hr
            | error e => rfl
          | none =>
            simp only [ho]
            cases pre with
            | nil =>
              simp only [List.nil_append]
              rw [if_neg ha, if_neg (by rw [← h]; exact ha)]
            | cons v pre =>
              simp only [List.cons_append]
              split
              · cases convert N c v with
                | ok w => exact ih _ _ (by simp at hr; omega)
                | error e => rfl
              · rfl

/-- **C112**: the beginning of a name, if only one name begins so, stands for it. -/
theorem C112_abbreviated (N : Numbers Rat) (name : String) (t : Text) (pre rest : List Text)
    (hn : name ∈ documentedNames) (hp : t <+: name.toList) (hl : 2 < t.length)
    (hu : ∀ n ∈ "--help" :: documentedNames, t <+: n.toList → n = name) :
    parseArgs gridOptions N (pre ++ t :: rest) = parseArgs gridOptions N (pre ++ name.toList :: rest) := by
  have hex : ∃ o, exactOption gridOptions name.toList = some o := by
    unfold documentedNames at hn
    rcases List.mem_append.mp hn with hn | hn
    · obtain ⟨o', -, h, -⟩ := options_known.1 name hn
      exact ⟨o', h⟩
    · rcases List.mem_append.mp hn with hn | hn
      · obtain ⟨o', h, -⟩ := options_known.2.1 name hn
        exact ⟨o', h⟩
      · rcases List.mem_append.mp hn with hn | hn
        · obtain ⟨o', h, -⟩ := options_known.2.2.1 name hn
          exact ⟨o', h⟩
        · obtain ⟨o', h, -⟩ := options_known.2.2.2 name hn
          exact ⟨o', h⟩
  obtain ⟨o, ho⟩ := hex
  have hcn := classify_exact ho
  have hct : classify gridOptions t = .option o none := by
    by_cases hx : t = name.toList
    · rw [hx, hcn]
    · have htable : ∀ n ∈ tableNames, t <+: n → n = name.toList := by
        intro n hm hpn
        have : ∀ n ∈ tableNames, n = "-h".toList ∨ n ∈ ("--help" :: documentedNames).map String.toList := by decide
        rcases this n hm with h | h
        · subst h
          have := hpn.length_le
          have h2 : "-h".toList.length = 2 := by decide
          omega
        · obtain ⟨m, hm', rfl⟩ := List.mem_map.mp h
          rw [hu m hm' hpn]
      have hname : name.toList ∈ tableNames := by
        have : ∀ n ∈ documentedNames, n.toList ∈ tableNames := by decide
        exact this name hn
      have hdash : "--".toList <+: t := by
        have : ∀ n ∈ documentedNames, n = "-o" ∨ "--".toList <+: n.toList := by decide
        rcases this name hn with h | h
        · subst h
          have := hp.length_le
          have h2 : "-o".toList.length = 2 := by decide
          omega
        · exact List.prefix_of_prefix_length_le h hp (by
            have h2 : "--".toList.length = 2 := by decide
            omega)
      have he : '=' ∉ t := fun h => table_noEquals _ hname (hp.subset h)
      have hext : exactOption gridOptions t = none := by
        unfold exactOption
        rw [List.find?_eq_none]
        intro o ho hcon
        exact hx (htable t (mem_tableNames ho (by simpa using hcon)) (List.prefix_refl _))
      have hab : abbreviated gridOptions t = [(o, none)] := by
        unfold abbreviated
        rw [if_pos (by rw [startsWith_iff]; exact hdash), splitEquals_none he]
        show (gridOptions.flatMap fun o => (o.names.filter fun n => startsWith t n).map fun _ => (o, (none : Option Text))) =
          _
        have heq : ∀ o' ∈ gridOptions, (o'.names.filter fun n => startsWith t n) =
            o'.names.filter fun n => n == name.toList := by
          intro o' ho'
          apply List.filter_congr
          intro n hm
          rw [Bool.eq_iff_iff, startsWith_iff, beq_iff_eq]
          exact ⟨htable n (mem_tableNames ho' hm), fun e => e ▸ hp⟩
        rw [List.flatMap_congr (g := fun o' => (o'.names.filter fun n => n == name.toList).map fun _ => (o', none))
          (fun o' ho' => by rw [heq o' ho'])]
        have hall : ∀ n ∈ documentedNames, (gridOptions.flatMap fun o' =>
            (o'.names.filter fun m => m == n.toList).map fun _ => (o', (none : Option Text))) =
            (exactOption gridOptions n.toList).toList.map fun o => (o, none) := by decide
        rw [hall name hn, ho]
        rfl
      have hhead : t.head? = some '-' := by
        obtain ⟨r, rfl⟩ := hdash
        rfl
      unfold classify
      rw [if_neg (by rw [hhead]; simp), hext]
      simp only [if_neg (show t.length ≠ 1 by omega), splitEquals_none he, Option.bind_none, hab]
  have := parse_congr (N := N) (t := t) (t' := name.toList) (by rw [hct, hcn]) (by rw [hct]; intro h; cases h) rest
    pre.length pre ⟨defaultsOf gridOptions, .none, false, []⟩ (le_refl _)
  unfold parseArgs
  rw [this]

/-- **C112**: the beginning of two names is refused. -/
theorem C112_ambiguous (N : Numbers Rat) (before : List Item) (rest : List Text) (t : Text) (name name' : String)
    (hi : ∀ i ∈ before, i.Understood N) (hn : name ∈ documentedNames) (hn' : name' ∈ documentedNames)
    (hne : name ≠ name') (hp : t <+: name.toList) (hp' : t <+: name'.toList) (hl : 2 < t.length)
    (hx : ∀ n ∈ "--help" :: documentedNames, t ≠ n.toList) :
    parseArgs gridOptions N (tokensOf before ++ t :: rest) = .error .usage := by
  have hmem : ∀ n ∈ documentedNames, n.toList ∈ tableNames := by decide
  have hdash : "--".toList <+: t := by
    have : ∀ n ∈ documentedNames, n = "-o" ∨ "--".toList <+: n.toList := by decide
    rcases this name hn with h | h
    · subst h
      have := hp.length_le
      have h2 : "-o".toList.length = 2 := by decide
      omega
    · exact List.prefix_of_prefix_length_le h hp (by
        have h2 : "--".toList.length = 2 := by decide
        omega)
  have he : '=' ∉ t := fun h => table_noEquals _ (hmem name hn) (hp.subset h)
  have hext : exactOption gridOptions t = none := by
    unfold exactOption
    rw [List.find?_eq_none]
    intro o ho hcon
    have hm : t ∈ tableNames := mem_tableNames ho (by simpa using hcon)
    have : ∀ n ∈ tableNames, n = "-h".toList ∨ n ∈ ("--help" :: documentedNames).map String.toList := by decide
    rcases this t hm with h | h
    · subst h
      revert hl
      decide
    · obtain ⟨m, hm', h⟩ := List.mem_map.mp h
      exact hx m hm' h.symm
  have hab : 2 ≤ (abbreviated gridOptions t).length := by
    have hlen : (abbreviated gridOptions t).length = (tableNames.filter fun n => startsWith t n).length := by
      unfold abbreviated tableNames
      rw [if_pos (by rw [startsWith_iff]; exact hdash), splitEquals_none he]
      show (gridOptions.flatMap fun o => (o.names.filter fun n => startsWith t n).map fun _ =>
        (o, (none : Option Text))).length = _
      rw [List.filter_flatMap, List.length_flatMap, List.length_flatMap]
      simp only [List.length_map]
    rw [hlen]
    have h1 : name.toList ∈ tableNames.filter fun n => startsWith t n :=
      List.mem_filter.mpr ⟨hmem name hn, startsWith_iff.mpr hp⟩
    have h2 : name'.toList ∈ tableNames.filter fun n => startsWith t n :=
      List.mem_filter.mpr ⟨hmem name' hn', startsWith_iff.mpr hp'⟩
    match hf : tableNames.filter fun n => startsWith t n with
    | [] => rw [hf] at h1; cases h1
    | [x] =>
      rw [hf, List.mem_singleton] at h1 h2
      exact absurd (String.toList_inj.mp (h1.trans h2.symm)) hne
    | _ :: _ :: _ => simp
  have hhead : t.head? = some '-' := by
    obtain ⟨r, rfl⟩ := hdash
    rfl
  have hct : classify gridOptions t = .ambiguous := by
    unfold classify
    rw [if_neg (by rw [hhead]; simp), hext]
    simp only [if_neg (show t.length ≠ 1 by omega), splitEquals_none he, Option.bind_none]
    match hf : abbreviated gridOptions t with
    | [] => rw [hf] at hab; simp at hab
    | [x] => rw [hf] at hab; simp at hab
    | _ :: _ :: _ => rfl
  refine parse_error hi fun s => ?_
  unfold parseTokens
  simp only [hct]

/-! ## C112: what the help says and the program does not do -/

/-- An option without effect. -/
theorem C112_corner {σ ι : Type} (lib : Lmatools) (G : DateTime → DateTime → Gridder σ ι) (read : Text → GFile) (N : Numbers Rat)
    (before middle after : List Item) (files : List Text) (item : Item) (hn : item.name = "--corner_points")
    (hu : item.Understood N) (hi : ∀ i ∈ before ++ middle ++ after, i.Understood N) (hf : ∀ f ∈ files, PlainValue f) :
    gridProgram lib G read N (tokensOf (before ++ [item] ++ middle) ++ (files ++ tokensOf after)) =
    gridProgram lib G read N (tokensOf (before ++ middle) ++ (files ++ tokensOf after)) := by
  obtain ⟨ns, h1, h2⟩ := parse_means N (before ++ [item] ++ middle) after files (by
    intro i hm
    simp only [List.mem_append, List.mem_singleton] at hm
    rcases hm with ((hm | rfl) | hm) | hm
    · exact hi i (by simp [hm])
    · exact hu
    · exact hi i (by simp [hm])
    · exact hi i (by simp [hm])) hf
  obtain ⟨ns', h1', h2'⟩ := parse_means N (before ++ middle) after files hi hf
  obtain ⟨o, v, h3, -⟩ := parse_item hu ⟨fun _ => .none, .none, false, []⟩ []
  obtain ⟨o', h4, h5, -⟩ := settingOf_name h3
  have h6 : (exactOption gridOptions "--corner_points".toList).map Opt.dest = some "corner_points" := by decide
  rw [← hn, h4, Option.map_some, h5, Option.some.injEq] at h6
  rw [h6] at h3
  have same : ∀ k, k ≠ "corner_points" → ns k = ns' k := by
    intro k hk
    rw [h2, h2']
    unfold lastSet
    have : [item].filterMap (fun i => (settingOf N i).bind fun p => if p.1 = k then some p.2 else none) = [] := by
      rw [List.filterMap_cons, h3, Option.bind_some, if_neg (fun e => hk e.symm)]
      rfl
    rw [List.filterMap_append, List.filterMap_append, List.filterMap_append, List.filterMap_append, this,
      List.append_nil, List.filterMap_append]
  have hargs : namespaceArgs ns files = namespaceArgs ns' files := by
    unfold namespaceArgs
    rw [same "outdir" (by decide), same "ctr_lat" (by decide), same "ctr_lon" (by decide), same "start" (by decide),
      same "end" (by decide), same "dx" (by decide), same "dy" (by decide), same "dt" (by decide),
      same "width" (by decide), same "height" (by decide), same "min_events" (by decide),
      same "min_groups" (by decide), same "fixed_grid" (by decide), same "subdivide_grid" (by decide),
      same "goes_position" (by decide), same "goes_sector" (by decide), same "split_events" (by decide),
      same "ellipse_rev" (by decide), same "output_scale_and_offset" (by decide)]
  unfold gridProgram
  rw [h1, h1']
  simp only [same "is_lma" (by decide), hargs]

/-- C112 in full: each documented option can make a difference, and for a mesoscale sector the centre that is given is
the centre of the grid, in the coordinates of the fixed grid. -/
def C112_full : Prop :=
  (∀ name ∈ documentedNames, ∃ (σ ι : Type) (lib : Lmatools) (G : DateTime → DateTime → Gridder σ ι) (read : Text → GFile) (N : Numbers Rat)
    (item : Item) (before after : List Item) (files : List Text), item.name = name ∧ item.Understood N ∧
    (∀ i ∈ before ++ after, i.Understood N) ∧ (∀ f ∈ files, PlainValue f) ∧
    gridProgram lib G read N (tokensOf (before ++ [item]) ++ (files ++ tokensOf after)) ≠
      gridProgram lib G read N (tokensOf before ++ (files ++ tokensOf after))) ∧
  ∀ (lib : Lmatools) (a : Args) (view : View) (x y : Rat) (t : Target), a.fixedGrid = true → a.goesPosition ≠ "none" →
    a.goesSector = "meso" → lib.grid a.goesPosition "meso" (nearestResolution a.dx) = .ok view → view.center = none →
    a.ctrLon = some x → a.ctrLat = some y → targetGrid lib a = .ok t →
    (t.xBnd.1 + t.xBnd.2) / 2 = x ∧ (t.yBnd.1 + t.yBnd.2) / 2 = y

theorem C112_full_false : ¬ C112_full := by
  rintro ⟨h, -⟩
  obtain ⟨σ, ι, lib, G, read, N, item, before, after, files, h1, h2, h3, h4, h5⟩ := h "--corner_points" (by decide)
  apply h5
  have := C112_corner lib G read N before [] after files item h1 h2 (by simpa using h3) h4
  simpa using this

/-- C112: for a mesoscale sector the centre is given as longitude and latitude, also if the help says otherwise. -/
theorem C112_meso (lib : Lmatools) (a : Args) (view : View) (lon lat : Rat) (nx ny : Nat) (hf : a.fixedGrid = true)
    (hp : a.goesPosition ≠ "none") (hs : a.goesSector = "meso")
    (hv : lib.grid a.goesPosition "meso" (nearestResolution a.dx) = .ok view) (hc : view.center = none)
    (hres : 0 ≤ view.resolution) (hnx : view.pixelsEW = nx) (hny : view.pixelsNS = ny)
    (hlon : a.ctrLon = some lon) (hlat : a.ctrLat = some lat) :
    ∃ t, targetGrid lib a = .ok t ∧
      ((t.xBnd.1 + t.xBnd.2) / 2, (t.yBnd.1 + t.yBnd.2) / 2) = lib.toFixedGrid view.nadirLon lon lat := by
  obtain ⟨t, h1, -, -, -, h2, h3, -⟩ := C62_sector lib a view nx ny (lib.toFixedGrid view.nadirLon lon lat).1
    (lib.toFixedGrid view.nadirLon lon lat).2 hf hp (by rw [hs]; decide) (by rw [hs]; exact hv) hres hnx hny
    (Or.inr ⟨hc, hs, lon, lat, hlon, hlat, rfl⟩)
  refine ⟨t, h1, ?_⟩
  rw [h2, h3]
  ext <;> simp only <;> ring

/-! ## C112: examples -/

/-- Texts of a few numbers. -/
def lineNumbers : Numbers Rat where
  float t := match [("33", 33), ("-101.5", -203 / 2), ("3", 3), ("2e1", 20)].lookup (String.ofList t) with
    | some q => .ok q
    | none => .error .valueError
  int t := match [("2", 2), ("0", 0)].lookup (String.ofList t) with
    | some n => .ok n
    | none => .error .valueError

def sampleItems : List Item :=
  [.flag "--fixed_grid", .value "--goes_position" "east".toList, .value "--ctr_lat" "33".toList,
   .value "--ctr_lon" "-101.5".toList, .joined "--dx" "3".toList]

def moreItems : List Item := [.joined "--dx" "2e1".toList, .value "--nevents" "2".toList, .flag "--float_output"]

theorem sample_understood : ∀ i ∈ sampleItems ++ moreItems, i.Understood lineNumbers := by
  intro i hi
  simp only [sampleItems, moreItems, List.cons_append, List.nil_append, List.mem_cons, List.not_mem_nil, or_false] at hi
  rcases hi with rfl | rfl | rfl | rfl | rfl | rfl | rfl | rfl
  · exact (by decide : "--fixed_grid" ∈ flagNames)
  · exact ⟨Or.inl (by decide), Or.inl (by decide)⟩
  · exact ⟨Or.inr (Or.inl ⟨by decide, 33, by decide +kernel⟩), Or.inl (by decide)⟩
  · exact ⟨Or.inr (Or.inl ⟨by decide, -203 / 2, by decide +kernel⟩),
      Or.inr ⟨"101".toList, "5".toList, by decide, by decide, Or.inr ⟨by decide, by decide⟩⟩⟩
  · exact Or.inr (Or.inl ⟨by decide, 3, by decide +kernel⟩)
  · exact Or.inr (Or.inl ⟨by decide, 20, by decide +kernel⟩)
  · exact ⟨Or.inr (Or.inr ⟨by decide, 2, by decide +kernel⟩), Or.inl (by decide)⟩
  · exact (by decide : "--float_output" ∈ flagNames)

theorem sample_files : ∀ f ∈ samplePaths, PlainValue f := by
  intro f hf
  left
  revert f
  decide

/-- C112_parse applies; the last spacing counts. -/
example : ∃ ns, parseArgs gridOptions lineNumbers (tokensOf sampleItems ++ (samplePaths ++ tokensOf moreItems)) =
    .ok (ns, samplePaths) ∧ (namespaceArgs ns samplePaths).dx = 20 ∧ (namespaceArgs ns samplePaths).dy = 10 ∧
    (namespaceArgs ns samplePaths).ctrLon = some (-203 / 2) ∧ (namespaceArgs ns samplePaths).scaleAndOffset = false := by
  obtain ⟨ns, h1, h2, -⟩ := C112_parse lineNumbers sampleItems moreItems samplePaths sample_understood sample_files
  refine ⟨ns, h1, ?_, ?_, ?_, ?_⟩
  · have h := h2.dx
    have e : lastOf ["--dx"] (sampleItems ++ moreItems) = some "2e1".toList := by decide
    have e' : lineNumbers.float "2e1".toList = .ok 20 := by decide +kernel
    rw [e] at h
    exact Except.ok.inj ((show lineNumbers.float _ = _ from h).symm.trans e')
  · have h := h2.dy
    have e : lastOf ["--dy"] (sampleItems ++ moreItems) = none := by decide
    rw [e] at h
    exact h
  · have h := h2.ctrLon
    have e : lastOf ["--ctr_lon"] (sampleItems ++ moreItems) = some "-101.5".toList := by decide
    have e' : lineNumbers.float "-101.5".toList = .ok (-203 / 2) := by decide +kernel
    rw [e] at h
    obtain ⟨q, hq, hc⟩ := h
    rw [hc, Except.ok.inj (hq.symm.trans e')]
  · rw [h2.scaleAndOffset]
    decide

/-- C112_refused, C112_files_apart, C112_unknown and C112_abbreviated apply. -/
example : parseArgs gridOptions lineNumbers (tokensOf sampleItems ++ (Item.joined "--dy" "wide".toList).tokens ++ []) =
    .error .usage :=
  ((C112_refused lineNumbers sampleItems fun i h => sample_understood i (by simp [h])).1 "--dy" (by decide) _ .valueError
    (by decide +kernel) _).1

example : ∃ e, parseArgs gridOptions lineNumbers
    (tokensOf sampleItems ++ (samplePaths ++ (tokensOf moreItems ++ "more.nc".toList :: []))) = .error e :=
  C112_files_apart lineNumbers sampleItems moreItems samplePaths "more.nc".toList [] sample_understood sample_files
    (Or.inl (by decide)) (by decide) (by simp [moreItems])

example : ∃ e, parseArgs gridOptions lineNumbers (tokensOf sampleItems ++ "--verbose=3".toList :: samplePaths) =
    .error e :=
  C112_unknown lineNumbers sampleItems _ samplePaths (fun i h => sample_understood i (by simp [h]))
    ⟨"verbose".toList, by decide, Or.inr ⟨"3".toList, by decide⟩, by decide, by decide⟩

example (pre rest : List Text) : parseArgs gridOptions lineNumbers (pre ++ "--wid".toList :: rest) =
    parseArgs gridOptions lineNumbers (pre ++ "--width".toList :: rest) :=
  C112_abbreviated lineNumbers "--width" _ pre rest (by decide) (by decide) (by decide) (by decide)

example : parseArgs gridOptions lineNumbers (tokensOf sampleItems ++ "--goes".toList :: samplePaths) = .error .usage :=
  C112_ambiguous lineNumbers sampleItems samplePaths _ "--goes_position" "--goes_sector"
    (fun i h => sample_understood i (by simp [h])) (by decide) (by decide) (by decide) (by decide) (by decide)
    (by decide) (by decide)

/-- C112_meso applies, and the grid is not centred at the numbers that are given. -/
example : ∃ t, targetGrid toyLib { toyArgs with goesSector := "meso" } = .ok t ∧
    (t.xBnd.1 + t.xBnd.2) / 2 = -101 / 1000 := by
  obtain ⟨t, h1, h2⟩ := C112_meso toyLib { toyArgs with goesSector := "meso" } ⟨-75, 56/1000000, 1000, 600, none⟩
    (-101) 33 1000 600 rfl (by decide) rfl (by decide +kernel) rfl (by norm_num) rfl rfl rfl rfl
  exact ⟨t, h1, congrArg Prod.fst h2⟩

end Verif.Props
