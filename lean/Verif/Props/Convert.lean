import Verif.Model.Convert
import Verif.Props.Lcfa
import Verif.Props.Traversal

/-!
# C123: converted files
-/

namespace Verif.Props

open Verif.Py Verif.Model Verif.Spec Verif.Proofs

variable {F : Type}

/-! ## Specification -/

/-- A text is the number `n`. -/
def isInt (N : Numbers F) (w : Text) (n : Int) : Bool :=
  match N.int w with
  | .ok m => m = n
  | .error _ => false

/-- Two texts are the same number. -/
def sameInt (N : Numbers F) (w w' : Text) : Bool :=
  match N.int w with
  | .ok m => isInt N w' m
  | .error _ => false

/-- All numbers of a record that have a column can be read. -/
def Readable {R : Type} (N : Numbers F) (columns : List (String × Bool × (R → Text))) (r : R) : Prop :=
  ∀ col ∈ columns, ∃ c, Reads N col.2.1 (col.2.2 r) c

/-- A dataset has the documented variables along a dimension, with one value for each record, in order. -/
def HasColumns {R : Type} (N : Numbers F) (columns : List (String × Bool × (R → Text))) (dim : String)
    (records : List R) (d : List (LcfaVar F)) : Prop :=
  ∀ col ∈ columns, ∃ v ∈ d, v.name = col.1 ∧ v.dim = dim ∧
    List.Forall₂ (fun r c => Reads N col.2.1 (col.2.2 r) c) records v.values

/-- A row of the dataset is the one of a record: its id, and all its numbers under their names. -/
def RowOf {R : Type} (N : Numbers F) (columns : List (String × Bool × (R → Text))) (id : R → Text) (r : R)
    (row : Row (List (String × Cell F))) : Prop :=
  N.int (id r) = .ok row.id ∧
    ∀ col ∈ columns, ∃ c, dictGet row.val col.1 = some c ∧ Reads N col.2.1 (col.2.2 r) c

/-! ## The file -/

theorem mapFrames {R : Type} {N : Numbers F} {columns : List (String × Bool × (R → Text))} {rs : List R}
    {frame : DataFrame F} (h : FrameOf N columns rs frame) : frame.map Prod.fst = columns.map Prod.fst := by
  induction h with
  | nil => rfl
  | cons h _ ih => simp [h.1, ih]

theorem toXarray_names (frame : DataFrame F) (dim : String) :
    (toXarray frame dim).map LcfaVar.name = dim :: frame.map Prod.fst := by
  simp [toXarray, Function.comp_def]

/-- What is written. -/
def convertedData (flashes groups events : DataFrame F) : List (LcfaVar F) :=
  (toXarray events "number_of_events" ++ toXarray groups "number_of_groups" ++
    toXarray flashes "number_of_flashes").map fun v => { v with coord := v.coord || ncCoords.contains v.name }

theorem mergeFrames_ok {N : Numbers F} {fl : List FlashText} {gr : List GroupText} {ev : List EventText}
    {flashes groups events : DataFrame F} (hf : FrameOf N flashColumns fl flashes)
    (hg : FrameOf N groupColumns gr groups) (he : FrameOf N eventColumns ev events) :
    mergeFrames true flashes groups events = .ok (convertedData flashes groups events) := by
  have e1 : mergeData (toXarray events "number_of_events") (toXarray groups "number_of_groups") =
      .ok (toXarray events "number_of_events" ++ toXarray groups "number_of_groups") := by
    unfold mergeData
    rw [toXarray_names, toXarray_names, mapFrames he, mapFrames hg]
    rw [if_neg (by decide)]
  have e2 : mergeData (toXarray events "number_of_events" ++ toXarray groups "number_of_groups")
      (toXarray flashes "number_of_flashes") =
      .ok (toXarray events "number_of_events" ++ toXarray groups "number_of_groups" ++
        toXarray flashes "number_of_flashes") := by
    unfold mergeData
    rw [List.map_append, toXarray_names, toXarray_names, toXarray_names, mapFrames he, mapFrames hg, mapFrames hf]
    rw [if_neg (by decide)]
  unfold mergeFrames
  simp only [e1, e2, bind, Except.bind, if_true]
  unfold setCoords
  rw [List.map_append, List.map_append, toXarray_names, toXarray_names, toXarray_names, mapFrames he, mapFrames hg,
    mapFrames hf, if_pos (by decide)]
  rfl

theorem convertMain_ok (N : Numbers F) (lines : List (Line × Bool)) (last : Option Line)
    (hl : ∀ l ∈ lines, l.1.WellFormed) (hlast : ∀ l ∈ last, l.WellFormed)
    (hf : ∀ f ∈ (lines.map Prod.fst ++ last.toList).filterMap Line.flash?, Readable N flashColumns f)
    (hg : ∀ g ∈ (lines.map Prod.fst ++ last.toList).filterMap Line.group?, Readable N groupColumns g)
    (he : ∀ e ∈ (lines.map Prod.fst ++ last.toList).filterMap Line.event?, Readable N eventColumns e) :
    ∃ flashes groups events,
      FrameOf N flashColumns ((lines.map Prod.fst ++ last.toList).filterMap Line.flash?) flashes ∧
      FrameOf N groupColumns ((lines.map Prod.fst ++ last.toList).filterMap Line.group?) groups ∧
      FrameOf N eventColumns ((lines.map Prod.fst ++ last.toList).filterMap Line.event?) events ∧
      convertMain N true (some (document lines last)) = .ok (convertedData flashes groups events) := by
  obtain ⟨flashes, groups, events, h⟩ := C60_success N lines last hl hlast hf hg he
  obtain ⟨h1, h2, h3⟩ := C60_frames N lines last hl hlast flashes groups events h
  refine ⟨flashes, groups, events, h1, h2, h3, ?_⟩
  simp only [convertMain, h, bind, Except.bind]
  exact mergeFrames_ok h1 h2 h3

theorem frame_has {R : Type} {N : Numbers F} {columns : List (String × Bool × (R → Text))} {rs : List R}
    {frame : DataFrame F} (h : FrameOf N columns rs frame) (dim : String) {d : List (LcfaVar F)}
    (hd : ∀ v ∈ toXarray frame dim, ∃ b, { v with coord := b } ∈ d) : HasColumns N columns dim rs d := by
  have hmem : ∀ c ∈ frame, ∃ v ∈ d, v.name = c.1 ∧ v.dim = dim ∧ v.values = c.2 := by
    intro c hc
    obtain ⟨b, hb⟩ := hd ⟨c.1, dim, false, c.2⟩ (by simp only [toXarray, List.mem_cons, List.mem_map]; exact Or.inr ⟨c, hc, rfl⟩)
    exact ⟨_, hb, rfl, rfl, rfl⟩
  clear hd
  unfold FrameOf at h
  intro col hcol
  induction h with
  | nil => cases hcol
  | @cons c o cs os hco _ ih =>
    rcases List.mem_cons.mp hcol with rfl | hcol
    · obtain ⟨v, hv, h1, h2, h3⟩ := hmem o (by simp)
      exact ⟨v, hv, by rw [h1, hco.1], h2, by rw [h3]; exact hco.2⟩
    · exact ih (fun c hc => hmem c (by simp [hc])) hcol

/-- C123, the file: every well formed text whose numbers can be read is converted, and the file has the documented
variables, each along the dimension of its level with one value for each line of that kind, in order; besides them it
has only the indices of the dimensions; and its coordinates are the indices, ids, ids of parents, times and places. -/
theorem C123_file (N : Numbers F) (lines : List (Line × Bool)) (last : Option Line)
    (hl : ∀ l ∈ lines, l.1.WellFormed) (hlast : ∀ l ∈ last, l.WellFormed)
    (hf : ∀ f ∈ (lines.map Prod.fst ++ last.toList).filterMap Line.flash?, Readable N flashColumns f)
    (hg : ∀ g ∈ (lines.map Prod.fst ++ last.toList).filterMap Line.group?, Readable N groupColumns g)
    (he : ∀ e ∈ (lines.map Prod.fst ++ last.toList).filterMap Line.event?, Readable N eventColumns e) :
    ∃ d, convertMain N true (some (document lines last)) = .ok d ∧
      HasColumns N flashColumns "number_of_flashes" ((lines.map Prod.fst ++ last.toList).filterMap Line.flash?) d ∧
      HasColumns N groupColumns "number_of_groups" ((lines.map Prod.fst ++ last.toList).filterMap Line.group?) d ∧
      HasColumns N eventColumns "number_of_events" ((lines.map Prod.fst ++ last.toList).filterMap Line.event?) d ∧
      (d.map LcfaVar.name).Perm (["number_of_flashes", "number_of_groups", "number_of_events"] ++
        flashColumns.map Prod.fst ++ groupColumns.map Prod.fst ++ eventColumns.map Prod.fst) ∧
      ∀ v ∈ d, v.coord = !["flash_energy", "flash_area", "flash_child_group_count", "group_energy", "group_area",
        "group_child_event_count", "x_pixel", "y_pixel", "event_energy"].contains v.name := by
  obtain ⟨flashes, groups, events, h1, h2, h3, h⟩ := convertMain_ok N lines last hl hlast hf hg he
  refine ⟨_, h, frame_has h1 _ ?_, frame_has h2 _ ?_, frame_has h3 _ ?_, ?_, ?_⟩
  · intro v hv
    exact ⟨_, List.mem_map.mpr ⟨v, by simp [hv], rfl⟩⟩
  · intro v hv
    exact ⟨_, List.mem_map.mpr ⟨v, by simp [hv], rfl⟩⟩
  · intro v hv
    exact ⟨_, List.mem_map.mpr ⟨v, by simp [hv], rfl⟩⟩
  · have : (convertedData flashes groups events).map LcfaVar.name =
        (toXarray events "number_of_events").map LcfaVar.name ++ (toXarray groups "number_of_groups").map LcfaVar.name ++
          (toXarray flashes "number_of_flashes").map LcfaVar.name := by
      simp [convertedData, Function.comp_def]
    rw [this, toXarray_names, toXarray_names, toXarray_names, mapFrames h1, mapFrames h2, mapFrames h3]
    decide
  · have key : ∀ {R : Type} {columns : List (String × Bool × (R → Text))} {rs : List R} {frame : DataFrame F}
        (dim : String), FrameOf N columns rs frame → ∀ v ∈ toXarray frame dim,
        v.name = dim ∧ v.coord = true ∨ v.name ∈ columns.map Prod.fst ∧ v.coord = false := by
      intro R columns rs frame dim hfr v hv
      simp only [toXarray, List.mem_cons, List.mem_map] at hv
      rcases hv with rfl | ⟨c, hc, rfl⟩
      · exact Or.inl ⟨rfl, rfl⟩
      · exact Or.inr ⟨by rw [← mapFrames hfr]; exact List.mem_map_of_mem hc, rfl⟩
    intro v hv
    obtain ⟨w, hw, rfl⟩ := List.mem_map.mp hv
    have all : ∀ n ∈ flashColumns.map Prod.fst ++ groupColumns.map Prod.fst ++ eventColumns.map Prod.fst,
        ncCoords.contains n = !["flash_energy", "flash_area", "flash_child_group_count", "group_energy", "group_area",
          "group_child_event_count", "x_pixel", "y_pixel", "event_energy"].contains n := by decide
    simp only [List.mem_append] at hw
    have : (w.name = "number_of_events" ∨ w.name = "number_of_groups" ∨ w.name = "number_of_flashes") ∧
        w.coord = true ∨ w.name ∈ flashColumns.map Prod.fst ++ groupColumns.map Prod.fst ++
          eventColumns.map Prod.fst ∧ w.coord = false := by
      rcases hw with (hw | hw) | hw
      · rcases key _ h3 _ hw with ⟨a, b⟩ | ⟨a, b⟩
        · exact Or.inl ⟨Or.inl a, b⟩
        · exact Or.inr ⟨by simp only [List.mem_append]; exact Or.inr a, b⟩
      · rcases key _ h2 _ hw with ⟨a, b⟩ | ⟨a, b⟩
        · exact Or.inl ⟨Or.inr (Or.inl a), b⟩
        · exact Or.inr ⟨by simp only [List.mem_append]; exact Or.inl (Or.inr a), b⟩
      · rcases key _ h1 _ hw with ⟨a, b⟩ | ⟨a, b⟩
        · exact Or.inl ⟨Or.inr (Or.inr a), b⟩
        · exact Or.inr ⟨by simp only [List.mem_append]; exact Or.inl (Or.inl a), b⟩
    rcases this with ⟨a, b⟩ | ⟨a, b⟩
    · simp only [b, Bool.true_or]
      rcases a with a | a | a <;> rw [a] <;> decide
    · simp only [b, Bool.false_or]
      exact all _ a

/-- With an xarray that no longer has the argument `inplace`, nothing can be converted. -/
theorem C123_newer (N : Numbers F) (text : Text) (d : List (LcfaVar F)) :
    convertMain N false (some text) ≠ .ok d := by
  intro h
  simp only [convertMain] at h
  obtain ⟨r, -, h⟩ := bind_ok h
  simp only [mergeFrames] at h
  obtain ⟨_, -, h⟩ := bind_ok h
  obtain ⟨_, -, h⟩ := bind_ok h
  simp at h

/-! ## The tree -/

theorem forall₂_getD {α β : Type} {P : α → β → Prop} {l : List α} {l' : List β} (h : List.Forall₂ P l l')
    (b : β) (i : Nat) (hi : i < l.length) : P l[i] (l'.getD i b) := by
  have := List.forall₂_iff_get.mp h
  have hi' : i < l'.length := this.1 ▸ hi
  rw [List.getD_eq_getElem?_getD, List.getElem?_eq_getElem hi', Option.getD_some]
  exact this.2 i hi hi'

/-- The rows of one level. -/
theorem ncRows_level {R : Type} {N : Numbers F} {columns : List (String × Bool × (R → Text))} {rs : List R}
    {frame : DataFrame F} (h : FrameOf N columns rs frame) (id pid : R → Text) {dim evar : String} {pvar : Option String}
    {d : List (LcfaVar F)} {e p : LcfaVar F} (he : ncGet d evar = .ok e)
    (hp : (match pvar with | some p => ncGet d p | none => pure e) = .ok p) (hdim : e.dim = dim)
    (hall : d.filter (fun v => v.dim = dim) =
      (toXarray frame dim).map fun v => { v with coord := v.coord || ncCoords.contains v.name })
    (hnd : dim ∉ columns.map Prod.fst) (hnames : (columns.map Prod.fst).Nodup)
    (hev : List.Forall₂ (fun r c => Reads N true (id r) c) rs e.values)
    (hpv : List.Forall₂ (fun r c => Reads N true (pid r) c) rs p.values) :
    ∃ rows, ncRows d evar pvar = .ok rows ∧
      List.Forall₂ (fun r row => RowOf N columns id r row ∧ N.int (pid r) = .ok row.pid) rs rows := by
  subst hdim
  have hrows : ncRows d evar pvar = .ok ((List.range e.values.length).map fun i =>
      ⟨(e.values.getD i (.int 0)).id, (p.values.getD i (.int 0)).id,
        (d.filter fun v => v.dim = e.dim).map fun v => (v.name, v.values.getD i (.int 0))⟩) := by
    unfold ncRows
    rw [he]
    cases pvar with
    | none =>
      cases hp
      rfl
    | some q =>
      simp only [bind, Except.bind]
      simp only at hp
      rw [hp]
      rfl
  refine ⟨_, hrows, ?_⟩
  rw [List.forall₂_iff_get]
  have hlen := hev.length_eq
  refine ⟨by simp [hlen], ?_⟩
  intro i h1 h2
  simp only [List.get_eq_getElem, List.getElem_map, List.getElem_range]
  have hid : ∀ {w : Text} {c : Cell F}, Reads N true w c → N.int w = .ok c.id := by
    rintro w c ⟨n, hn, rfl⟩
    exact hn
  refine ⟨⟨hid (forall₂_getD hev _ i h1), ?_⟩, hid (forall₂_getD hpv _ i h1)⟩
  rw [hall]
  simp only [toXarray, List.map_cons, List.map_map, Function.comp_def]
  intro col hcol
  have hne : e.dim ≠ col.1 := fun hc => hnd (hc ▸ List.mem_map_of_mem hcol)
  simp only [dictGet, if_neg hne]
  clear hall hnd
  unfold FrameOf at h
  induction h with
  | nil => cases hcol
  | @cons c o cs os hco _ ih =>
    simp only [List.map_cons, dictGet]
    rw [List.map_cons, List.nodup_cons] at hnames
    rcases List.mem_cons.mp hcol with rfl | hcol
    · rw [if_pos hco.1]
      exact ⟨_, rfl, forall₂_getD hco.2 _ i h1⟩
    · rw [if_neg]
      · exact ih hnames.2 hcol
      · rw [hco.1]
        intro hc
        exact hnames.1 (hc ▸ List.mem_map_of_mem hcol)

theorem toXarray_dims (frame : DataFrame F) (a b : String) :
    ((toXarray frame a).map fun v => { v with coord := v.coord || ncCoords.contains v.name }).filter
      (fun v => v.dim = b) = if a = b then
        (toXarray frame a).map fun v => { v with coord := v.coord || ncCoords.contains v.name } else [] := by
  split
  · rename_i h
    rw [List.filter_eq_self]
    intro v hv
    simp only [toXarray, List.map_cons, List.map_map, List.mem_cons, List.mem_map, Function.comp_def] at hv
    rcases hv with rfl | ⟨c, -, rfl⟩ <;> simp [h]
  · rename_i h
    rw [List.filter_eq_nil_iff]
    intro v hv
    simp only [toXarray, List.map_cons, List.map_map, List.mem_cons, List.mem_map, Function.comp_def] at hv
    rcases hv with rfl | ⟨c, -, rfl⟩ <;> simp [h]

/-- The variable of a column. -/
theorem ncGet_column {R : Type} {N : Numbers F} {columns : List (String × Bool × (R → Text))} {rs : List R}
    {frame : DataFrame F} (h : FrameOf N columns rs frame) (dim : String) {before after : List (LcfaVar F)}
    {d : List (LcfaVar F)} (hd : d = before ++ (toXarray frame dim).map (fun v =>
      { v with coord := v.coord || ncCoords.contains v.name }) ++ after)
    {col : String × Bool × (R → Text)} (hcol : col ∈ columns) (hnd : dim ∉ columns.map Prod.fst)
    (hnames : (columns.map Prod.fst).Nodup) (hb : col.1 ∉ before.map LcfaVar.name) :
    ∃ v, ncGet d col.1 = .ok v ∧ v.dim = dim ∧
      List.Forall₂ (fun r c => Reads N col.2.1 (col.2.2 r) c) rs v.values := by
  have h1 : before.find? (fun v => v.name = col.1) = none := by
    rw [List.find?_eq_none]
    intro v hv
    simp only [decide_eq_true_eq]
    intro hc
    exact hb (hc ▸ List.mem_map_of_mem hv)
  have h2 : ∃ v, ((toXarray frame dim).map (fun v =>
      { v with coord := v.coord || ncCoords.contains v.name })).find? (fun v => v.name = col.1) = some v ∧ v.dim = dim ∧
      List.Forall₂ (fun r c => Reads N col.2.1 (col.2.2 r) c) rs v.values := by
    have hne : dim ≠ col.1 := fun hc => hnd (hc ▸ List.mem_map_of_mem hcol)
    simp only [toXarray, List.map_cons, List.map_map, Function.comp_def, List.find?_cons]
    simp only [hne, decide_false]
    clear hnd hd h1 hb
    unfold FrameOf at h
    induction h with
    | nil => cases hcol
    | @cons c o cs os hco _ ih =>
      rw [List.map_cons, List.nodup_cons] at hnames
      simp only [List.map_cons, List.find?_cons]
      rcases List.mem_cons.mp hcol with rfl | hcol
      · simp only [hco.1, decide_true]
        exact ⟨_, rfl, rfl, hco.2⟩
      · have : o.1 ≠ col.1 := by
          rw [hco.1]
          intro hc
          exact hnames.1 (hc ▸ List.mem_map_of_mem hcol)
        simp only [this, decide_false]
        exact ih hcol hnames.2
  obtain ⟨v, hv, h3, h4⟩ := h2
  refine ⟨v, ?_, h3, h4⟩
  unfold ncGet
  rw [hd, List.find?_append, List.find?_append, h1, hv]
  rfl

theorem marked_names (frame : DataFrame F) (dim : String) :
    ((toXarray frame dim).map (fun v => { v with coord := v.coord || ncCoords.contains v.name })).map LcfaVar.name =
      dim :: frame.map Prod.fst := by
  rw [List.map_map, ← toXarray_names]
  rfl

/-- The levels of the converted file. -/
theorem ncTraversal_ok {N : Numbers F} {fl : List FlashText} {gr : List GroupText} {ev : List EventText}
    {flashes groups events : DataFrame F} (hf : FrameOf N flashColumns fl flashes)
    (hg : FrameOf N groupColumns gr groups) (he : FrameOf N eventColumns ev events) :
    ∃ fr gs es, ncTraversal (convertedData flashes groups events) =
        .ok [⟨"flash_id", none, fr⟩, ⟨"group_id", some "group_parent_flash_id", gs⟩,
          ⟨"event_id", some "event_parent_group_id", es⟩] ∧
      List.Forall₂ (RowOf N flashColumns FlashText.id) fl fr ∧
      List.Forall₂ (fun r row => RowOf N groupColumns GroupText.id r row ∧ N.int r.parentId = .ok row.pid) gr gs ∧
      List.Forall₂ (fun r row => RowOf N eventColumns EventText.id r row ∧ N.int r.parentId = .ok row.pid) ev es := by
  have hd : convertedData flashes groups events =
      (toXarray events "number_of_events").map (fun v => { v with coord := v.coord || ncCoords.contains v.name }) ++
      (toXarray groups "number_of_groups").map (fun v => { v with coord := v.coord || ncCoords.contains v.name }) ++
      (toXarray flashes "number_of_flashes").map (fun v => { v with coord := v.coord || ncCoords.contains v.name }) := by
    simp [convertedData]
  have dims : ∀ b, (convertedData flashes groups events).filter (fun v => v.dim = b) =
      (if "number_of_events" = b then (toXarray events "number_of_events").map (fun v =>
        { v with coord := v.coord || ncCoords.contains v.name }) else []) ++
      (if "number_of_groups" = b then (toXarray groups "number_of_groups").map (fun v =>
        { v with coord := v.coord || ncCoords.contains v.name }) else []) ++
      (if "number_of_flashes" = b then (toXarray flashes "number_of_flashes").map (fun v =>
        { v with coord := v.coord || ncCoords.contains v.name }) else []) := by
    intro b
    rw [hd, List.filter_append, List.filter_append, toXarray_dims, toXarray_dims, toXarray_dims]
  have flNames : (flashColumns.map Prod.fst).Nodup := by decide
  have grNames : (groupColumns.map Prod.fst).Nodup := by decide
  have evNames : (eventColumns.map Prod.fst).Nodup := by decide
  obtain ⟨fi, f1, f2, f3⟩ := ncGet_column hf "number_of_flashes" (after := []) (d := convertedData flashes groups events)
    (by rw [hd, List.append_nil]) (col := ("flash_id", true, FlashText.id)) (by simp [flashColumns]) (by decide) flNames
    (by rw [List.map_append, marked_names, marked_names, mapFrames hg, mapFrames he]; decide)
  have grp : ∀ col ∈ groupColumns, ∃ v, ncGet (convertedData flashes groups events) col.1 = .ok v ∧
      v.dim = "number_of_groups" ∧ List.Forall₂ (fun r c => Reads N col.2.1 (col.2.2 r) c) gr v.values := by
    intro col hcol
    refine ncGet_column hg "number_of_groups" hd hcol (by decide) grNames ?_
    rw [marked_names, mapFrames he]
    have : ∀ n ∈ groupColumns.map Prod.fst, n ∉ "number_of_events" :: eventColumns.map Prod.fst := by decide
    exact this _ (List.mem_map_of_mem hcol)
  have evt : ∀ col ∈ eventColumns, ∃ v, ncGet (convertedData flashes groups events) col.1 = .ok v ∧
      v.dim = "number_of_events" ∧ List.Forall₂ (fun r c => Reads N col.2.1 (col.2.2 r) c) ev v.values := by
    intro col hcol
    exact ncGet_column he "number_of_events" (before := []) (by rw [hd, List.nil_append, List.append_assoc]) hcol
      (by decide) evNames (by simp)
  obtain ⟨gi, g1, g2, g3⟩ := grp ("group_id", true, GroupText.id) (by simp [groupColumns])
  obtain ⟨gp, g4, -, g6⟩ := grp ("group_parent_flash_id", true, GroupText.parentId) (by simp [groupColumns])
  obtain ⟨ei, e1, e2, e3⟩ := evt ("event_id", true, EventText.id) (by simp [eventColumns])
  obtain ⟨ep, e4, -, e6⟩ := evt ("event_parent_group_id", true, EventText.parentId) (by simp [eventColumns])
  obtain ⟨fr, r1, r2⟩ := ncRows_level hf FlashText.id FlashText.id (pvar := none) f1 rfl f2
    (by rw [dims]; simp) (by decide) flNames f3 f3
  obtain ⟨gs, s1, s2⟩ := ncRows_level hg GroupText.id GroupText.parentId (pvar := some "group_parent_flash_id") g1 g4 g2
    (by rw [dims]; simp) (by decide) grNames g3 g6
  obtain ⟨es, t1, t2⟩ := ncRows_level he EventText.id EventText.parentId (pvar := some "event_parent_group_id") e1 e4 e2
    (by rw [dims]; simp) (by decide) evNames e3 e6
  refine ⟨fr, gs, es, ?_, r2.imp fun _ _ h => h.1, s2, t2⟩
  unfold ncTraversal
  rw [r1, s1, t1]
  simp [bind, Except.bind, mkTraversal]

theorem isInt_ok {N : Numbers F} {w : Text} {m n : Int} (h : N.int w = .ok m) : isInt N w n = decide (m = n) := by
  simp [isInt, h]

theorem forall₂_filterBoth {α β : Type} {P : α → β → Prop} {p : α → Bool} {q : β → Bool} {l : List α} {l' : List β}
    (h : List.Forall₂ P l l') (hpq : ∀ a b, P a b → p a = q b) : List.Forall₂ P (l.filter p) (l'.filter q) := by
  induction h with
  | nil => exact .nil
  | @cons a b as bs hab _ ih =>
    rw [List.filter_cons, List.filter_cons, hpq a b hab]
    split
    · exact .cons hab ih
    · exact ih

/-- C123, the tree: the file can be traversed, and a flash that is asked for comes with exactly the lines of the text
that say so: the flashes with that id, the groups with that id as parent, and for each of these, in order, the events
with its id as parent.  (All three kinds of lines occur.) -/
theorem C123_tree (N : Numbers F) (lines : List (Line × Bool)) (last : Option Line)
    (hl : ∀ l ∈ lines, l.1.WellFormed) (hlast : ∀ l ∈ last, l.WellFormed)
    (hf : ∀ f ∈ (lines.map Prod.fst ++ last.toList).filterMap Line.flash?, Readable N flashColumns f)
    (hg : ∀ g ∈ (lines.map Prod.fst ++ last.toList).filterMap Line.group?, Readable N groupColumns g)
    (he : ∀ e ∈ (lines.map Prod.fst ++ last.toList).filterMap Line.event?, Readable N eventColumns e)
    (nf : (lines.map Prod.fst ++ last.toList).filterMap Line.flash? ≠ [])
    (ng : (lines.map Prod.fst ++ last.toList).filterMap Line.group? ≠ [])
    (ne : (lines.map Prod.fst ++ last.toList).filterMap Line.event? ≠ []) (n : Int) :
    ∃ d t fr gs es, convertMain N true (some (document lines last)) = .ok d ∧ ncTraversal d = .ok t ∧
      (reduceToEntities t "flash_id" [n]).map (List.map Level.rows) = .ok [fr, gs, es] ∧
      List.Forall₂ (RowOf N flashColumns FlashText.id)
        (((lines.map Prod.fst ++ last.toList).filterMap Line.flash?).filter fun f => isInt N f.id n) fr ∧
      List.Forall₂ (RowOf N groupColumns GroupText.id)
        (((lines.map Prod.fst ++ last.toList).filterMap Line.group?).filter fun g => isInt N g.parentId n) gs ∧
      List.Forall₂ (RowOf N eventColumns EventText.id)
        ((((lines.map Prod.fst ++ last.toList).filterMap Line.group?).filter fun g => isInt N g.parentId n).flatMap
          fun g => ((lines.map Prod.fst ++ last.toList).filterMap Line.event?).filter fun e =>
            sameInt N g.id e.parentId) es := by
  obtain ⟨flashes, groups, events, h1, h2, h3, h⟩ := convertMain_ok N lines last hl hlast hf hg he
  obtain ⟨fr, gs, es, h4, h5, h6, h7⟩ := ncTraversal_ok h1 h2 h3
  generalize (lines.map Prod.fst ++ last.toList).filterMap Line.flash? = fl at *
  generalize (lines.map Prod.fst ++ last.toList).filterMap Line.group? = gr at *
  generalize (lines.map Prod.fst ++ last.toList).filterMap Line.event? = ev at *
  have nonempty : ∀ {α β : Type} {P : α → β → Prop} {l : List α} {l' : List β}, List.Forall₂ P l l' → l ≠ [] → l' ≠ [] := by
    rintro α β P l l' hP hn rfl
    cases hP
    exact hn rfl
  have hred := reduce_closed (t := [⟨"flash_id", none, fr⟩, ⟨"group_id", some "group_parent_flash_id", gs⟩,
      ⟨"event_id", some "event_parent_group_id", es⟩]) (above := []) (L := ⟨"flash_id", none, fr⟩)
      (below := [⟨"group_id", some "group_parent_flash_id", gs⟩, ⟨"event_id", some "event_parent_group_id", es⟩]) [n]
    ⟨by simp, by simp, by simp, by simp⟩ rfl (by
      intro l hl
      simp only [List.mem_cons, List.not_mem_nil, or_false] at hl
      rcases hl with rfl | rfl | rfl
      · exact nonempty h5 nf
      · exact nonempty h6 ng
      · exact nonempty h7 ne)
  have hgs := forall₂_filterBoth h6 (p := fun g => isInt N g.parentId n) (q := fun r => r.pid = n)
    fun g row hr => isInt_ok hr.2
  refine ⟨_, _, fr.filter (fun r => r.id = n), gs.filter (fun r => r.pid = n),
    (gs.filter (fun r => r.pid = n)).flatMap fun g => es.filter fun e => e.pid = g.id, h, h4, ?_, ?_, ?_, ?_⟩
  · rw [hred]
    simp [Except.map, reduced, entityLevel, belowLevels, aboveLevels, rowsInOrder, childrenInOrder, List.flatMap_map]
  · exact forall₂_filterBoth h5 fun f row hr => isInt_ok hr.1
  · exact hgs.imp fun _ _ hr => hr.1
  · refine List.rel_flatMap hgs ?_
    intro g row hr
    refine (forall₂_filterBoth h7 ?_).imp fun _ _ hr => hr.1
    intro e row' hr'
    simp [sameInt, hr.1.1, isInt_ok hr'.2]

/-- Two flashes, each with a group; the events are in the order of their groups. -/
def treeLines : List (Line × Bool) :=
  [(.other "Header".toList, false), (.flash (sampleFlash "7".toList), false),
   (.group (sampleGroup "8".toList "7".toList), true), (.event (sampleEvent "9".toList "8".toList), false),
   (.event (sampleEvent "10".toList "8".toList), false), (.flash (sampleFlash "70".toList), true),
   (.group (sampleGroup "80".toList "70".toList), false)]

/-- The hypotheses of C123 are met, and the flashes come with their events. -/
example : (∀ l ∈ treeLines, l.1.WellFormed) ∧
    (Line.event (sampleEvent "90".toList "80".toList)).WellFormed ∧
    ((convertMain toyNumbers true (some (document treeLines (some (.event (sampleEvent "90".toList "80".toList)))))).bind
      fun d => (ncTraversal d).bind fun t => [7, 70].mapM fun n => (reduceToEntities t "flash_id" [n]).map
        (List.map fun l => l.rows.map Row.id)).toOption = some [[[7], [8], [9, 10]], [[70], [80], [90]]] := by
  decide +kernel

instance {R : Type} (N : Numbers F) (columns : List (String × Bool × (R → Text))) (r : R) :
    Decidable (Readable N columns r) :=
  decidable_of_iff (∀ col ∈ columns, (readCell N col.2.1 (col.2.2 r)).toOption.isSome = true) (by
    unfold Readable
    refine forall₂_congr fun col _ => ?_
    constructor
    · intro h
      cases hc : readCell N col.2.1 (col.2.2 r) with
      | error e => rw [hc] at h; cases h
      | ok c => exact ⟨c, (readCell_ok _ _ _ _).mp hc⟩
    · rintro ⟨c, hc⟩
      rw [(readCell_ok _ _ _ _).mpr hc]
      rfl)

example : Readable toyNumbers flashColumns (sampleFlash "7".toList) ∧
    Readable toyNumbers groupColumns (sampleGroup "8".toList "7".toList) ∧
    Readable toyNumbers eventColumns (sampleEvent "9".toList "8".toList) := by
  decide +kernel

end Verif.Props
