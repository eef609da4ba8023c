import Verif.Props.FrameCentroids

/-!
# C160 and C161 for files

C160 and C161 are about datasets that have been opened.  Here they are stated for files as they are recorded: places are
longitudes and latitudes, and numbers of groups and events are not given.
-/

namespace Verif.Props

open Verif.Py Verif.Model Verif.Spec Verif.Proofs

/-! ## Specification -/

/-- The centroid is in the pixel with its centre at `X`, `Y`: its west and south edge included, the others not. -/
def RecordedIn (nav : Rat → Rat → Rat × Rat) (dx dy X Y : Rat) (r : Row GVal) : Prop :=
  X - dx / 2 ≤ (navPlace nav r).1 ∧ (navPlace nav r).1 < X + dx / 2 ∧
    Y - dy / 2 ≤ (navPlace nav r).2 ∧ (navPlace nav r).2 < Y + dy / 2

instance (nav : Rat → Rat → Rat × Rat) (dx dy X Y : Rat) (r : Row GVal) : Decidable (RecordedIn nav dx dy X Y r) := by
  unfold RecordedIn; infer_instance

/-- The centroid is in the domain. -/
def RecordedInDomain (nav : Rat → Rat → Rat × Rat) (xlo ylo dx dy : Rat) (M N : Nat) (r : Row GVal) : Prop :=
  xlo ≤ (navPlace nav r).1 ∧ (navPlace nav r).1 < xlo + M * dx ∧
    ylo ≤ (navPlace nav r).2 ∧ (navPlace nav r).2 < ylo + N * dy

instance (nav : Rat → Rat → Rat × Rat) (xlo ylo dx dy : Rat) (M N : Nat) (r : Row GVal) :
    Decidable (RecordedInDomain nav xlo ylo dx dy M N r) := by
  unfold RecordedInDomain; infer_instance

/-- How many rows of the files have their centroid in the pixel. -/
def recordedCentroids (nav : Rat → Rat → Rat × Rat) (rows : GFile → List (Row GVal)) (files : List GFile) (dx dy X Y : Rat) :
    Nat := (files.map fun d => (rows d).countP fun r => RecordedIn nav dx dy X Y r).sum

open scoped Classical in
/-- The flashes of a file that count and have groups. -/
noncomputable def groupedFlashes (me mg : Option Int) (d : GFile) : List (Row GVal) :=
  (fileFlashes me mg d).filter fun f => ∃ g ∈ d.groups, g.pid = f.id

/-- Centroids are closer than the padding to an event of their flash, and groups to their flash; flashes without groups
do not matter. -/
structure RecordedNear (nav : Rat → Rat → Rat × Rat) (px py : Rat) (d : GFile) : Prop where
  flash : ∀ f ∈ d.flashes, (∃ g ∈ d.groups, g.pid = f.id) → ∃ e ∈ d.events, EventOfFlash d f.id e ∧
    |(navPlace nav e).1 - (navPlace nav f).1| < px ∧ |(navPlace nav e).2 - (navPlace nav f).2| < py
  group : ∀ g ∈ d.groups, ∀ f ∈ d.flashes, f.id = g.pid →
    |(navPlace nav f).1 - (navPlace nav g).1| < px ∧ |(navPlace nav f).2 - (navPlace nav g).2| < py ∧
    ∃ e ∈ d.events, EventOfFlash d f.id e ∧
      |(navPlace nav e).1 - (navPlace nav g).1| < px ∧ |(navPlace nav e).2 - (navPlace nav g).2| < py

/-! ## Opening -/

section
variable {nav : Rat → Rat → Rat × Rat} {d d1 d' : GFile} {me mg : Option Int}

theorem OpenedFrom.placed (h : OpenedFrom nav d d') {r r' : Row GVal} (s : SameContent r r')
    (hr : r' ∈ d'.flashes ∨ r' ∈ d'.groups ∨ r' ∈ d'.events) : (r'.val.x, r'.val.y) = navPlace nav r := by
  rw [h.place r' hr]
  unfold navPlace
  rw [s.lon, s.lat]

theorem OpenedFrom.flashesIn (h : OpenedFrom nav d d') {γ : Type} {F G : Row GVal → γ}
    (hF : ∀ f f', SameContent f f' → f' ∈ d'.flashes → F f = G f') :
    (countedFlashes me mg d').map G = (fileFlashes me mg d).map F := by
  classical
  unfold countedFlashes fileFlashes
  refine filter_map_forall₂ (forall₂_mem h.flashes) (fun f f' s => ?_) fun f f' s => hF f f' s.1 s.2.2
  rw [decide_eq_decide, h.enough s.2.2 s.1]

theorem OpenedFrom.groupsIn (h : OpenedFrom nav d d') {γ : Type} {F G : Row GVal → γ}
    (hF : ∀ f f', SameContent f f' → f' ∈ d'.groups → F f = G f') :
    (countedGroups me mg d').map G = (fileGroups me mg d).map F := by
  classical
  unfold Verif.Props.countedGroups fileGroups
  refine filter_map_forall₂ (forall₂_mem h.groups) (fun g g' s => ?_) fun f f' s => hF f f' s.1 s.2.2
  rw [decide_eq_decide]
  obtain ⟨f1, f2⟩ := forall₂_exists h.flashes
  unfold countedFlashes
  constructor
  · rintro ⟨f, hf, he, hid⟩
    obtain ⟨f', hf', sf⟩ := f1 f hf
    exact ⟨f', List.mem_filter.mpr ⟨hf', decide_eq_true ((h.enough hf' sf).mpr he)⟩, by rw [← sf.id, ← s.1.pid, hid]⟩
  · rintro ⟨f', hf', hid⟩
    obtain ⟨hf', he⟩ := List.mem_filter.mp hf'
    obtain ⟨f, hf, sf⟩ := f2 f' hf'
    exact ⟨f, hf, (h.enough hf' sf).mp (of_decide_eq_true he), by rw [sf.id, s.1.pid, hid]⟩

theorem countP_map_id {α : Type} (l : List α) (P : α → Bool) : l.countP P = (l.map P).countP id := by
  rw [List.countP_map]; rfl

/-- What is counted of a dataset, by place and time, is what is counted of its file. -/
theorem opened_countP (hv : ValidPart d d1) (ho : OpenedFrom nav d1 d') (basedate : Int) (K : Int → Bool)
    (P Q : Row GVal → Prop) [DecidablePred P] [DecidablePred Q]
    (hPQ : ∀ r r', (r'.val.x, r'.val.y) = navPlace nav r → (P r' ↔ Q r)) :
    ((wanted basedate K (countedFlashes me mg d')).countP fun r => P r) =
      ((wanted basedate K (groupedFlashes me mg d)).countP fun r => Q r) ∧
    ((wanted basedate K (countedGroups me mg d')).countP fun r => P r) =
      ((wanted basedate K (fileGroups me mg d)).countP fun r => Q r) := by
  classical
  have same : ∀ r r', SameContent r r' → r' ∈ d'.flashes ∨ r' ∈ d'.groups ∨ r' ∈ d'.events →
      (decide (Q r) && K (r.val.times.getD 0 0 - basedate)) =
      (decide (P r') && K (r'.val.times.getD 0 0 - basedate)) := by
    intro r r' s hr
    rw [s.times]
    congr 1
    rw [decide_eq_decide]
    exact (hPQ r r' (ho.placed s hr)).symm
  unfold wanted
  simp only [List.countP_filter]
  constructor
  · rw [countP_map_id, ho.flashesIn fun f f' s hf => same f f' s (Or.inl hf), ← countP_map_id, hv.sameFlashes.countP_eq]
    rfl
  · rw [countP_map_id, ho.groupsIn fun f f' s hf => same f f' s (Or.inr (Or.inl hf)), ← countP_map_id,
      hv.sameGroups.countP_eq]

theorem RecordedNear.opened {px py : Rat} (h : RecordedNear nav px py d) (hv : ValidPart d d1) (ho : OpenedFrom nav d1 d') :
    CentroidsNear px py d' := by
  obtain ⟨-, f2⟩ := forall₂_exists ho.flashes
  obtain ⟨-, g2⟩ := forall₂_exists ho.groups
  obtain ⟨e1, -⟩ := forall₂_exists ho.events
  have pl : ∀ {r r' : Row GVal}, SameContent r r' → r' ∈ d'.flashes ∨ r' ∈ d'.groups ∨ r' ∈ d'.events →
      r'.val.x = (navPlace nav r).1 ∧ r'.val.y = (navPlace nav r).2 := by
    intro r r' s hr
    have := ho.placed s hr
    exact ⟨congrArg Prod.fst this, congrArg Prod.snd this⟩
  have inD1 : ∀ e ∈ d.events, ∀ i, EventOfFlash d i e → e ∈ d1.events := by
    intro e he i hi
    obtain ⟨g, hg, k, -⟩ := hi
    exact hv.events.mem_iff.mpr (List.mem_filter.mpr ⟨he, decide_eq_true ⟨g, hg, k⟩⟩)
  constructor
  · intro f' hf'
    obtain ⟨f, hf, s⟩ := f2 f' hf'
    obtain ⟨hfd, hg⟩ := List.mem_filter.mp (hv.flashes.mem_iff.mp hf)
    obtain ⟨e, he, hfe, hx, hy⟩ := h.flash f hfd (of_decide_eq_true hg)
    obtain ⟨e', he', se⟩ := e1 e (inD1 e he _ hfe)
    refine ⟨e', he', ?_, ?_, ?_⟩
    · rw [← s.id]
      exact (ho.ofFlash se _).mp ((hv.ofFlash _ _).mpr hfe)
    · rw [(pl se (Or.inr (Or.inr he'))).1, (pl s (Or.inl hf')).1]; exact hx
    · rw [(pl se (Or.inr (Or.inr he'))).2, (pl s (Or.inl hf')).2]; exact hy
  · intro g' hg' f' hf' hid
    obtain ⟨g, hg, sg⟩ := g2 g' hg'
    obtain ⟨f, hf, s⟩ := f2 f' hf'
    have hfd := (List.mem_filter.mp (hv.flashes.mem_iff.mp hf)).1
    obtain ⟨n1, n2, e, he, hfe, hx, hy⟩ := h.group g (hv.groups.mem_iff.mp hg) f hfd (by rw [s.id, hid, sg.pid])
    obtain ⟨e', he', se⟩ := e1 e (inD1 e he _ hfe)
    rw [(pl s (Or.inl hf')).1, (pl s (Or.inl hf')).2, (pl sg (Or.inr (Or.inl hg'))).1, (pl sg (Or.inr (Or.inl hg'))).2]
    refine ⟨n1, n2, e', he', ?_, ?_, ?_⟩
    · rw [← s.id]
      exact (ho.ofFlash se _).mp ((hv.ofFlash _ _).mpr hfe)
    · rw [(pl se (Or.inr (Or.inr he'))).1]; exact hx
    · rw [(pl se (Or.inr (Or.inr he'))).2]; exact hy

end

theorem opened_sum {nav : Rat → Rat → Rat × Rat} {me mg : Option Int} {files parts opened : List GFile}
    (hp : List.Forall₂ ValidPart files parts) (ho : List.Forall₂ (OpenedFrom nav) parts opened) (basedate : Int)
    (K : Int → Bool) (P Q : Row GVal → Prop) [DecidablePred P] [DecidablePred Q]
    (hPQ : ∀ r r', (r'.val.x, r'.val.y) = navPlace nav r → (P r' ↔ Q r)) :
    (opened.map fun d => (wanted basedate K (countedFlashes me mg d)).countP fun r => P r).sum =
      (files.map fun d => (wanted basedate K (groupedFlashes me mg d)).countP fun r => Q r).sum ∧
    (opened.map fun d => (wanted basedate K (countedGroups me mg d)).countP fun r => P r).sum =
      (files.map fun d => (wanted basedate K (fileGroups me mg d)).countP fun r => Q r).sum := by
  induction hp generalizing opened with
  | nil => cases ho; exact ⟨rfl, rfl⟩
  | cons hv _ ih =>
    cases ho with
    | cons ho hos =>
      obtain ⟨i1, i2⟩ := ih hos
      obtain ⟨c1, c2⟩ := opened_countP (me := me) (mg := mg) hv ho basedate K P Q hPQ
      simp only [List.map_cons, List.sum_cons, c1, c2]
      rw [i1, i2]
      exact ⟨rfl, rfl⟩

theorem opened_centroids {nav : Rat → Rat → Rat × Rat} {me mg : Option Int} {files parts opened : List GFile}
    (hp : List.Forall₂ ValidPart files parts) (ho : List.Forall₂ (OpenedFrom nav) parts opened) (basedate : Int)
    (K : Int → Bool) (dx dy X Y : Rat) :
    centroidsIn (fun d => wanted basedate K (countedFlashes me mg d)) opened dx dy X Y =
      recordedCentroids nav (fun d => wanted basedate K (groupedFlashes me mg d)) files dx dy X Y ∧
    centroidsIn (fun d => wanted basedate K (countedGroups me mg d)) opened dx dy X Y =
      recordedCentroids nav (fun d => wanted basedate K (fileGroups me mg d)) files dx dy X Y :=
  opened_sum hp ho basedate K _ _ fun r r' e => by unfold RecordedIn CentroidIn; rw [← e]

/-! ## Calls -/

section
variable {env : Surroundings} {order : List Int → List Int} {nav : Rat → Rat → Rat × Rat} {kw shared sh : Dict}
  {xlo ylo dx dy : Rat} {M N s : Nat} {me mg : Option Int} {files : List GFile} {runs : List (TileRun TileState ImageFile)}

theorem FileCall.datasets (h : FileCall env order nav kw xlo ylo dx dy M N s me mg files)
    (hnear : ∀ d ∈ files, RecordedNear nav (padBoxes (28 / 10000) dx * dx) (padBoxes (28 / 10000) dy * dy) d) :
    ∃ parts opened, List.Forall₂ ValidPart files parts ∧ List.Forall₂ (OpenedFrom nav) parts opened ∧
      GoodCall env kw xlo ylo dx dy M N s me mg files opened ∧
      ∀ d ∈ opened, CentroidsNear (padBoxes (28 / 10000) dx * dx) (padBoxes (28 / 10000) dy * dy) d := by
  obtain ⟨parts, opened, hp, ho, hc⟩ := h.toPlainCall.convex (nav := nav) id h.some (fun d hd => by
    obtain ⟨d1, d', h1, -, h2, h3, h4⟩ := (h.fit d hd).sound.opened h.ids nav
    exact ⟨d1, d', fun rev => by rw [h.opens]; exact h1, h2, h3, h4⟩) h.fit
  rw [List.map_id] at hp
  refine ⟨parts, opened, hp, ho, hc.good, ?_⟩
  clear hc
  intro d' hd'
  obtain ⟨d1, hd1, o⟩ := (forall₂_exists ho).2 d' hd'
  obtain ⟨d, hd, v⟩ := (forall₂_exists hp).2 d1 hd1
  exact (hnear d hd).opened v o

/-- **C160** for files.  A pixel of the flash centroid density shows how many flashes with groups, of all files, that have
enough events and groups are recorded in the pixel, and a pixel of the group centroid density how many of their groups. -/
theorem C160_from_files (h : FileCall env order nav kw xlo ylo dx dy M N s me mg files) (hpts : CountsPoints env.points)
    (hkeep : ∀ l, env.keep l = l)
    (hnear : ∀ d ∈ files, RecordedNear nav (padBoxes (28 / 10000) dx * dx) (padBoxes (28 / 10000) dy * dy) d)
    (hr : gridGlmFlashes (lutGridder env) files kw shared = .ok (runs, sh)) (X Y v : Rat) :
    (Shows runs "flash_centroid_density" X Y v → v = (recordedCentroids nav (groupedFlashes me mg) files dx dy X Y : Rat)) ∧
    (Shows runs "group_centroid_density" X Y v → v = (recordedCentroids nav (fileGroups me mg) files dx dy X Y : Rat)) := by
  obtain ⟨parts, opened, hp, ho, hg, hn⟩ := h.datasets hnear
  have hall : ∀ rows, wanted 0 (fun _ => true) rows = rows := fun rows => List.filter_true rows
  obtain ⟨c1, c2⟩ := opened_centroids (me := me) (mg := mg) hp ho 0 (fun _ => true) dx dy X Y
  simp only [hall] at c1 c2
  obtain ⟨k1, k2⟩ := C160_pixels hg ⟨hpts, hkeep, hn⟩ hr X Y v
  exact ⟨fun hv => by rw [k1 hv, ← c1], fun hv => by rw [k2 hv, ← c2]⟩

/-- **C161** for files: the same for the image of a frame, with the flashes and groups that start in the frame. -/
theorem C161_from_files {F : Framing} (h : FileCall env order nav kw xlo ylo dx dy M N s me mg files)
    (hpts : CountsPoints env.points) (hpick : PicksByTime F) (hkeep : KeepsByStart F)
    (hnear : ∀ d ∈ files, RecordedNear nav (padBoxes (28 / 10000) dx * dx) (padBoxes (28 / 10000) dy * dy) d)
    (hr : gridGlmFlashes (framesGridder env F) files kw shared = .ok (runs, sh)) {k : Nat} {t : Rat × Rat}
    (ht : (pairwise F.tEdges)[k]? = some t) (X Y v : Rat) :
    (ShowsIn runs k "flash_centroid_density" X Y v → v = (recordedCentroids nav
      (fun d => startedIn env.basedate t (groupedFlashes me mg d)) files dx dy X Y : Rat)) ∧
    (ShowsIn runs k "group_centroid_density" X Y v → v = (recordedCentroids nav
      (fun d => startedIn env.basedate t (fileGroups me mg d)) files dx dy X Y : Rat)) := by
  obtain ⟨parts, opened, hp, ho, hg, hn⟩ := h.datasets hnear
  obtain ⟨c1, c2⟩ := opened_centroids (me := me) (mg := mg) hp ho env.basedate
    (fun s : Int => decide (t.1 ≤ (s : Rat) / 1000000000 ∧ (s : Rat) / 1000000000 < t.2)) dx dy X Y
  obtain ⟨k1, k2⟩ := C161_exact hg ⟨hpick, hkeep, hpts, hn⟩ hr ht X Y v
  refine ⟨fun hv => ?_, fun hv => ?_⟩
  · rw [k1 hv, Nat.cast_inj]
    exact c1
  · rw [k2 hv, Nat.cast_inj]
    exact c2

/-- **C160** for files, totals.  Each flash with groups that is large enough and is recorded in the domain is counted once in
all images together, and so is each of the groups of flashes that are large enough. -/
theorem C160_once_from_files (h : FileCall env order nav kw xlo ylo dx dy M N s me mg files) (hpts : CountsPoints env.points)
    (hkeep : ∀ l, env.keep l = l)
    (hnear : ∀ d ∈ files, RecordedNear nav (padBoxes (28 / 10000) dx * dx) (padBoxes (28 / 10000) dy * dy) d)
    (hr : gridGlmFlashes (lutGridder env) files kw shared = .ok (runs, sh)) (v w : Nat → Nat → Rat)
    (hv : ∀ m n, m < M → n < N →
      Shows runs "flash_centroid_density" (xlo + (m + 1/2) * dx) (ylo + (n + 1/2) * dy) (v m n))
    (hw : ∀ m n, m < M → n < N →
      Shows runs "group_centroid_density" (xlo + (m + 1/2) * dx) (ylo + (n + 1/2) * dy) (w m n)) :
    overBoxes M N v = ((files.map fun d => (groupedFlashes me mg d).countP fun r =>
      RecordedInDomain nav xlo ylo dx dy M N r).sum : Nat) ∧
    overBoxes M N w = ((files.map fun d => (fileGroups me mg d).countP fun r =>
      RecordedInDomain nav xlo ylo dx dy M N r).sum : Nat) := by
  obtain ⟨parts, opened, hp, ho, hg, hn⟩ := h.datasets hnear
  have hall : ∀ rows, wanted 0 (fun _ => true) rows = rows := fun rows => List.filter_true rows
  obtain ⟨c1, c2⟩ := opened_sum (me := me) (mg := mg) hp ho 0 (fun _ => true) (InDomain xlo ylo dx dy M N)
    (RecordedInDomain nav xlo ylo dx dy M N) fun r r' e => by unfold RecordedInDomain InDomain; rw [← e]
  simp only [hall] at c1 c2
  rw [← c1, ← c2]
  exact C160_once hg ⟨hpts, hkeep, hn⟩ hr v w hv hw

/-- **C161** for files, totals: if the edges of frames are in order, each flash with groups that is large enough, starts in the
period of the call and is recorded in the domain is counted once in the images of all frames together, and so is each of the
groups of flashes that are large enough. -/
theorem C161_once_from_files {F : Framing} (h : FileCall env order nav kw xlo ylo dx dy M N s me mg files)
    (hpts : CountsPoints env.points) (hpick : PicksByTime F) (hkeep : KeepsByStart F)
    (hnear : ∀ d ∈ files, RecordedNear nav (padBoxes (28 / 10000) dx * dx) (padBoxes (28 / 10000) dy * dy) d)
    (hr : gridGlmFlashes (framesGridder env F) files kw shared = .ok (runs, sh)) {first : Rat} {rest : List Rat}
    (hF : F.tEdges = first :: rest) (ha : F.tEdges.Pairwise (· ≤ ·)) (v w : Nat → Nat → Nat → Rat)
    (hv : ∀ k m n, k < rest.length → m < M → n < N →
      ShowsIn runs k "flash_centroid_density" (xlo + (m + 1/2) * dx) (ylo + (n + 1/2) * dy) (v k m n))
    (hw : ∀ k m n, k < rest.length → m < M → n < N →
      ShowsIn runs k "group_centroid_density" (xlo + (m + 1/2) * dx) (ylo + (n + 1/2) * dy) (w k m n)) :
    ((List.range rest.length).map fun k => overBoxes M N (v k)).sum = ((files.map fun d =>
      (startedIn env.basedate (first, (first :: rest).getLast (List.cons_ne_nil _ _)) (groupedFlashes me mg d)).countP fun r =>
        RecordedInDomain nav xlo ylo dx dy M N r).sum : Nat) ∧
    ((List.range rest.length).map fun k => overBoxes M N (w k)).sum = ((files.map fun d =>
      (startedIn env.basedate (first, (first :: rest).getLast (List.cons_ne_nil _ _)) (fileGroups me mg d)).countP fun r =>
        RecordedInDomain nav xlo ylo dx dy M N r).sum : Nat) := by
  obtain ⟨parts, opened, hp, ho, hg, hn⟩ := h.datasets hnear
  obtain ⟨c1, c2⟩ := opened_sum (me := me) (mg := mg) hp ho env.basedate
    (fun s : Int => decide (first ≤ (s : Rat) / 1000000000 ∧
      (s : Rat) / 1000000000 < (first :: rest).getLast (List.cons_ne_nil _ _))) (InDomain xlo ylo dx dy M N)
    (RecordedInDomain nav xlo ylo dx dy M N) fun r r' e => by unfold RecordedInDomain InDomain; rw [← e]
  obtain ⟨k1, k2⟩ := C161_once hg ⟨hpick, hkeep, hpts, hn⟩ hr hF ha v w hv hw
  refine ⟨k1.trans ?_, k2.trans ?_⟩
  · rw [Nat.cast_inj]
    exact c1
  · rw [Nat.cast_inj]
    exact c2

end

/-! ### Sample -/

/-- `plainFile` with the places of groups. -/
def placedFile : GFile :=
  { plainFile with
    groups := [⟨11, 5, { lon := 3/2, lat := 2, area := 40 }⟩, ⟨12, 3, { lon := 9/2, lat := 7/2, area := 50 }⟩,
      ⟨13, 5, { lon := 2, lat := 2, area := 30 }⟩, ⟨14, 7, { lon := 1, lat := 3, area := 20 }⟩] }

def placedEnv : Surroundings := { plainEnv with points := countPoints, keep := id }

theorem placed_call : FileCall placedEnv id sampleNav wideCall 0 (-1/1000) (1/1000) (1/1000) 6 6 1 (some 2) none [placedFile] :=
  { asked := plain_call.asked
    xPos := plain_call.xPos
    yPos := plain_call.yPos
    tiles := plain_call.tiles
    xTiles := plain_call.xTiles
    yTiles := plain_call.yTiles
    xPad := plain_call.xPad
    yPad := plain_call.yPad
    edges := plain_call.edges
    clip := plain_call.clip
    sets := plain_call.sets
    ids := plain_call.ids
    opens := rfl
    some := by simp
    fit := by
      have hpads : padBoxes (28 / 10000) (1 / 1000) = 2 := by decide +kernel
      intro d hd
      rw [List.mem_singleton] at hd
      subst hd
      rw [hpads]
      exact
        { sound := ⟨by unfold HasData; decide +kernel, by decide +kernel, by decide +kernel,
            by unfold UniqueIds; decide +kernel, by unfold UniqueIds; decide +kernel⟩
          areas := by decide +kernel
          pixels := by unfold navPlace; decide +kernel
          convex := fun _ _ => diamond_convex _
          area := by unfold navPlace; decide +kernel
          mean := fun _ _ => diamond_mean _
          narrow := by unfold navPlace; decide +kernel
          padded := by unfold navPlace; decide +kernel
          view := by unfold navPlace; decide +kernel
          compact := by unfold navPlace; decide +kernel } }

theorem placed_near : ∀ d ∈ [placedFile], RecordedNear sampleNav (padBoxes (28 / 10000) (1/1000) * (1/1000))
    (padBoxes (28 / 10000) (1/1000) * (1/1000)) d := by
  have hpads : padBoxes (28 / 10000) (1 / 1000) = 2 := by decide +kernel
  rw [hpads]
  intro d hd
  rw [List.mem_singleton] at hd
  subst hd
  exact ⟨by unfold navPlace; decide +kernel, by unfold navPlace; decide +kernel⟩

/-- The sample meets the hypotheses of `C160_from_files`; flash 8, which has no groups, and flash 7, which has one event, are
not counted. -/
example : ∃ runs sh, gridGlmFlashes (lutGridder placedEnv) [placedFile] wideCall [] = .ok (runs, sh) ∧
    ∀ X Y v, Shows runs "flash_centroid_density" X Y v →
      v = (recordedCentroids sampleNav (groupedFlashes (some 2) none) [placedFile] (1/1000) (1/1000) X Y : Rat) := by
  obtain ⟨runs, sh, h1, -⟩ := C142_from_files [] placed_call
  exact ⟨runs, sh, h1, fun X Y v => (C160_from_files placed_call countPoints_counts (fun _ => rfl) placed_near h1 X Y v).1⟩

/-- It meets those of `C160_once_from_files`. -/
example : ∃ runs sh, ∃ v : Nat → Nat → Rat, gridGlmFlashes (lutGridder placedEnv) [placedFile] wideCall [] = .ok (runs, sh) ∧
    (∀ m n : Nat, m < 6 → n < 6 → Shows runs "flash_centroid_density"
      (0 + (m + 1/2) * (1/1000)) (-1/1000 + (n + 1/2) * (1/1000)) (v m n)) ∧
    overBoxes 6 6 v = (([placedFile].map fun d => (groupedFlashes (some 2) none d).countP fun r =>
      RecordedInDomain sampleNav 0 (-1/1000) (1/1000) (1/1000) 6 6 r).sum : Nat) := by
  obtain ⟨runs, sh, h1, -⟩ := C142_from_files [] placed_call
  obtain ⟨-, opened, -, -, hg, -⟩ := placed_call.datasets placed_near
  have hall : ∀ name ∈ eightNames, ∃ v : Nat → Nat → Rat, ∀ m n : Nat, m < 6 → n < 6 →
      Shows runs name (0 + (m + 1/2) * (1/1000)) (-1/1000 + (n + 1/2) * (1/1000)) (v m n) := by
    intro name hname
    have hex : ∀ m n : Nat, ∃ v, m < 6 → n < 6 →
        Shows runs name (0 + (m + 1/2) * (1/1000)) (-1/1000 + (n + 1/2) * (1/1000)) v := by
      intro m n
      by_cases hmn : m < 6 ∧ n < 6
      · obtain ⟨v, hv⟩ := C160_everywhere hg h1 m n hmn.1 hmn.2 name hname
        exact ⟨v, fun _ _ => hv⟩
      · exact ⟨0, fun h h' => absurd ⟨h, h'⟩ hmn⟩
    choose v hv using hex
    exact ⟨v, fun m n => hv m n⟩
  obtain ⟨v, hv⟩ := hall "flash_centroid_density" (by decide)
  obtain ⟨w, hw⟩ := hall "group_centroid_density" (by decide)
  exact ⟨runs, sh, v, h1, hv, (C160_once_from_files placed_call countPoints_counts (fun _ => rfl) placed_near h1 v w hv hw).1⟩

end Verif.Props
