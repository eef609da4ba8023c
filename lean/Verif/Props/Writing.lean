import Verif.Model.Writing
import Verif.Props.Names

/-!
# C135 and C136: calls that are stopped, and calls at the same time

C135: a gridding call that is stopped at any moment leaves whole images only, or such that calling again makes them whole.
C136: calls at the same time write what they would write one after the other.
-/

namespace Verif.Props

open Verif.Model Verif.Py

variable {ι : Type}

/-! ## What is asked for -/

/-- The files of a call, or of several: different paths, all with a directory (C77 is about those without). -/
def Orderly (jobs : List (Text × ι)) : Prop := (jobs.map Prod.fst).Nodup ∧ ∀ j ∈ jobs, '/' ∈ j.1

/-- What is in the files of a call of which the first are finished: these hold their images, those after the one at work
are as they were, and the one at work is either as it was or broken. -/
structure Stopped (before after : FileSystem ι) (finished rest : List (Text × ι)) : Prop where
  finished : ∀ j ∈ finished, after.file j.1 = some (.whole j.2)
  atWork : ∀ j ∈ rest.head?, after.file j.1 = before.file j.1 ∨ after.file j.1 = some .broken
  later : ∀ j ∈ rest.tail, after.file j.1 = before.file j.1

/-- C135: no broken image is left, whenever the call is stopped. -/
def C135_full : Prop := ∀ (ι : Type) (fs : FileSystem ι) (jobs : List (Text × ι)) (n : Nat), Orderly jobs →
  (∀ p, fs.file p ≠ some .broken) → ∀ p, (writerRun n fs (startWriter jobs)).1.file p ≠ some .broken

/-- C136: calls that write different files at the same time, each to its end, write all of them and nothing else. -/
def C136_full : Prop := ∀ (ι : Type) (fs : FileSystem ι) (calls : List (List (Text × ι))) (schedule : List Nat),
  Orderly calls.flatten → (∀ (i : Nat) (jobs : List (Text × ι)), calls[i]? = some jobs → 4 * jobs.length ≤ schedule.count i) →
  let out := takeTurns schedule fs (calls.map startWriter)
  (∀ w ∈ out.2, w.failed = none) ∧ (∀ j ∈ calls.flatten, out.1.file j.1 = some (.whole j.2)) ∧
    ∀ p, p ∉ calls.flatten.map Prod.fst → out.1.file p = fs.file p

/-- The directory of the first file is made by the other call, too. -/
def MadeBy (d : Text) (jobs : List (Text × ι)) : Prop := ∃ j ∈ jobs, d ∈ upward (dirname j.1).length (dirname j.1)

/-! ## One step -/

theorem step_dirs (fs : FileSystem ι) (w : Writer ι) : ∀ d ∈ fs.dirs, d ∈ (writerStep fs w).1.dirs := by
  intro d hd
  unfold writerStep
  split
  · dsimp only
    split
    · split <;> exact hd
    · split
      · exact hd
      · split
        · exact hd
        · exact List.mem_append_right _ hd
    · split
      · exact hd
      · exact hd
    · exact hd
  · exact hd

theorem step_file (fs : FileSystem ι) (w : Writer ι) (p : Text) (hp : ∀ j ∈ w.jobs.head?, p ≠ j.1) :
    (writerStep fs w).1.file p = fs.file p := by
  unfold writerStep
  split
  · rename_i path image rest hf hj
    have hne : p ≠ path := hp (path, image) (by rw [hj]; simp)
    dsimp only
    split
    · split <;> rfl
    · split
      · rfl
      · split <;> rfl
    · split
      · simp [FileSystem.store, hne]
      · rfl
    · simp [FileSystem.store, hne]
  · rfl

/-- New directories come from the file at work. -/
theorem step_new_dirs (fs : FileSystem ι) (w : Writer ι) {d : Text} (hd : d ∈ (writerStep fs w).1.dirs) :
    d ∈ fs.dirs ∨ ∃ j ∈ w.jobs.head?, d ∈ upward (dirname j.1).length (dirname j.1) := by
  unfold writerStep at hd
  split at hd
  · rename_i path image rest hf hj
    dsimp only at hd
    split at hd
    · split at hd <;> exact Or.inl hd
    · split at hd
      · exact Or.inl hd
      · split at hd
        · exact Or.inl hd
        · rcases List.mem_append.mp hd with h | h
          · exact Or.inr ⟨(path, image), by rw [hj]; simp, h⟩
          · exact Or.inl h
    · split at hd
      · exact Or.inl hd
      · exact Or.inl hd
    · exact Or.inl hd
  · exact Or.inl hd

theorem step_failed {fs : FileSystem ι} {w : Writer ι} {e : Err} (h : w.failed = some e) : writerStep fs w = (fs, w) := by
  unfold writerStep
  rw [h]

theorem step_done {fs : FileSystem ι} {w : Writer ι} (h : w.jobs = []) : writerStep fs w = (fs, w) := by
  unfold writerStep
  rw [h]
  split <;> simp_all

/-- How many more steps there can be. -/
def stepsLeft (w : Writer ι) : Nat :=
  4 * w.jobs.length - (match w.point with | .look => 0 | .make => 1 | .openIt => 2 | .closeIt => 3)

theorem step_left {fs : FileSystem ι} {w : Writer ι} (h : (writerStep fs w).2.failed = none) :
    stepsLeft (writerStep fs w).2 ≤ stepsLeft w - 1 := by
  rcases hf : w.failed with _ | e
  swap
  · rw [step_failed hf, hf] at h
    cases h
  rcases hj : w.jobs with _ | ⟨⟨path, image⟩, rest⟩
  · rw [step_done hj]
    simp [stepsLeft, hj]
  unfold writerStep at h ⊢
  rw [hf, hj] at h ⊢
  dsimp only at h ⊢
  cases hp : w.point <;> rw [hp] at h <;> dsimp only at h ⊢
  · split
    · simp [stepsLeft, hp, hj]
      omega
    · simp [stepsLeft, hp, hj]
  · split at h
    · cases h
    · split at h
      · cases h
      · rename_i h1 h2
        rw [if_neg h1, if_neg h2]
        simp [stepsLeft, hp, hj]
        omega
  · split at h
    · rename_i h1
      rw [if_pos h1]
      simp [stepsLeft, hp, hj]
      omega
    · cases h
  · simp [stepsLeft, hp, hj]
    omega

/-! ## The invariant -/

/-- One of the calls, midway. -/
structure Midway (before : FileSystem ι) (jobs : List (Text × ι)) (fs : FileSystem ι) (w : Writer ι) : Prop where
  split : ∃ finished, jobs = finished ++ w.jobs ∧ ∀ j ∈ finished, fs.file j.1 = some (.whole j.2)
  atWork : ∀ j ∈ w.jobs.head?, fs.file j.1 = if w.point = .closeIt then some .broken else before.file j.1
  later : ∀ j ∈ w.jobs.tail, fs.file j.1 = before.file j.1
  directory : w.point = .openIt ∨ w.point = .closeIt → ∀ j ∈ w.jobs.head?, dirname j.1 ∈ fs.dirs
  failed : w.failed = none ∨ (w.failed = some .fileExistsError ∧ w.point = .make ∧ w.jobs ≠ [])

/-- A call that is about to make a directory has not found it, and it can be there only if another made it. -/
def Blame (before : FileSystem ι) (calls : List (List (Text × ι))) (i : Nat) (fs : FileSystem ι) (w : Writer ι) : Prop :=
  w.point = .make → ∀ j ∈ w.jobs.head?, dirname j.1 ∉ before.dirs ∧
    (dirname j.1 ∈ fs.dirs → ∃ k jobs, k ≠ i ∧ calls[k]? = some jobs ∧ MadeBy (dirname j.1) jobs) ∧
    (w.failed ≠ none → dirname j.1 ∈ fs.dirs)

theorem midway_start (fs : FileSystem ι) (jobs : List (Text × ι)) : Midway fs jobs fs (startWriter jobs) where
  split := ⟨[], rfl, by simp⟩
  atWork := by intro j _; simp [startWriter]
  later := fun _ _ => rfl
  directory := by rintro (h | h) <;> cases h
  failed := Or.inl rfl

theorem midway_other {before : FileSystem ι} {jobs : List (Text × ι)} {fs fs' : FileSystem ι} {w : Writer ι}
    (h : Midway before jobs fs w) (hfile : ∀ j ∈ jobs, fs'.file j.1 = fs.file j.1) (hdirs : ∀ d ∈ fs.dirs, d ∈ fs'.dirs) :
    Midway before jobs fs' w := by
  obtain ⟨finished, h1, h2⟩ := h.split
  have hr : ∀ j ∈ w.jobs, j ∈ jobs := fun j hj => by rw [h1]; exact List.mem_append_right _ hj
  refine ⟨⟨finished, h1, fun j hj => ?_⟩, fun j hj => ?_, fun j hj => ?_, fun hp j hj => ?_, h.failed⟩
  · rw [hfile j (by rw [h1]; exact List.mem_append_left _ hj)]
    exact h2 j hj
  · rw [hfile j (hr j (List.mem_of_mem_head? hj))]
    exact h.atWork j hj
  · rw [hfile j (hr j (List.mem_of_mem_tail hj))]
    exact h.later j hj
  · exact hdirs _ (h.directory hp j hj)

theorem midway_step {before : FileSystem ι} {jobs : List (Text × ι)} {fs : FileSystem ι} {w : Writer ι}
    (h : Midway before jobs fs w) (hn : (jobs.map Prod.fst).Nodup) (hs : ∀ j ∈ jobs, '/' ∈ j.1) :
    Midway before jobs (writerStep fs w).1 (writerStep fs w).2 := by
  rcases hf : w.failed with _ | e
  swap
  · rw [step_failed hf]; exact h
  rcases hj : w.jobs with _ | ⟨⟨path, image⟩, rest⟩
  · rw [step_done hj]; exact h
  obtain ⟨finished, h1, h2⟩ := h.split
  have haw := h.atWork
  have hlt := h.later
  have hdr := h.directory
  rw [hj] at h1 haw hlt hdr
  simp only [List.head?_cons, Option.mem_some_iff, forall_eq', List.tail_cons] at haw hlt hdr
  have hpath : dirname path ≠ [] := fun hc =>
    (dirname_nil_iff path).mp hc (hs (path, image) (by rw [h1]; simp))
  rw [h1, List.map_append, List.map_cons, List.nodup_append] at hn
  obtain ⟨hn1, hn2, hn3⟩ := hn
  have hne1 : ∀ j ∈ finished, j.1 ≠ path := fun j hj' =>
    hn3 _ (List.mem_map_of_mem hj') _ List.mem_cons_self
  have hne2 : ∀ j ∈ rest, j.1 ≠ path := by
    intro j hj' hc
    rw [List.nodup_cons] at hn2
    have hm := List.mem_map_of_mem (f := Prod.fst) hj'
    rw [hc] at hm
    exact hn2.1 hm
  unfold writerStep
  rw [hf, hj]
  dsimp only
  cases hp : w.point <;> rw [hp] at haw hdr <;> dsimp only
  · have haw' : fs.file path = before.file path := by simpa using haw
    split
    · rename_i hd
      refine ⟨⟨finished, h1, h2⟩, ?_, ?_, ?_, Or.inl rfl⟩
      · intro j hj'
        obtain rfl : (path, image) = j := by simpa using hj'
        simpa using haw'
      · exact fun j hj' => hlt j hj'
      · intro _ j hj'
        obtain rfl : (path, image) = j := by simpa using hj'
        exact hd.2
    · refine ⟨⟨finished, h1, h2⟩, ?_, ?_, ?_, Or.inl rfl⟩
      · intro j hj'
        obtain rfl : (path, image) = j := by simpa using hj'
        simpa using haw'
      · exact fun j hj' => hlt j hj'
      · rintro (hc | hc) <;> cases hc
  · have haw' : fs.file path = before.file path := by simpa using haw
    rw [if_neg hpath]
    split
    · refine ⟨⟨finished, h1, h2⟩, ?_, ?_, ?_, Or.inr ⟨rfl, rfl, List.cons_ne_nil _ _⟩⟩
      · intro j hj'
        obtain rfl : (path, image) = j := by simpa using hj'
        simpa using haw'
      · exact fun j hj' => hlt j hj'
      · rintro (hc | hc) <;> cases hc
    · refine ⟨⟨finished, h1, h2⟩, ?_, ?_, ?_, Or.inl rfl⟩
      · intro j hj'
        obtain rfl : (path, image) = j := by simpa using hj'
        simpa using haw'
      · exact fun j hj' => hlt j hj'
      · intro _ j hj'
        obtain rfl : (path, image) = j := by simpa using hj'
        apply List.mem_append_left
        rcases hd : dirname path with _ | ⟨c, cs⟩
        · exact absurd hd hpath
        · simp [upward]
  · have hd := hdr (Or.inl rfl)
    rw [if_pos hd]
    refine ⟨⟨finished, h1, fun j hj' => ?_⟩, ?_, ?_, ?_, Or.inl rfl⟩
    · simp only [FileSystem.store, if_neg (hne1 j hj')]
      exact h2 j hj'
    · intro j hj'
      obtain rfl : (path, image) = j := by simpa using hj'
      simp [FileSystem.store]
    · intro j hj'
      simp only [FileSystem.store, if_neg (hne2 j hj')]
      exact hlt j hj'
    · intro _ j hj'
      obtain rfl : (path, image) = j := by simpa using hj'
      exact hd
  · refine ⟨⟨finished ++ [(path, image)], by rw [h1]; simp, fun j hj' => ?_⟩, ?_, ?_, ?_, Or.inl rfl⟩
    · rcases List.mem_append.mp hj' with hm | hm
      · simp only [FileSystem.store, if_neg (hne1 j hm)]
        exact h2 j hm
      · obtain rfl := List.mem_singleton.mp hm
        simp [FileSystem.store]
    · intro j hj'
      have hm := List.mem_of_mem_head? hj'
      simp only [FileSystem.store, if_neg (hne2 j hm), reduceCtorEq, if_false]
      exact hlt j hm
    · intro j hj'
      have hm := List.mem_of_mem_tail hj'
      simp only [FileSystem.store, if_neg (hne2 j hm)]
      exact hlt j hm
    · rintro (hc | hc) <;> cases hc

theorem blame_step {before : FileSystem ι} {calls : List (List (Text × ι))} {i : Nat} {fs : FileSystem ι} {w : Writer ι}
    (h : Blame before calls i fs w) (hb : ∀ d ∈ before.dirs, d ∈ fs.dirs) (hs : ∀ j ∈ w.jobs, '/' ∈ j.1) :
    Blame before calls i (writerStep fs w).1 (writerStep fs w).2 := by
  rcases hf : w.failed with _ | e
  swap
  · rw [step_failed hf]; exact h
  rcases hj : w.jobs with _ | ⟨⟨path, image⟩, rest⟩
  · rw [step_done hj]; exact h
  have hpath : dirname path ≠ [] := fun hc =>
    (dirname_nil_iff path).mp hc (hs (path, image) (by rw [hj]; simp))
  unfold Blame at h ⊢
  rw [hj] at h
  simp only [List.head?_cons, Option.mem_some_iff, forall_eq'] at h
  unfold writerStep
  rw [hf, hj]
  dsimp only
  cases hp : w.point <;> dsimp only
  · split
    · intro hc; cases hc
    · rename_i hno
      have hno' : dirname path ∉ fs.dirs := fun hc => hno ⟨hpath, hc⟩
      intro _ j hj'
      obtain rfl : (path, image) = j := by simpa using hj'
      exact ⟨fun hc => hno' (hb _ hc), fun hc => absurd hc hno', fun hc => absurd rfl hc⟩
  · rw [if_neg hpath]
    obtain ⟨b1, b2, -⟩ := h hp
    split
    · rename_i hin
      intro _ j hj'
      obtain rfl : (path, image) = j := by simpa using hj'
      exact ⟨b1, b2, fun _ => hin⟩
    · intro hc; cases hc
  · split
    · intro hc; cases hc
    · intro hc; cases hc
  · intro hc; cases hc

theorem blame_other {before : FileSystem ι} {calls : List (List (Text × ι))} {i k : Nat} {fs : FileSystem ι}
    {w v : Writer ι} {jobs : List (Text × ι)} (h : Blame before calls i fs w) (hki : k ≠ i)
    (hk : calls[k]? = some jobs) (hv : ∀ j ∈ v.jobs, j ∈ jobs) : Blame before calls i (writerStep fs v).1 w := by
  intro hp j hj
  obtain ⟨b1, b2, b3⟩ := h hp j hj
  refine ⟨b1, fun hd => ?_, fun hf => step_dirs fs v _ (b3 hf)⟩
  rcases step_new_dirs fs v hd with hd | ⟨j', hj', hd⟩
  · exact b2 hd
  · exact ⟨k, jobs, hki, hk, j', hv j' (List.mem_of_mem_head? hj'), hd⟩

/-- All calls, midway. -/
structure AllMidway (before : FileSystem ι) (calls : List (List (Text × ι))) (fs : FileSystem ι) (ws : List (Writer ι)) :
    Prop where
  length : ws.length = calls.length
  dirs : ∀ d ∈ before.dirs, d ∈ fs.dirs
  others : ∀ p, p ∉ calls.flatten.map Prod.fst → fs.file p = before.file p
  each : ∀ (i : Nat) (jobs : List (Text × ι)) (w : Writer ι), calls[i]? = some jobs → ws[i]? = some w →
    Midway before jobs fs w ∧ Blame before calls i fs w

/-- Different calls of orderly ones have different paths. -/
theorem calls_apart {calls : List (List (Text × ι))} (h : (calls.flatten.map Prod.fst).Nodup) {i k : Nat}
    {jobs jobs' : List (Text × ι)} (hi : calls[i]? = some jobs) (hk : calls[k]? = some jobs') (hne : i ≠ k) :
    ∀ j ∈ jobs, ∀ j' ∈ jobs', j.1 ≠ j'.1 := by
  induction calls generalizing i k with
  | nil => simp at hi
  | cons c rest ih =>
    rw [List.flatten_cons, List.map_append, List.nodup_append] at h
    have inRest : ∀ {m : Nat} {l : List (Text × ι)}, rest[m]? = some l → ∀ j ∈ l, j.1 ∈ rest.flatten.map Prod.fst :=
      fun hm j hj => List.mem_map_of_mem (List.mem_flatten.mpr ⟨_, List.mem_of_getElem? hm, hj⟩)
    cases i with
    | zero =>
      cases k with
      | zero => exact absurd rfl hne
      | succ k =>
        simp only [List.getElem?_cons_zero, Option.some.injEq] at hi
        subst hi
        intro j hj j' hj'
        exact h.2.2 _ (List.mem_map_of_mem hj) _ (inRest hk j' hj')
    | succ i =>
      cases k with
      | zero =>
        simp only [List.getElem?_cons_zero, Option.some.injEq] at hk
        subst hk
        intro j hj j' hj' hc
        exact h.2.2 _ (List.mem_map_of_mem hj') _ (inRest hi j hj) hc.symm
      | succ k => exact ih h.2.1 hi hk (fun hc => hne (by rw [hc]))

theorem calls_sub {calls : List (List (Text × ι))} (h : Orderly calls.flatten) {i : Nat} {jobs : List (Text × ι)}
    (hi : calls[i]? = some jobs) : Orderly jobs ∧ ∀ j ∈ jobs, j.1 ∈ calls.flatten.map Prod.fst := by
  have hm := List.mem_of_getElem? hi
  refine ⟨⟨?_, fun j hj => h.2 j (List.mem_flatten.mpr ⟨_, hm, hj⟩)⟩, fun j hj =>
    List.mem_map_of_mem (List.mem_flatten.mpr ⟨_, hm, hj⟩)⟩
  exact h.1.sublist ((List.sublist_flatten_of_mem hm).map _)

theorem allMidway_step {before : FileSystem ι} {calls : List (List (Text × ι))} {fs : FileSystem ι} {ws : List (Writer ι)}
    (ho : Orderly calls.flatten) (h : AllMidway before calls fs ws) {i : Nat} {w : Writer ι} (hi : ws[i]? = some w) :
    AllMidway before calls (writerStep fs w).1 (ws.set i (writerStep fs w).2) := by
  have hil : i < ws.length := (List.getElem?_eq_some_iff.mp hi).1
  obtain ⟨jobs, hjobs⟩ : ∃ jobs, calls[i]? = some jobs :=
    ⟨calls[i]'(h.length ▸ hil), List.getElem?_eq_getElem _⟩
  obtain ⟨hmid, hbl⟩ := h.each i jobs w hjobs hi
  obtain ⟨hoj, hin⟩ := calls_sub ho hjobs
  obtain ⟨finished, hsplit, -⟩ := hmid.split
  have hwj : ∀ j ∈ w.jobs, j ∈ jobs := fun j hj => by rw [hsplit]; exact List.mem_append_right _ hj
  refine ⟨by rw [List.length_set]; exact h.length, fun d hd => step_dirs fs w _ (h.dirs d hd), fun p hp => ?_, ?_⟩
  · rw [step_file fs w p, h.others p hp]
    rintro j hj rfl
    exact hp (hin j (hwj j (List.mem_of_mem_head? hj)))
  · intro k jobs' v hk hv
    by_cases hki : k = i
    · subst hki
      rw [List.getElem?_set_self hil, Option.some.injEq] at hv
      subst hv
      rw [hjobs, Option.some.injEq] at hk
      subst hk
      exact ⟨midway_step hmid hoj.1 hoj.2, blame_step hbl h.dirs fun j hj => hoj.2 j (hwj j hj)⟩
    · rw [List.getElem?_set_ne (Ne.symm hki)] at hv
      obtain ⟨m1, m2⟩ := h.each k jobs' v hk hv
      refine ⟨midway_other m1 (fun j hj => ?_) (step_dirs fs w), blame_other m2 (Ne.symm hki) hjobs hwj⟩
      apply step_file
      intro j' hj'
      exact calls_apart ho.1 hk hjobs hki j hj j' (hwj j' (List.mem_of_mem_head? hj'))

theorem allMidway_turns {before : FileSystem ι} {calls : List (List (Text × ι))} (ho : Orderly calls.flatten)
    (schedule : List Nat) {fs : FileSystem ι} {ws : List (Writer ι)} (h : AllMidway before calls fs ws) :
    AllMidway before calls (takeTurns schedule fs ws).1 (takeTurns schedule fs ws).2 := by
  induction schedule generalizing fs ws with
  | nil => exact h
  | cons i schedule ih =>
    unfold takeTurns
    split
    · rename_i w hw
      exact ih (allMidway_step ho h hw)
    · exact ih h

theorem turns_left (schedule : List Nat) (fs : FileSystem ι) (ws : List (Writer ι)) (i : Nat) (w v : Writer ι)
    (hw : ws[i]? = some w) (hv : (takeTurns schedule fs ws).2[i]? = some v) (hf : v.failed = none) :
    stepsLeft v ≤ stepsLeft w - schedule.count i := by
  -- a failed call stays failed
  have stays : ∀ (schedule : List Nat) (fs : FileSystem ι) (ws : List (Writer ι)) (w : Writer ι) (e : Err),
      ws[i]? = some w → w.failed = some e → (takeTurns schedule fs ws).2[i]? = some w := by
    intro schedule
    induction schedule with
    | nil => intro fs ws w e hw he; exact hw
    | cons k schedule ih =>
      intro fs ws w e hw he
      unfold takeTurns
      split
      · rename_i u hu
        by_cases hk : k = i
        · subst hk
          rw [hw, Option.some.injEq] at hu
          subst hu
          rw [step_failed he]
          have : ws.set k w = ws := by
            obtain ⟨hlt, hget⟩ := List.getElem?_eq_some_iff.mp hw
            rw [← hget, List.set_getElem_self]
          rw [this]
          exact ih _ _ _ _ hw he
        · exact ih _ _ _ _ (by rw [List.getElem?_set_ne hk]; exact hw) he
      · exact ih _ _ _ _ hw he
  induction schedule generalizing fs ws w with
  | nil =>
    simp only [takeTurns] at hv
    rw [hw, Option.some.injEq] at hv
    subst hv
    simp
  | cons k schedule ih =>
    unfold takeTurns at hv
    split at hv
    · rename_i u hu
      by_cases hk : k = i
      · subst hk
        rw [hw, Option.some.injEq] at hu
        subst hu
        have hil : k < ws.length := (List.getElem?_eq_some_iff.mp hw).1
        have hset := List.getElem?_set_self (a := (writerStep fs w).2) hil
        rcases hsf : (writerStep fs w).2.failed with _ | e
        · have h1 := ih _ _ _ hset hv
          have h2 := step_left hsf
          rw [List.count_cons_self]
          omega
        · rw [stays _ _ _ _ e hset hsf, Option.some.injEq] at hv
          subst hv
          rw [hf] at hsf
          cases hsf
      · rw [List.count_cons_of_ne hk]
        exact ih _ _ _ (by rw [List.getElem?_set_ne hk]; exact hw) hv
    · rename_i hu
      have hk : k ≠ i := by rintro rfl; rw [hw] at hu; cases hu
      rw [List.count_cons_of_ne hk]
      exact ih _ _ _ hw hv

/-! ## C136 -/

/-- **C136, exactly what happens**, for every schedule.  A call that ends with an exception ends with FileExistsError, because
the directory of one of its files was not there at first and another call made it; the files that it has not
written are as they were.  A call that had its turns and no exception has written all its images.  Whatever happens, of
each call the first files are whole, the later ones untouched, and at most the one at work is broken.  All other
files are as they were. -/
theorem C136_exact (fs : FileSystem ι) (calls : List (List (Text × ι))) (schedule : List Nat)
    (ho : Orderly calls.flatten) :
    let out := takeTurns schedule fs (calls.map startWriter)
    out.2.length = calls.length ∧ (∀ p, p ∉ calls.flatten.map Prod.fst → out.1.file p = fs.file p) ∧
    (∀ d ∈ fs.dirs, d ∈ out.1.dirs) ∧
    ∀ (i : Nat) (jobs : List (Text × ι)), calls[i]? = some jobs → ∃ w finished, out.2[i]? = some w ∧
      jobs = finished ++ w.jobs ∧ Stopped fs out.1 finished w.jobs ∧
      (w.failed = none → 4 * jobs.length ≤ schedule.count i → w.jobs = []) ∧
      (∀ e, w.failed = some e → e = .fileExistsError ∧ w.jobs ≠ [] ∧ (∀ j ∈ w.jobs, out.1.file j.1 = fs.file j.1) ∧
        ∀ j ∈ w.jobs.head?, dirname j.1 ∉ fs.dirs ∧ ∃ k jobs', k ≠ i ∧ calls[k]? = some jobs' ∧
          MadeBy (dirname j.1) jobs') := by
  intro out
  have h0 : AllMidway fs calls fs (calls.map startWriter) := by
    refine ⟨by simp, fun _ h => h, fun _ _ => rfl, ?_⟩
    intro i jobs w hi hw
    rw [List.getElem?_map, hi, Option.map_some, Option.some.injEq] at hw
    subst hw
    exact ⟨midway_start fs jobs, fun h => by cases h⟩
  have h := allMidway_turns ho schedule h0
  refine ⟨h.length, h.others, h.dirs, ?_⟩
  intro i jobs hi
  have hil : i < out.2.length := by
    rw [h.length]
    exact (List.getElem?_eq_some_iff.mp hi).1
  have hw : out.2[i]? = some out.2[i] := List.getElem?_eq_getElem hil
  generalize out.2[i] = w at hw
  obtain ⟨hm, hb⟩ := h.each i jobs w hi hw
  obtain ⟨finished, h1, h2⟩ := hm.split
  refine ⟨w, finished, hw, h1, ⟨h2, fun j hj => ?_, hm.later⟩, fun hf hc => ?_, fun e he => ?_⟩
  · have := hm.atWork j hj
    split at this
    · exact Or.inr this
    · exact Or.inl this
  · have hl := turns_left schedule fs (calls.map startWriter) i (startWriter jobs) w
      (by rw [List.getElem?_map, hi]; rfl) hw hf
    have : stepsLeft (startWriter jobs) = 4 * jobs.length := by simp [stepsLeft, startWriter]
    rw [this] at hl
    have hz : stepsLeft w = 0 := by omega
    unfold stepsLeft at hz
    rcases hwj : w.jobs with _ | ⟨a, l⟩
    · rfl
    · rw [hwj, List.length_cons] at hz
      split at hz <;> omega
  · rcases hm.failed with hf | ⟨hf, hp, hwne⟩
    · rw [hf] at he; cases he
    rw [hf, Option.some.injEq] at he
    refine ⟨he.symm, hwne, fun j hj => ?_, fun j hj => ?_⟩
    · rcases hwj : w.jobs with _ | ⟨a, l⟩
      · rw [hwj] at hj; cases hj
      · have ha := hm.atWork
        have hl := hm.later
        rw [hwj] at ha hl hj
        rw [hp] at ha
        simp only [List.head?_cons, Option.mem_some_iff, forall_eq', List.tail_cons, reduceCtorEq, if_false] at ha hl
        rcases List.mem_cons.mp hj with rfl | hj
        · exact ha
        · exact hl j hj
    · obtain ⟨b1, b2, b3⟩ := hb hp j hj
      exact ⟨b1, b2 (b3 (by rw [hf]; simp))⟩

/-- **C136, the part that holds**: it holds for calls of which no two need the same new directory, such as calls that write
into directories that are there already. -/
theorem C136_partial (fs : FileSystem ι) (calls : List (List (Text × ι))) (schedule : List Nat)
    (ho : Orderly calls.flatten)
    (hturns : ∀ (i : Nat) (jobs : List (Text × ι)), calls[i]? = some jobs → 4 * jobs.length ≤ schedule.count i)
    (hdirs : ∀ (i k : Nat) (jobs jobs' : List (Text × ι)), i ≠ k → calls[i]? = some jobs → calls[k]? = some jobs' →
      ∀ j ∈ jobs, dirname j.1 ∈ fs.dirs ∨ ¬ MadeBy (dirname j.1) jobs') :
    let out := takeTurns schedule fs (calls.map startWriter)
    (∀ w ∈ out.2, w.failed = none) ∧ (∀ j ∈ calls.flatten, out.1.file j.1 = some (.whole j.2)) ∧
      ∀ p, p ∉ calls.flatten.map Prod.fst → out.1.file p = fs.file p := by
  intro out
  obtain ⟨h1, h2, -, h3⟩ := C136_exact fs calls schedule ho
  have key : ∀ (i : Nat) (jobs : List (Text × ι)), calls[i]? = some jobs →
      ∃ w finished, out.2[i]? = some w ∧ jobs = finished ++ w.jobs ∧ Stopped fs out.1 finished w.jobs ∧
        w.failed = none ∧ w.jobs = [] := by
    intro i jobs hi
    obtain ⟨w, finished, a1, a2, a3, a4, a5⟩ := h3 i jobs hi
    have hf : w.failed = none := by
      rcases hf : w.failed with _ | e
      · rfl
      · exfalso
        obtain ⟨-, hne, -, b⟩ := a5 e hf
        obtain ⟨j, l, hjl⟩ := List.exists_cons_of_ne_nil hne
        obtain ⟨c1, k, jobs', c2, c3, c4⟩ := b j (by rw [hjl]; simp)
        rcases hdirs i k jobs jobs' (Ne.symm c2) hi c3 j (by rw [a2, hjl]; simp) with hd | hd
        · exact c1 hd
        · exact hd c4
    exact ⟨w, finished, a1, a2, a3, hf, a4 hf (hturns i jobs hi)⟩
  refine ⟨fun w hw => ?_, fun j hj => ?_, h2⟩
  · obtain ⟨i, hi, rfl⟩ := List.getElem_of_mem hw
    have hic : i < calls.length := h1 ▸ hi
    obtain ⟨w, -, b1, -, -, b2, -⟩ := key i calls[i] (List.getElem?_eq_getElem hic)
    rw [List.getElem?_eq_getElem hi, Option.some.injEq] at b1
    rw [b1]
    exact b2
  · obtain ⟨jobs, hj1, hj2⟩ := List.mem_flatten.mp hj
    obtain ⟨i, hi, rfl⟩ := List.getElem_of_mem hj1
    obtain ⟨w, finished, -, b1, b2, -, b3⟩ := key i _ (List.getElem?_eq_getElem hi)
    apply b2.finished
    rw [b3, List.append_nil] at b1
    rw [← b1]
    exact hj2

/-- C136 fails for every two calls that need the same new directory for their first files: there is a schedule, which
goes on for as long as one likes, under which the second ends with FileExistsError. -/
theorem C136_race (fs : FileSystem ι) (a b : Text × ι) (l m : List (Text × ι)) (later : List Nat)
    (ha : '/' ∈ a.1) (hab : dirname a.1 = dirname b.1) (hnew : dirname a.1 ∉ fs.dirs) :
    ∃ w, (takeTurns ([0, 1, 0, 1] ++ later) fs [startWriter (a :: l), startWriter (b :: m)]).2[1]? = some w ∧
      w.failed = some .fileExistsError := by
  have hne : dirname a.1 ≠ [] := fun hc => (dirname_nil_iff a.1).mp hc ha
  have hin : dirname a.1 ∈ upward (dirname a.1).length (dirname a.1) := by
    rcases hd : dirname a.1 with _ | ⟨c, cs⟩
    · exact absurd hd hne
    · simp [upward]
  have stays : ∀ (schedule : List Nat) (fs : FileSystem ι) (ws : List (Writer ι)) (w : Writer ι) (e : Err),
      ws[1]? = some w → w.failed = some e → (takeTurns schedule fs ws).2[1]? = some w := by
    intro schedule
    induction schedule with
    | nil => intro fs ws w e hw he; exact hw
    | cons k schedule ih =>
      intro fs ws w e hw he
      unfold takeTurns
      split
      · rename_i u hu
        by_cases hk : k = 1
        · subst hk
          rw [hw, Option.some.injEq] at hu
          subst hu
          rw [step_failed he]
          refine ih _ _ _ _ (List.getElem?_set_self (List.getElem?_eq_some_iff.mp hw).1) he
        · exact ih _ _ _ _ (by rw [List.getElem?_set_ne hk]; exact hw) he
      · exact ih _ _ _ _ hw he
  obtain ⟨pa, ia⟩ := a
  obtain ⟨pb, ib⟩ := b
  dsimp only at hab hnew hne hin
  have hne' : dirname pb ≠ [] := hab ▸ hne
  refine ⟨⟨.make, (pb, ib) :: m, some .fileExistsError⟩, ?_, rfl⟩
  simp only [List.cons_append, List.nil_append, takeTurns, List.getElem?_cons_zero, List.getElem?_cons_succ, startWriter,
    writerStep, ← hab, hnew, and_false, if_false, List.set_cons_zero, List.set_cons_succ, hne, List.mem_append, hin,
    true_or, if_true]
  exact stays _ _ _ _ .fileExistsError rfl rfl

theorem C136_full_false : ¬ C136_full := by
  intro h
  have := h Nat ⟨["/".toList], fun _ => none⟩ [[("/d/a".toList, 1)], [("/d/b".toList, 2)]]
    ([0, 1, 0, 1] ++ [0, 0, 1, 1]) (by unfold Orderly; decide) (by
      intro i jobs hi
      match i with
      | 0 => simp at hi; subst hi; decide
      | 1 => simp at hi; subst hi; decide
      | n + 2 => simp at hi)
  obtain ⟨w, hw1, hw2⟩ := C136_race (ι := Nat) ⟨["/".toList], fun _ => none⟩ ("/d/a".toList, 1) ("/d/b".toList, 2) [] []
    [0, 0, 1, 1] (by decide) (by decide) (by decide)
  have hf := this.1 w (List.mem_of_getElem? hw1)
  rw [hf] at hw2
  cases hw2

-- the hypotheses of C136_partial are met by two calls that write into one directory and make others
example : let fs : FileSystem Nat := ⟨["/d".toList], fun _ => none⟩
    let calls := [[("/d/a".toList, 1), ("/e/a".toList, 2)], [("/d/b".toList, 3), ("/f/b".toList, 4)]]
    Orderly calls.flatten ∧ (∀ (i k : Nat) (jobs jobs' : List (Text × Nat)), i ≠ k → calls[i]? = some jobs →
      calls[k]? = some jobs' → ∀ j ∈ jobs, dirname j.1 ∈ fs.dirs ∨ ¬ MadeBy (dirname j.1) jobs') := by
  constructor
  · unfold Orderly; decide
  · intro i k jobs jobs' hne hi hk
    unfold MadeBy
    match i, k with
    | 0, 0 => exact absurd rfl hne
    | 1, 1 => exact absurd rfl hne
    | 0, 1 => simp at hi hk; subst hi hk; decide
    | 1, 0 => simp at hi hk; subst hi hk; decide
    | n + 2, _ => simp at hi
    | _, n + 2 => simp at hk

/-! ## C135 -/

theorem run_turns (n : Nat) (fs : FileSystem ι) (w : Writer ι) :
    takeTurns (List.replicate n 0) fs [w] = ((writerRun n fs w).1, [(writerRun n fs w).2]) := by
  induction n generalizing fs w with
  | zero => rfl
  | succ n ih =>
    rw [List.replicate_succ]
    simp only [takeTurns, List.getElem?_cons_zero, List.set_cons_zero, writerRun]
    exact ih _ _

/-- **C135, what holds**: a call that is stopped at any moment has not failed; some number of its files, in order,
are whole, at most the one at work is broken, and those that follow and all that are not of the call are as they were.
After four steps for every file the call is done. -/
theorem C135_interrupted_partial (fs : FileSystem ι) (jobs : List (Text × ι)) (n : Nat) (ho : Orderly jobs) :
    let out := writerRun n fs (startWriter jobs)
    out.2.failed = none ∧ (∀ d ∈ fs.dirs, d ∈ out.1.dirs) ∧ (∀ p, p ∉ jobs.map Prod.fst → out.1.file p = fs.file p) ∧
    ∃ finished rest, jobs = finished ++ rest ∧ Stopped fs out.1 finished rest ∧ (4 * jobs.length ≤ n → rest = []) := by
  intro out
  have hr := run_turns n fs (startWriter jobs)
  obtain ⟨-, h2, h3, h4⟩ := C136_exact fs [jobs] (List.replicate n 0) (by simpa using ho)
  simp only [List.map_cons, List.map_nil, hr] at h2 h3 h4
  obtain ⟨w, finished, a1, a2, a3, a4, a5⟩ := h4 0 jobs rfl
  simp only [List.getElem?_cons_zero, Option.some.injEq] at a1
  have hf : w.failed = none := by
    rcases hf : w.failed with _ | e
    · rfl
    · exfalso
      obtain ⟨-, hne, -, b⟩ := a5 e hf
      obtain ⟨j, l, hjl⟩ := List.exists_cons_of_ne_nil hne
      obtain ⟨-, k, jobs', c2, c3, -⟩ := b j (by rw [hjl]; simp)
      match k with
      | 0 => exact c2 rfl
      | k + 1 => simp at c3
  refine ⟨by rw [← hf, ← a1], h3, by simpa using h2, finished, w.jobs, a2, a3, fun hn => a4 hf ?_⟩
  rw [List.count_replicate_self]
  exact hn

/-- **C135, what holds**: calling again after the call was stopped, with the same paths, gives all the files that the call
would have given had it not been stopped, and nothing else. -/
theorem C135_again_partial (fs : FileSystem ι) (jobs : List (Text × ι)) (n m k : Nat) (ho : Orderly jobs)
    (hm : 4 * jobs.length ≤ m) (hk : 4 * jobs.length ≤ k) :
    let again := writerRun m (writerRun n fs (startWriter jobs)).1 (startWriter jobs)
    let once := writerRun k fs (startWriter jobs)
    again.2.failed = none ∧ (∀ p, again.1.file p = once.1.file p) ∧
      ∀ j ∈ jobs, again.1.file j.1 = some (.whole j.2) := by
  intro again once
  obtain ⟨-, -, a, -⟩ := C135_interrupted_partial fs jobs n ho
  obtain ⟨b0, -, b, bf, br, b1, b2, b3⟩ := C135_interrupted_partial (writerRun n fs (startWriter jobs)).1 jobs m ho
  obtain ⟨-, -, c, cf, cr, c1, c2, c3⟩ := C135_interrupted_partial fs jobs k ho
  rw [b3 hm, List.append_nil] at b1
  rw [c3 hk, List.append_nil] at c1
  have hb : ∀ j ∈ jobs, again.1.file j.1 = some (.whole j.2) := fun j hj => b2.finished j (b1 ▸ hj)
  have hc : ∀ j ∈ jobs, once.1.file j.1 = some (.whole j.2) := fun j hj => c2.finished j (c1 ▸ hj)
  refine ⟨b0, fun p => ?_, hb⟩
  by_cases hp : p ∈ jobs.map Prod.fst
  · obtain ⟨j, hj, rfl⟩ := List.mem_map.mp hp
    rw [hb j hj, hc j hj]
  · rw [show again.1.file p = _ from b p hp, show once.1.file p = _ from c p hp, a p hp]

/-- C135 is violated: every call leaves a broken image when it is stopped in its third step, or its second if the directory is
there. -/
theorem C135_broken (fs : FileSystem ι) (j : Text × ι) (rest : List (Text × ι)) (hj : '/' ∈ j.1) :
    ∃ n ≤ 3, (writerRun n fs (startWriter (j :: rest))).1.file j.1 = some .broken := by
  obtain ⟨p, im⟩ := j
  have hne : dirname p ≠ [] := fun hc => (dirname_nil_iff p).mp hc hj
  have hin : dirname p ∈ upward (dirname p).length (dirname p) := by
    rcases hd : dirname p with _ | ⟨c, cs⟩
    · exact absurd hd hne
    · simp [upward]
  by_cases hd : dirname p ∈ fs.dirs
  · exact ⟨2, by omega, by simp [writerRun, startWriter, writerStep, hne, hd, FileSystem.store]⟩
  · exact ⟨3, by omega, by simp [writerRun, startWriter, writerStep, hne, hd, hin, FileSystem.store]⟩

theorem C135_full_false : ¬ C135_full := by
  intro h
  obtain ⟨n, -, hn⟩ := C135_broken (ι := Nat) ⟨[], fun _ => none⟩ ("./a.nc".toList, 1) [] (by decide)
  exact h Nat ⟨[], fun _ => none⟩ [("./a.nc".toList, 1)] n (by unfold Orderly; decide) (by simp) _ hn

/-- Calling again later does not mend it if the path has the name of the product in it, as the default has, because the
name has the time of the call in it: the broken file stays. -/
theorem C135_default_path (scene : Scene) (platform : Text) (start stop created created' : DateTime) (p p' : Text)
    (image : ι) (fs : FileSystem ι) (hp : defaultOutfile scene platform start stop created = .ok p)
    (hp' : defaultOutfile scene platform start stop created' = .ok p')
    (htime : strftimeStamp created ≠ strftimeStamp created') :
    ∃ n, ∀ m, (writerRun m (writerRun n fs (startWriter [(p, image)])).1 (startWriter [(p', image)])).1.file p =
      some .broken := by
  have hne : p ≠ p' := by
    rintro rfl
    unfold defaultOutfile at hp hp'
    split at hp
    · rename_i letter hl
      rw [hl] at hp'
      simp only [Except.ok.injEq] at hp hp'
      have h := hp.trans hp'.symm
      unfold datasetName at h
      simp only [List.append_assoc, List.append_cancel_left_eq] at h
      exact htime (List.append_cancel_right h)
    · cases hp
  have slash : ∀ {c : DateTime} {q : Text}, defaultOutfile scene platform start stop c = .ok q → '/' ∈ q := by
    intro c q hq
    unfold defaultOutfile at hq
    split at hq
    · simp only [Except.ok.injEq] at hq
      rw [← hq]
      simp
    · cases hq
  obtain ⟨n, -, hn⟩ := C135_broken fs (p, image) [] (slash hp)
  refine ⟨n, fun m => ?_⟩
  obtain ⟨-, -, h, -⟩ := C135_interrupted_partial (writerRun n fs (startWriter [(p, image)])).1 [(p', image)] m
    ⟨by simp, by simpa using slash hp'⟩
  rw [h p (by simpa using hne)]
  exact hn

-- a call that writes three files, stopped after any number of steps
example : Orderly [("/d/a.nc".toList, 1), ("/d/b.nc".toList, 2), ("/e/c.nc".toList, 3)] := by unfold Orderly; decide
example : (writerRun 6 ⟨["/".toList], fun _ => none⟩
    (startWriter [("/d/a.nc".toList, 1), ("/d/b.nc".toList, 2)])).1.file "/d/a.nc".toList = some (.whole 1) := by decide
example : (writerRun 6 ⟨["/".toList], fun _ => none⟩
    (startWriter [("/d/a.nc".toList, 1), ("/d/b.nc".toList, 2)])).1.file "/d/b.nc".toList = some .broken := by decide
-- two calls within a minute have different default paths
example : (defaultOutfile .conus "G16".toList ⟨2018, 7, 2, 4, 33, 0, 0⟩ ⟨2018, 7, 2, 4, 34, 0, 0⟩ ⟨2018, 7, 2, 5, 0, 0, 0⟩).toOption ≠
    (defaultOutfile .conus "G16".toList ⟨2018, 7, 2, 4, 33, 0, 0⟩ ⟨2018, 7, 2, 4, 34, 0, 0⟩ ⟨2018, 7, 2, 5, 0, 7, 0⟩).toOption ∧
    strftimeStamp ⟨2018, 7, 2, 5, 0, 0, 0⟩ ≠ strftimeStamp ⟨2018, 7, 2, 5, 0, 7, 0⟩ := by decide

end Verif.Props
