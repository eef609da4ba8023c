import Verif.Props.Pixels
import Verif.Props.Convex
import Verif.Proofs.ConvexMean

/-!
# C137 and C139 to C141 for convex footprints

The assumptions of those properties on the clipper hold of the intersection of a convex polygon with a rectangle.  What remains
to be assumed of the footprints is that they are convex, have an area and are centred at the places of their events.
-/

namespace Verif.Props

open Verif.Py Verif.Model Verif.Spec Verif.Proofs

theorem middle_counterclockwise (p : Poly) : middle (counterclockwise p) = meanPoint p := by
  unfold counterclockwise middle meanPoint
  split
  · rw [List.map_reverse, List.map_reverse, List.sum_reverse, List.sum_reverse, List.length_reverse]
  · rfl

theorem partArea_convex {p : Poly} (hc : ConvexPoly p) (ha : signedArea p ≠ 0) (a b c d : Rat) :
    partArea convexClip p (rect a b c d) = signedArea (cutRect (counterclockwise p) a c b d) :=
  convex_areaInCell hc ha [a, b] [c, d] 0 0

/-- A convex footprint with an area, and the mean of its corners at the place, has a part in every rectangle around the
place. -/
theorem convex_centred {foot : Pt → Poly} {p : Pt} (hc : ConvexPoly (foot p)) (ha : signedArea (foot p) ≠ 0)
    (hm : meanPoint (foot p) = p) {dx dy : Rat} (hdx : 0 < dx) (hdy : 0 < dy) : CentredAt convexClip foot dx dy p := by
  refine ⟨hm, ?_⟩
  intro a b c d hab hcd h1 h2 h3 h4
  obtain ⟨k1, k2⟩ := counterclockwise_ok hc ha
  rw [partArea_convex hc ha]
  have hmid := (middle_counterclockwise (foot p)).trans hm
  exact cutRect_middle (segClosed_inside _) (convex_around k1) (by rw [k2]; exact abs_ne_zero.mpr ha) (by linarith)
    (by linarith) (by rw [hmid]; exact h1.le) (by rw [hmid]; exact h2) (by rw [hmid]; exact h3.le) (by rw [hmid]; exact h4)

/-- The parts of a convex footprint in the pixels of a domain add up to the footprint if it is in the domain. -/
theorem parts_convex {p : Poly} (hc : ConvexPoly p) (ha : signedArea p ≠ 0) {xlo ylo dx dy : Rat} (hdx : 0 < dx)
    (hdy : 0 < dy) {M N : Nat} (hM : 0 < M) (hN : 0 < N) (hin : ∀ v ∈ p, xlo ≤ v.1 ∧ v.1 ≤ xlo + M * dx ∧
      ylo ≤ v.2 ∧ v.2 ≤ ylo + N * dy) : PartsAddUp convexClip xlo ylo dx dy M N p := by
  have ax := boxEdges_axis (lo := xlo) hdx hM
  have ay := boxEdges_axis (lo := ylo) hdy hN
  obtain ⟨k1, k2⟩ := counterclockwise_ok hc ha
  have step : ∀ {lo d : Rat} {m : Nat}, 0 < d → ∀ k, k + 1 < (boxEdges lo d m).length →
      (boxEdges lo d m).getD k 0 < (boxEdges lo d m).getD (k + 1) 0 := by
    intro lo d m hd k hk
    rw [boxEdges_length] at hk
    rw [boxEdges_getD lo d (by omega), boxEdges_getD lo d (by omega)]
    push_cast
    linarith
  have h := cells_sum (x := boxEdges xlo dx M) (y := boxEdges ylo dy N) (step hdx) (step hdy)
    (by rw [boxEdges_length]; omega) (by rw [boxEdges_length]; omega) (p := counterclockwise p) (by
      intro v hv
      rw [boxEdges_length, boxEdges_length, boxEdges_getD xlo dx (by omega), boxEdges_getD ylo dy (by omega),
        boxEdges_getD xlo dx (by omega), boxEdges_getD ylo dy (by omega)]
      have := hin v (mem_counterclockwise.mp hv)
      simpa using this)
  rw [k2, boxEdges_length, boxEdges_length, Nat.add_sub_cancel, Nat.add_sub_cancel] at h
  unfold PartsAddUp overBoxes
  rw [← h]
  refine congrArg List.sum (List.map_congr_left fun m hm => congrArg List.sum (List.map_congr_left fun n hn => ?_))
  rw [List.mem_range] at hm hn
  unfold pixelAt
  show partArea convexClip p _ = _
  rw [partArea_convex hc ha, boxEdges_getD xlo dx (by omega), boxEdges_getD ylo dy (by omega),
    boxEdges_getD xlo dx (by omega), boxEdges_getD ylo dy (by omega)]
  push_cast
  congr 2 <;> ring

/-- A call whose footprints are convex and centred, with the exact intersection as clipper. -/
structure ConvexCall (env : Surroundings) (kw : Dict) (xlo ylo dx dy : Rat) (M N s : Nat) (me mg : Option Int)
    (files opened : List GFile) : Prop where
  asked : FixedGridAsked kw xlo ylo dx dy M N s me mg
  xPos : 0 < dx
  yPos : 0 < dy
  tiles : 0 < s
  xTiles : 2 * s ≤ M
  yTiles : s ≤ N
  xPad : 2 * dx ≤ 28 / 10000
  yPad : 2 * dy ≤ 28 / 10000
  edges : MakesEdges env.edges
  clip : env.clip = convexClip
  order : ∀ l, (env.order l).Perm l
  opens : ∀ rev, kw.get "ellipse_rev" = .ok rev → List.Forall₂ (fun f d => env.openFile rev f = .ok d) files opened
  some : ∃ d ∈ opened, d.events ≠ []
  compact : ∀ d ∈ opened, d.events ≠ [] →
    CompactFile env.foot env.loc dx dy (padBoxes (28 / 10000) dx * dx) (padBoxes (28 / 10000) dy * dy) d
  convex : ∀ d ∈ opened, ∀ e ∈ d.events, ConvexPoly (env.foot (placeOf e))
  mean : ∀ d ∈ opened, ∀ e ∈ d.events, meanPoint (env.foot (placeOf e)) = placeOf e

section
variable {env : Surroundings} {kw shared sh : Dict} {xlo ylo dx dy : Rat} {M N s : Nat} {me mg : Option Int}
  {files opened : List GFile}

theorem ConvexCall.good (h : ConvexCall env kw xlo ylo dx dy M N s me mg files opened) :
    GoodCall env kw xlo ylo dx dy M N s me mg files opened :=
  { asked := h.asked
    xPos := h.xPos
    yPos := h.yPos
    tiles := h.tiles
    xTiles := h.xTiles
    yTiles := h.yTiles
    xPad := h.xPad
    yPad := h.yPad
    edges := h.edges
    parts := by rw [h.clip]; exact convexClip_ne_nil
    beside := by rw [h.clip]; exact convexClip_beside
    order := h.order
    opens := h.opens
    some := h.some
    compact := h.compact
    centred := by
      intro d hd e he
      rw [h.clip]
      exact convex_centred (h.convex d hd e he) ((h.compact d hd (List.ne_nil_of_mem he)).polygons e he).2
        (h.mean d hd e he) h.xPos h.yPos }

/-- **C137** for convex footprints: nothing is assumed of the clipper but that it makes the intersection. -/
theorem C137_convex (shared : Dict) (h : ConvexCall env kw xlo ylo dx dy M N s me mg files opened) :
    ∃ runs shared', gridGlmFlashes (lutGridder env) files kw shared = .ok (runs, shared') ∧
      (runs.map fun r => r.ij) = ((List.range s).flatMap fun i => (List.range s).map fun j => (i, j)) ∧
      (∀ r ∈ runs, ∃ f, r.written = [(f.name, f)] ∧
        ImageShows convexClip env.foot me mg opened dx dy (r.scale != .bool false) env.frame
          (boxCentres xlo dx (tileStart M s r.ij.1) (tileStart M s (r.ij.1 + 1)))
          (boxCentres ylo dy (tileStart N s r.ij.2) (tileStart N s (r.ij.2 + 1))) f) ∧
      ∀ m n, m < M → n < N → ∃ r ∈ runs, ∃ f, r.written = [(f.name, f)] ∧ xlo + (m + 1/2) * dx ∈ f.x ∧
        ylo + (n + 1/2) * dy ∈ f.y := by
  have g := h.good
  have := C137_end_to_end env kw shared xlo ylo dx dy M N s me mg files opened g.asked g.xPos
    g.yPos g.tiles g.xTiles g.yTiles g.xPad g.yPad g.edges g.parts g.beside g.order g.opens g.some g.compact g.centred
  rw [h.clip] at this
  exact this

/-- **C141** for convex footprints in the domain. -/
theorem C141_convex {runs : List (TileRun TileState ImageFile)} {sc : Bool}
    (h : ConvexCall env kw xlo ylo dx dy M N s me mg files opened)
    (hr : gridGlmFlashes (lutGridder env) files kw shared = .ok (runs, sh)) (hsc : Scaled runs sc)
    (hpos : ∀ d ∈ opened, ∀ e ∈ d.events, 0 ≤ e.val.energy)
    (hin : ∀ d ∈ opened, ∀ e ∈ countedEvents me mg d, ∀ v ∈ env.foot (placeOf e),
      xlo ≤ v.1 ∧ v.1 ≤ xlo + M * dx ∧ ylo ≤ v.2 ∧ v.2 ≤ ylo + N * dy)
    (v : Nat → Nat → Rat) (hv : ∀ m n, m < M → n < N →
      Shows runs "total_energy" (xlo + (m + 1/2) * dx) (ylo + (n + 1/2) * dy) (v m n)) :
    (∀ m n, m < M → n < N → 0 ≤ v m n) ∧ countedEnergy me mg opened ≤ overBoxes M N v ∧
    overBoxes M N v ≤ countedEnergy me mg opened + 152597 / 100000000000 * (M * N) ∧
    (sc = false → overBoxes M N v = countedEnergy me mg opened) := by
  refine C141_energy h.good hr hsc hpos ?_ v hv
  intro d hd e he
  have he' : e ∈ d.events := (List.mem_filter.mp he).1
  rw [h.clip]
  exact parts_convex (h.convex d hd e he') ((h.compact d hd (List.ne_nil_of_mem he')).polygons e he').2 h.xPos h.yPos
    (by have := h.tiles; have := h.xTiles; omega) (by have := h.tiles; have := h.yTiles; omega) (hin d hd e he)

end

/-! ## Sample -/

/-- The surroundings of a sample with footprints that stand on a corner, listed clockwise. -/
def diamondEnv : Surroundings :=
  { wholeEnv with
    clip := convexClip
    foot := fun p => [(p.1 - 3/4000, p.2), (p.1, p.2 + 1/2000), (p.1 + 3/4000, p.2), (p.1, p.2 - 1/2000)] }

theorem diamond_convex (p : Pt) : ConvexPoly (diamondEnv.foot p) := by
  refine Or.inr ?_
  simp only [diamondEnv, ConvexCcw, List.reverse_cons, List.reverse_nil, List.nil_append, List.cons_append, List.length_cons,
    List.length_nil]
  intro k hk r hr
  simp only [List.mem_cons, List.not_mem_nil, or_false] at hr
  interval_cases k <;> rcases hr with rfl | rfl | rfl | rfl <;>
    simp only [cross, List.getD_cons_zero, List.getD_cons_succ, zero_add, Nat.reduceAdd, Nat.reduceMod] <;>
    ring_nf <;> norm_num

theorem diamond_mean (p : Pt) : meanPoint (diamondEnv.foot p) = p := by
  unfold meanPoint diamondEnv
  refine Prod.ext ?_ ?_ <;> simp <;> ring

theorem diamond_call : ConvexCall diamondEnv wideCall 0 (-1/1000) (1/1000) (1/1000) 6 6 1 (some 2) none
    [wholeSample, secondSample] [wholeSample, secondSample] :=
  { asked := wideCall_asked
    xPos := by norm_num
    yPos := by norm_num
    tiles := by omega
    xTiles := by omega
    yTiles := by omega
    xPad := by norm_num
    yPad := by norm_num
    edges := arange_makesEdges
    clip := rfl
    order := fun l => List.Perm.refl l
    opens := fun _ _ => .cons rfl (.cons rfl .nil)
    some := ⟨wholeSample, by simp, by simp [wholeSample]⟩
    compact := by
      have hpads : padBoxes (28 / 10000) (1 / 1000) = 2 := by decide +kernel
      intro d hd hne
      rw [hpads]
      simp only [List.mem_cons, List.not_mem_nil, or_false] at hd
      rcases hd with rfl | rfl
      all_goals exact
        { hasData := by unfold HasData; decide +kernel
          consistent := by decide +kernel
          derived := ⟨by decide +kernel, by decide +kernel, by decide +kernel, by decide +kernel⟩
          flashes := by unfold UniqueIds; decide +kernel
          groups := by unfold UniqueIds; decide +kernel
          areas := by decide +kernel
          pixels := by unfold PixelExact placeOf; decide +kernel
          polygons := by decide +kernel
          narrow := by decide +kernel
          view := by decide +kernel
          event := by decide +kernel
          flash := by decide +kernel }
    convex := fun _ _ _ _ => diamond_convex _
    mean := fun _ _ _ _ => diamond_mean _ }

/-- The sample meets the hypotheses of `C141_convex` and of `C137_convex`. -/
example {runs : List (TileRun TileState ImageFile)} {sh : Dict} {v : Nat → Nat → Rat}
    (hr : gridGlmFlashes (lutGridder diamondEnv) [wholeSample, secondSample] wideCall [] = .ok (runs, sh))
    (hsc : Scaled runs true) (hv : ∀ m n : Nat, m < 6 → n < 6 →
      Shows runs "total_energy" (0 + (m + 1/2) * (1/1000)) (-1/1000 + (n + 1/2) * (1/1000)) (v m n)) :
    countedEnergy (some 2) none [wholeSample, secondSample] ≤ overBoxes 6 6 v := by
  have hin : ∀ d ∈ [wholeSample, secondSample], ∀ e ∈ d.events, ∀ v ∈ diamondEnv.foot (placeOf e),
      0 ≤ v.1 ∧ v.1 ≤ 0 + (6 : Nat) * (1/1000) ∧ -1/1000 ≤ v.2 ∧ v.2 ≤ -1/1000 + (6 : Nat) * (1/1000) := by
    decide +kernel
  exact (C141_convex diamond_call hr hsc (by decide +kernel) (fun d hd e he => hin d hd e (List.mem_filter.mp he).1) v hv).2.1

example : ∃ runs shared', gridGlmFlashes (lutGridder diamondEnv) [wholeSample, secondSample] wideCall [] =
    .ok (runs, shared') ∧ (runs.map fun r => r.ij) = [(0, 0)] := by
  obtain ⟨runs, sh, h1, h2, -⟩ := C137_convex [] diamond_call
  exact ⟨runs, sh, h1, h2⟩

end Verif.Props
