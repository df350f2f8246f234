import Verif.Props.DoubleSwing
import Verif.Props.LineGeometry
import Verif.Props.Catenary3d

/-! # Left and right turns of the line are treated alike (C204) -/

set_option linter.unusedSectionVars false

namespace Verif.Props
open Traverse Swing Verif.GLine Verif.Geo

/-- The point on the other side of the x-axis. -/
def mirroredPoint (p : P3) : P3 := ⟨p.x, -p.y, p.z⟩

/-- The same point of an alignment, turning to the other side. -/
def turnedOver (a : AlignmentPoint ℝ) : AlignmentPoint ℝ := { a with rotation := -a.rotation }

theorem turnExact_neg (r : ℝ) : turnExact (-r) = -turnExact r := by
  unfold turnExact
  rw [abs_neg]
  split_ifs
  · simp
  · ring

/-- The place of a point on the plan. -/
noncomputable def onPlan (p : P3) : ℂ := toC ⟨p.x, p.y⟩

/-- One segment: the vectors of the two lines and their rotations. -/
theorem rotate_mirrored {v w : V2} {r ε : ℝ} (hr : |r| ≤ 360) (hn : ‖toC w‖ = ‖toC v‖)
    (hd : ‖(starRingEnd ℂ) (toC w) - toC v‖ ≤ ε * ‖toC v‖) :
    ‖(starRingEnd ℂ) (toC (w.rotate (-r))) - toC (v.rotate r)‖ ≤ (ε + 8e-14) * ‖toC v‖ := by
  have a := rotate_exact v hr
  have b := rotate_exact w (r := -r) (by rwa [abs_neg])
  rw [hn] at b
  have c : ‖(starRingEnd ℂ) (toC (w.rotate (-r)) - toC w * Complex.exp (turnExact (-r) * Complex.I))‖ ≤
      4e-14 * ‖toC v‖ := by rw [RCLike.norm_conj]; exact b
  have e : (starRingEnd ℂ) (toC w * Complex.exp (turnExact (-r) * Complex.I)) =
      (starRingEnd ℂ) (toC w) * Complex.exp (turnExact r * Complex.I) := by
    rw [map_mul, ← Complex.exp_conj, map_mul, Complex.conj_ofReal, Complex.conj_I, turnExact_neg]
    congr 2
    push_cast
    ring
  rw [map_sub, e] at c
  have f : ‖(starRingEnd ℂ) (toC w) * Complex.exp (turnExact r * Complex.I) - toC v * Complex.exp (turnExact r * Complex.I)‖
      ≤ ε * ‖toC v‖ := by
    rw [← sub_mul, norm_rot]; exact hd
  have g : (starRingEnd ℂ) (toC (w.rotate (-r))) - toC (v.rotate r) =
      ((starRingEnd ℂ) (toC (w.rotate (-r))) - (starRingEnd ℂ) (toC w) * Complex.exp (turnExact r * Complex.I)) +
      ((starRingEnd ℂ) (toC w) * Complex.exp (turnExact r * Complex.I) - toC v * Complex.exp (turnExact r * Complex.I)) -
      (toC (v.rotate r) - toC v * Complex.exp (turnExact r * Complex.I)) := by ring
  rw [g]
  refine (norm_sub_le _ _).trans ?_
  have h := norm_add_le ((starRingEnd ℂ) (toC (w.rotate (-r))) - (starRingEnd ℂ) (toC w) * Complex.exp (turnExact r * Complex.I))
    ((starRingEnd ℂ) (toC w) * Complex.exp (turnExact r * Complex.I) - toC v * Complex.exp (turnExact r * Complex.I))
  linarith

theorem toC_scale (v : V2) (f : ℝ) : toC (v.scale f) = toC v * (f : ℂ) := by
  apply Complex.ext <;> simp [toC, V2.scale]

theorem step_mirrored {p q : P3} {v w : V2} {d z r ε η : ℝ} (hr : |r| ≤ 360) (hn : ‖toC w‖ = ‖toC v‖) (h0 : 0 < ‖toC v‖)
    (hd : ‖(starRingEnd ℂ) (toC w) - toC v‖ ≤ ε * ‖toC v‖) (hz : q.z = p.z)
    (hp : ‖(starRingEnd ℂ) (onPlan q) - onPlan p‖ ≤ η) (h : 0 < d) :
    ‖toC (fromVector q d z (-r) w).2‖ = ‖toC (fromVector p d z r v).2‖ ∧ 0 < ‖toC (fromVector p d z r v).2‖ ∧
    ‖(starRingEnd ℂ) (toC (fromVector q d z (-r) w).2) - toC (fromVector p d z r v).2‖ ≤
      (ε + 8e-14) * ‖toC (fromVector p d z r v).2‖ ∧
    (fromVector q d z (-r) w).1.z = (fromVector p d z r v).1.z ∧
    ‖(starRingEnd ℂ) (onPlan (fromVector q d z (-r) w).1) - onPlan (fromVector p d z r v).1‖ ≤ η + d * (ε + 8e-14) := by
  have mag : ∀ (u : V2) (t : ℝ), ‖toC (u.rotate t)‖ = ‖toC u‖ := fun u t => by
    rw [norm_toC, norm_toC, V2.rotate_magnitude]
  have e1 : toC (fromVector p d z r v).2 = toC (v.rotate r) * ((d / ‖toC v‖ : ℝ) : ℂ) := by
    simp only [fromVector]
    rw [toC_scale, ← norm_toC, mag]
  have e2 : toC (fromVector q d z (-r) w).2 = toC (w.rotate (-r)) * ((d / ‖toC v‖ : ℝ) : ℂ) := by
    simp only [fromVector]
    rw [toC_scale, ← norm_toC, mag, hn]
  have hpos : 0 < d / ‖toC v‖ := div_pos h h0
  have hnd : ‖((d / ‖toC v‖ : ℝ) : ℂ)‖ = d / ‖toC v‖ := by
    rw [Complex.norm_real, Real.norm_eq_abs, abs_of_pos hpos]
  have n1 : ‖toC (fromVector p d z r v).2‖ = d := by
    rw [e1, norm_mul, mag, hnd]; field_simp
  have n2 : ‖toC (fromVector q d z (-r) w).2‖ = d := by
    rw [e2, norm_mul, mag, hnd, hn]; field_simp
  have key : ‖(starRingEnd ℂ) (toC (fromVector q d z (-r) w).2) - toC (fromVector p d z r v).2‖ ≤ d * (ε + 8e-14) := by
    rw [e1, e2, map_mul, Complex.conj_ofReal, ← sub_mul, norm_mul, hnd]
    have := mul_le_mul_of_nonneg_right (rotate_mirrored hr hn hd) hpos.le
    refine this.trans (le_of_eq ?_)
    field_simp
  refine ⟨n2.trans n1.symm, by rw [n1]; exact h, by rw [n1]; linarith, ?_, ?_⟩
  · simp only [fromVector, hz]
  · have s1 : onPlan (fromVector p d z r v).1 = onPlan p + toC (fromVector p d z r v).2 := by
      apply Complex.ext <;> simp [onPlan, toC, fromVector]
    have s2 : onPlan (fromVector q d z (-r) w).1 = onPlan q + toC (fromVector q d z (-r) w).2 := by
      apply Complex.ext <;> simp [onPlan, toC, fromVector]
    rw [s1, s2, map_add]
    have : (starRingEnd ℂ) (onPlan q) + (starRingEnd ℂ) (toC (fromVector q d z (-r) w).2) -
        (onPlan p + toC (fromVector p d z r v).2) = ((starRingEnd ℂ) (onPlan q) - onPlan p) +
        ((starRingEnd ℂ) (toC (fromVector q d z (-r) w).2) - toC (fromVector p d z r v).2) := by ring
    rw [this]
    exact (norm_add_le _ _).trans (add_le_add hp key)

/-- The loop over the points of the two alignments. -/
theorem loop_mirrored (qs : List (AlignmentPoint ℝ)) : ∀ (prev : AlignmentPoint ℝ) (p q : P3) (v w : V2) (ε η : ℝ),
    (prev :: qs).Pairwise (fun a b => a.station < b.station) → (∀ a ∈ prev :: qs, |a.rotation| ≤ 360) →
    ‖toC w‖ = ‖toC v‖ → 0 < ‖toC v‖ → ‖(starRingEnd ℂ) (toC w) - toC v‖ ≤ ε * ‖toC v‖ → q.z = p.z →
    ‖(starRingEnd ℂ) (onPlan q) - onPlan p‖ ≤ η →
    (alignmentLoop (turnedOver prev) q w (qs.map turnedOver)).length = (alignmentLoop prev p v qs).length ∧
    ∀ (i : ℕ) (a : AlignmentPoint ℝ) (x y : P3), qs[i]? = some a → (alignmentLoop prev p v qs)[i]? = some x →
      (alignmentLoop (turnedOver prev) q w (qs.map turnedOver))[i]? = some y →
      y.z = x.z ∧ ‖(starRingEnd ℂ) (onPlan y) - onPlan x‖ ≤ η + (a.station - prev.station) * (ε + 8e-14 * (i + 1)) := by
  induction qs with
  | nil => intro prev p q v w ε η _ _ _ _ _ _ _; exact ⟨rfl, fun i a x y h => by simp at h⟩
  | cons b qs ih =>
    intro prev p q v w ε η hs hr hn h0 hd hz hp
    have hlt : 0 < b.station - prev.station := by
      have := (List.pairwise_cons.1 hs).1 b (by simp)
      linarith
    obtain ⟨g1, g2, g3, g4, g5⟩ := step_mirrored (p := p) (q := q) (z := b.elevation - prev.elevation)
      (hr prev (by simp)) hn h0 hd hz hp hlt
    obtain ⟨k1, k2⟩ := ih b _ _ _ _ _ _ (List.pairwise_cons.1 hs).2 (fun a ha => hr a (by simp [ha])) g1 g2 g3 g4 g5
    simp only [List.map_cons, alignmentLoop, List.length_cons]
    refine ⟨congrArg (· + 1) k1, fun i a x y hi hx hy => ?_⟩
    cases i with
    | zero =>
      simp only [List.getElem?_cons_zero, Option.some.injEq] at hi hx hy
      subst hi; subst hx; subst hy
      refine ⟨g4, g5.trans (le_of_eq ?_)⟩
      simp
    | succ i =>
      simp only [List.getElem?_cons_succ] at hi hx hy
      obtain ⟨m1, m2⟩ := k2 i a x y hi hx hy
      refine ⟨m1, m2.trans ?_⟩
      push_cast
      have hi0 : (0 : ℝ) ≤ (i : ℝ) := Nat.cast_nonneg i
      have := mul_nonneg (mul_nonneg hlt.le (by norm_num : (0:ℝ) ≤ 8e-14)) (by linarith : (0:ℝ) ≤ (i:ℝ) + 1)
      nlinarith

/-- **C204**. Two lines whose alignments differ only in that all rotations have the opposite sign, with origins on
opposite sides of the x-axis at the same place: the coordinates of their alignment points are mirror images.  The
`i`-th point is off by at most 8e-14 times `i` and its distance from the first along the alignment, which comes from
the value of π that the library uses. -/
theorem C204_alignment {g g' : GLine} (hg : Reachable g) (hg' : Reachable g')
    (ho : g'.origin = mirroredPoint g.origin) (ha : g'.line.alignment = g.line.alignment.map turnedOver)
    (hr : ∀ a ∈ g.line.alignment, |a.rotation| ≤ 360) {pts pts' : List P3}
    (h : answer g.pointsXyzAlignment = .val pts) (h' : answer g'.pointsXyzAlignment = .val pts') :
    pts'.length = pts.length ∧
    ∀ (i : ℕ) (a₀ a : AlignmentPoint ℝ) (p p' : P3), g.line.alignment[0]? = some a₀ → g.line.alignment[i]? = some a →
      pts[i]? = some p → pts'[i]? = some p' →
      |p'.x - p.x| ≤ 8e-14 * i * (a.station - a₀.station) ∧ |p'.y + p.y| ≤ 8e-14 * i * (a.station - a₀.station) ∧
      p'.z = p.z := by
  have e := alignment_answer hg.cinv h
  have e' := alignment_answer hg'.cinv h'
  rw [ho, ha] at e'
  have hs := hg.line.inv.align
  subst e; subst e'
  cases hal : g.line.alignment with
  | nil => exact ⟨rfl, fun i a₀ a p p' h0 => by simp at h0⟩
  | cons b qs =>
    rw [hal] at hs hr
    have c0 : onPlan (mirroredPoint g.origin) = (starRingEnd ℂ) (onPlan g.origin) := by
      apply Complex.ext <;> simp [onPlan, toC, mirroredPoint]
    have c1 : (starRingEnd ℂ) (toC ⟨1, 0⟩) = toC ⟨1, 0⟩ := by apply Complex.ext <;> simp [toC]
    have c2 : ‖toC ⟨1, 0⟩‖ = 1 := by rw [norm_toC]; simp [V2.magnitude]
    obtain ⟨k1, k2⟩ := loop_mirrored qs b g.origin (mirroredPoint g.origin) ⟨1, 0⟩ ⟨1, 0⟩ 0 0 hs hr rfl
      (by rw [c2]; norm_num) (by rw [c1]; simp) rfl (by rw [c0]; simp)
    simp only [List.map_cons, pointsAlignment, List.length_cons]
    refine ⟨congrArg (· + 1) k1, fun i a₀ a p p' h0 hi hp hp' => ?_⟩
    simp only [List.getElem?_cons_zero, Option.some.injEq] at h0
    subst h0
    cases i with
    | zero =>
      simp only [List.getElem?_cons_zero, Option.some.injEq] at hi hp hp'
      subst hi; subst hp; subst hp'
      simp [mirroredPoint]
    | succ i =>
      simp only [List.getElem?_cons_succ] at hi hp hp'
      obtain ⟨m1, m2⟩ := k2 i a p p' hi hp hp'
      have B : 0 + (a.station - b.station) * (0 + 8e-14 * ((i : ℝ) + 1)) =
          8e-14 * ((i + 1 : ℕ) : ℝ) * (a.station - b.station) := by push_cast; ring
      rw [B] at m2
      have x1 := (Complex.abs_re_le_norm _).trans m2
      have x2 := (Complex.abs_im_le_norm _).trans m2
      simp only [onPlan, toC, Complex.sub_re, Complex.sub_im, Complex.conj_re, Complex.conj_im] at x1 x2
      refine ⟨x1, ?_, m1⟩
      rw [← abs_neg]
      refine le_trans (le_of_eq ?_) x2
      congr 1
      ring

/-- A line of three points that turns by `r` degrees at the second. -/
noncomputable def exTurning (r y : ℝ) : GLine :=
  ⟨⟨[⟨0, 0, 0⟩, ⟨10, r, 100⟩, ⟨0, 0, 250⟩], [], []⟩, ⟨5, y, 0⟩, false, false, [], []⟩

theorem exTurning_reachable (r y : ℝ) : Reachable (exTurning r y) := by
  refine ⟨[.setOrigin ⟨5, y, 0⟩, .edit noHeap (.addAlignmentPoint ⟨0, 0, 0⟩), .edit noHeap (.addAlignmentPoint ⟨10, r, 100⟩),
    .edit noHeap (.addAlignmentPoint ⟨0, 0, 250⟩)], ?_⟩
  refine .cons trivial rfl (.cons trivial (g' := ⟨⟨[⟨0, 0, 0⟩], [], []⟩, ⟨5, y, 0⟩, false, false, [], []⟩) ?_
    (.cons trivial (g' := ⟨⟨[⟨0, 0, 0⟩, ⟨10, r, 100⟩], [], []⟩, ⟨5, y, 0⟩, false, false, [], []⟩) ?_
      (.cons trivial (g' := exTurning r y) ?_ (.nil _))))
  · simp [Event.next, edit, Line.Op.apply, Line.addAlignmentPoint, Alignment.addPoint, searchPos, setOrigin,
      GLine.new, Line.empty, Line.wrap, edited, resets, Outcome.state?]
  · have h2 : ¬ ((100 : ℝ) < 0) := by norm_num
    simp [Event.next, edit, Line.Op.apply, Line.addAlignmentPoint, Alignment.addPoint, searchPos, h2,
      Line.wrap, edited, resets, Outcome.state?]
  · have h2 : ¬ ((250 : ℝ) < 0) := by norm_num
    have h3 : ¬ ((250 : ℝ) < 100) := by norm_num
    simp [Event.next, edit, Line.Op.apply, Line.addAlignmentPoint, Alignment.addPoint, searchPos, h2, h3,
      Line.wrap, edited, resets, Outcome.state?, exTurning]

/-- A line that turns left by 30 degrees and one that turns right: the last points are mirror images to within 4e-11. -/
example : ∃ (pts pts' : List P3) (p p' : P3), answer (exTurning 30 7).pointsXyzAlignment = .val pts ∧
    answer (exTurning (-30) (-7)).pointsXyzAlignment = .val pts' ∧ pts[2]? = some p ∧ pts'[2]? = some p' ∧
    |p'.x - p.x| ≤ 4e-11 ∧ |p'.y + p.y| ≤ 4e-11 ∧ p'.z = p.z := by
  have R := exTurning_reachable 30 7
  have R' := exTurning_reachable (-30) (-7)
  obtain ⟨pts, h⟩ := C26_alignment_query_returns R (by simp [exTurning])
  obtain ⟨pts', h'⟩ := C26_alignment_query_returns R' (by simp [exTurning])
  obtain ⟨-, k⟩ := C204_alignment R R' (by simp [exTurning, mirroredPoint]) (by simp [exTurning, turnedOver])
    (by
      intro a ha
      simp only [exTurning, List.mem_cons, List.not_mem_nil, or_false] at ha
      rcases ha with rfl | rfl | rfl <;> norm_num) h h'
  have l := (C26_stationing_preserved R h).1
  have l' := (C26_stationing_preserved R' h').1
  have e : (exTurning 30 7).line.alignment.length = 3 := rfl
  have e' : (exTurning (-30) (-7)).line.alignment.length = 3 := rfl
  have i1 : 2 < pts.length := by omega
  have i2 : 2 < pts'.length := by omega
  refine ⟨pts, pts', pts[2], pts'[2], h, h', List.getElem?_eq_getElem i1, List.getElem?_eq_getElem i2, ?_⟩
  have := k 2 ⟨0, 0, 0⟩ ⟨0, 0, 250⟩ _ _ rfl rfl (List.getElem?_eq_getElem i1) (List.getElem?_eq_getElem i2)
  norm_num at this ⊢
  exact ⟨this.1, this.2.1, this.2.2⟩

/-! ## Spans blown to either side -/

theorem rotate_yz_form (v : V3) (a : ℝ) :
    v.rotate .yz a = ⟨v.x, ((V2.mk v.y v.z).rotate a).x, ((V2.mk v.y v.z).rotate a).y⟩ := by
  rw [rotate3_exact v (plane := .yz) (w := ⟨v.y, v.z⟩) rfl]
  rfl

/-- A vector in the vertical plane of the span, swung to either side. -/
theorem swung_either {v : V3} (hy : v.y = 0) {a : ℝ} (ha : |a| ≤ 360) :
    (v.rotate .yz (a * -1)).x = (v.rotate .yz a).x ∧
    |(v.rotate .yz (a * -1)).y + (v.rotate .yz a).y| ≤ 8e-14 * |v.z| ∧
    |(v.rotate .yz (a * -1)).z - (v.rotate .yz a).z| ≤ 8e-14 * |v.z| := by
  rw [rotate_yz_form, rotate_yz_form, hy, mul_neg_one]
  have n : ‖toC ⟨0, v.z⟩‖ = |v.z| := by
    rw [norm_toC]; unfold V2.magnitude; rw [show (0:ℝ) ^ 2 + v.z ^ 2 = v.z ^ 2 by ring, Real.sqrt_sq_eq_abs]
  have b := rotate_exact ⟨0, v.z⟩ ha
  have c := rotate_exact ⟨0, v.z⟩ (r := -a) (by rwa [abs_neg])
  rw [n] at b c
  rw [turnExact_neg] at c
  generalize (V2.mk 0 v.z).rotate a = A at *
  generalize (V2.mk 0 v.z).rotate (-a) = B at *
  have e1 : toC ⟨0, v.z⟩ * Complex.exp ((turnExact a : ℝ) * Complex.I) =
      ⟨-(v.z * Real.sin (turnExact a)), v.z * Real.cos (turnExact a)⟩ := by
    rw [Complex.exp_mul_I, ← Complex.ofReal_cos, ← Complex.ofReal_sin]
    apply Complex.ext <;> simp [toC] <;> exact Or.inl rfl
  have e2 : toC ⟨0, v.z⟩ * Complex.exp (((-turnExact a : ℝ) : ℂ) * Complex.I) =
      ⟨v.z * Real.sin (turnExact a), v.z * Real.cos (turnExact a)⟩ := by
    rw [Complex.exp_mul_I, ← Complex.ofReal_cos, ← Complex.ofReal_sin, Real.cos_neg, Real.sin_neg]
    apply Complex.ext <;> simp [toC] <;> exact Or.inl rfl
  rw [e1] at b
  rw [e2] at c
  have b1 := abs_le.1 ((Complex.abs_re_le_norm _).trans b)
  have b2 := abs_le.1 ((Complex.abs_im_le_norm _).trans b)
  have c1 := abs_le.1 ((Complex.abs_re_le_norm _).trans c)
  have c2 := abs_le.1 ((Complex.abs_im_le_norm _).trans c)
  simp only [toC, Complex.sub_re, Complex.sub_im] at b1 b2 c1 c2
  refine ⟨rfl, ?_, ?_⟩
  · rw [abs_le]; constructor <;> linarith [b1.1, b1.2, c1.1, c1.2]
  · rw [abs_le]; constructor <;> linarith [b2.1, b2.2, c2.1, c2.2]

theorem refresh_setDirection (k : Catenary3d) (d : Direction) : (k.setDirection d).refresh = k.refresh.setDirection d := by
  unfold Catenary3d.refresh Catenary3d.setDirection
  split <;> rfl

theorem rotate_xz_y (v : V3) (a : ℝ) : (v.rotate .xz a).y = v.y := by
  rw [rotate3_exact v (plane := .xz) (w := ⟨v.x, v.z⟩) rfl]
  rfl

theorem z_le_magnitude (v : V3) : |v.z| ≤ v.magnitude := by
  unfold V3.magnitude
  rw [← Real.sqrt_sq_eq_abs]
  exact Real.sqrt_le_sqrt (by nlinarith [sq_nonneg v.x, sq_nonneg v.y])

/-- **C204**. A catenary blown to one side and the same blown to the other, as chosen with its direction: every point
of the curve is the mirror image of the other, off by at most 8e-14 of its distance from the chord; the points of the
chord are the same. -/
theorem C204_coordinate (k : Catenary3d) (hw : ¬ (k.weightUnit.z = 0 ∧ k.weightUnit.y = 0)) (p : ℝ) :
    (k.setDirection .negative).coordinateChord p = (k.setDirection .positive).coordinateChord p ∧
    ((k.setDirection .negative).coordinate p).x = ((k.setDirection .positive).coordinate p).x ∧
    (let c := (k.setDirection .positive).coordinate p
     let c' := (k.setDirection .negative).coordinate p
     let o := (k.setDirection .positive).coordinateChord p
     let D := 8e-14 * V3.magnitude ⟨c.x - o.x, c.y - o.y, c.z - o.z⟩
     |c'.y - o.y + (c.y - o.y)| ≤ D ∧ |c'.z - c.z| ≤ D) := by
  unfold Catenary3d.coordinateChord Catenary3d.coordinate
  rw [refresh_setDirection, refresh_setDirection]
  have hw' : ¬ (k.refresh.weightUnit.z = 0 ∧ k.refresh.weightUnit.y = 0) := by
    have : k.refresh.weightUnit = k.weightUnit := by unfold Catenary3d.refresh; split <;> rfl
    rw [this]; exact hw
  generalize k.refresh = m at *
  have ha : |m.weightUnit.angle .zy| ≤ 360 := by
    have := C29_angle_range ⟨m.weightUnit.z, m.weightUnit.y⟩ hw'
    show |(V2.mk m.weightUnit.z m.weightUnit.y).angle| ≤ 360
    rw [abs_le]; constructor <;> linarith [this.1, this.2]
  have hchord : ∀ d, (m.setDirection d).coordinateChordBody p = m.coordinateChordBody p := fun d => rfl
  have E : ∀ d, (m.setDirection d).coordinateBody p =
      ⟨(m.coordinateChordBody p).x + ((V3.rotate ⟨(m.catenary2d.coordinate p true).x - (m.catenary2d.coordinateChord p true).x, 0,
          (m.catenary2d.coordinate p true).y - (m.catenary2d.coordinateChord p true).y⟩ .xz
            (m.spacing.angle .xz - m.catenary2d.spacing.angle)).rotate .yz
              (if d = .negative then m.weightUnit.angle .zy * -1 else m.weightUnit.angle .zy)).x,
        (m.coordinateChordBody p).y + ((V3.rotate ⟨(m.catenary2d.coordinate p true).x - (m.catenary2d.coordinateChord p true).x, 0,
          (m.catenary2d.coordinate p true).y - (m.catenary2d.coordinateChord p true).y⟩ .xz
            (m.spacing.angle .xz - m.catenary2d.spacing.angle)).rotate .yz
              (if d = .negative then m.weightUnit.angle .zy * -1 else m.weightUnit.angle .zy)).y,
        (m.coordinateChordBody p).z + ((V3.rotate ⟨(m.catenary2d.coordinate p true).x - (m.catenary2d.coordinateChord p true).x, 0,
          (m.catenary2d.coordinate p true).y - (m.catenary2d.coordinateChord p true).y⟩ .xz
            (m.spacing.angle .xz - m.catenary2d.spacing.angle)).rotate .yz
              (if d = .negative then m.weightUnit.angle .zy * -1 else m.weightUnit.angle .zy)).z⟩ := fun d => rfl
  have hy := rotate_xz_y ⟨(m.catenary2d.coordinate p true).x - (m.catenary2d.coordinateChord p true).x, 0,
          (m.catenary2d.coordinate p true).y - (m.catenary2d.coordinateChord p true).y⟩
            (m.spacing.angle .xz - m.catenary2d.spacing.angle)
  rw [hchord, hchord, E, E, if_pos rfl, if_neg (by decide)]
  generalize V3.rotate ⟨(m.catenary2d.coordinate p true).x - (m.catenary2d.coordinateChord p true).x, 0,
          (m.catenary2d.coordinate p true).y - (m.catenary2d.coordinateChord p true).y⟩ .xz
            (m.spacing.angle .xz - m.catenary2d.spacing.angle) = v at *
  obtain ⟨s1, s2, s3⟩ := swung_either hy ha
  have hm : V3.magnitude ⟨(v.rotate .yz (m.weightUnit.angle .zy)).x, (v.rotate .yz (m.weightUnit.angle .zy)).y,
      (v.rotate .yz (m.weightUnit.angle .zy)).z⟩ = v.magnitude := V3.rotate_magnitude v .yz _
  have hz := mul_le_mul_of_nonneg_left (z_le_magnitude v) (by norm_num : (0:ℝ) ≤ 8e-14)
  refine ⟨rfl, by rw [s1], ?_⟩
  simp only [add_sub_cancel_left, hm, add_sub_add_left_eq_sub]
  exact ⟨s2.trans hz, s3.trans hz⟩

/-- **C204**. The tangents of a catenary blown to either side are mirror images to within 8e-14. -/
theorem C204_tangent (k : Catenary3d) (p : ℝ) (d : Direction) :
    ((k.setDirection .negative).tangentVector p d).x = ((k.setDirection .positive).tangentVector p d).x ∧
    |((k.setDirection .negative).tangentVector p d).y + ((k.setDirection .positive).tangentVector p d).y| ≤
      8e-14 * ((k.setDirection .positive).tangentVector p d).magnitude ∧
    |((k.setDirection .negative).tangentVector p d).z - ((k.setDirection .positive).tangentVector p d).z| ≤
      8e-14 * ((k.setDirection .positive).tangentVector p d).magnitude := by
  unfold Catenary3d.tangentVector
  rw [refresh_setDirection, refresh_setDirection]
  generalize k.refresh = m
  have ha : |m.swingAngleBody| ≤ 360 := by
    have b : |Real.arctan (m.weightUnit.y / m.weightUnit.z)| ≤ 2 := by
      rw [abs_le]
      constructor <;> linarith [Real.neg_pi_div_two_lt_arctan (m.weightUnit.y / m.weightUnit.z),
        Real.arctan_lt_pi_div_two (m.weightUnit.y / m.weightUnit.z), Real.pi_le_four]
    exact (degrees_le b).trans (by norm_num)
  have E : ∃ v : V3, v.y = 0 ∧ ∀ e, (m.setDirection e).tangentVectorBody p d =
      if m.weightUnit.y ≠ 0 then v.rotate .yz (if e = .negative then m.swingAngleBody * -1 else m.swingAngleBody)
      else v := by
    refine ⟨if m.spacing.z ≠ 0 ∧ m.weightUnit.y ≠ 0 then
      V3.rotate ⟨(m.catenary2d.tangentVector p d).x, 0, (m.catenary2d.tangentVector p d).y⟩ .xz
        (m.spacing.angle .xz true - m.catenary2d.spacing.angle true)
      else ⟨(m.catenary2d.tangentVector p d).x, 0, (m.catenary2d.tangentVector p d).y⟩, ?_, fun e => rfl⟩
    split
    · exact rotate_xz_y _ _
    · rfl
  obtain ⟨v, hy, E⟩ := E
  rw [E, E, if_pos (show Direction.negative = .negative from rfl),
    if_neg (show ¬ Direction.positive = .negative by decide)]
  by_cases hw : m.weightUnit.y ≠ 0
  · rw [if_pos hw, if_pos hw, V3.rotate_magnitude]
    obtain ⟨s1, s2, s3⟩ := swung_either hy ha
    have hz := mul_le_mul_of_nonneg_left (z_le_magnitude v) (by norm_num : (0:ℝ) ≤ 8e-14)
    exact ⟨s1, s2.trans hz, s3.trans hz⟩
  · rw [if_neg hw, if_neg hw, hy]
    have := mul_nonneg (by norm_num : (0:ℝ) ≤ 8e-14) (Real.sqrt_nonneg (v.x ^ 2 + v.y ^ 2 + v.z ^ 2))
    refine ⟨rfl, ?_, ?_⟩
    · rw [add_zero, abs_zero]; exact this
    · rw [sub_self, abs_zero]; exact this

/-- **C204**. What a catenary says of its length, sag and tensions does not depend on the side it is blown to. -/
theorem C204_scalars (k : Catenary3d) (d : Direction) (p : ℝ) :
    (k.setDirection d).length = k.length ∧ (k.setDirection d).constant = k.constant ∧
    (k.setDirection d).lengthSlack = k.lengthSlack ∧ (k.setDirection d).sag = k.sag ∧
    (k.setDirection d).tension p = k.tension p ∧ (k.setDirection d).swingAngle = k.swingAngle := by
  unfold Catenary3d.length Catenary3d.constant Catenary3d.lengthSlack Catenary3d.sag Catenary3d.tension Catenary3d.swingAngle
  rw [refresh_setDirection]
  exact ⟨rfl, rfl, rfl, rfl, rfl, rfl⟩

/-- The inclined span with a load that is not vertical: the heights of the two curves are the same but for 8e-14 of the
distance from the chord, and so is the displacement to the sides. -/
example (p : ℝ) : ∃ D, 0 ≤ D ∧
    |((exCat3.setDirection .negative).coordinate p).z - ((exCat3.setDirection .positive).coordinate p).z| ≤ 8e-14 * D ∧
    exCat3.Reachable ∧ exCat3.weightUnit.y ≠ 0 :=
  ⟨_, Real.sqrt_nonneg _, (C204_coordinate exCat3 (fun h => by
    have : (3:ℝ) = 0 := h.1
    norm_num at this) p).2.2.2, exCat3_reachable, by
    show √7 ≠ 0
    positivity⟩

end Verif.Props
