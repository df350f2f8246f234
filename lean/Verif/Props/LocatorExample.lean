import Verif.Props.LocatorSwing
import Verif.Props.LineGeometry
import Mathlib.Analysis.SpecialFunctions.Trigonometric.Series

/-! # A located cable -/

set_option linter.unusedSectionVars false

namespace Verif.Props
open Verif Verif.Units Verif.Locator Verif.GLine Verif.Geo

/-- A pole with an arm of length `y`. -/
noncomputable def exPole (ty : HardwareType) (t y : ℝ) : LineStructure ℝ :=
  ⟨[some ⟨ty⟩], 0, 0, 0, t, some ⟨[⟨0, y, 0⟩], 50⟩⟩

theorem exPole_reachable (ty : HardwareType) (t y : ℝ) : LineStructure.Reachable (exPole ty t y) := by
  have h0 := LineStructure.Reachable.new (0 : ℝ)
  have h1 := h0.step (s' := ⟨[none], 0, 0, 0, 0, some ⟨[⟨0, y, 0⟩], 50⟩⟩) (.setStructure (some ⟨[⟨0, y, 0⟩], 50⟩))
    (by simp [LineStructure.Op.apply, LineStructure.setStructure, LineStructure.new, LineStructure.resize, Outcome.state?])
  have h2 := h1.step (s' := ⟨[some ⟨ty⟩], 0, 0, 0, 0, some ⟨[⟨0, y, 0⟩], 50⟩⟩) (.attach 0 (some ⟨ty⟩))
    (by simp [LineStructure.Op.apply, LineStructure.attachHardware, LineStructure.isValidIndex, validIndex,
      LineStructure.putHardware, Outcome.state?])
  exact h2.step (.setStation t) rfl

/-- The poles. -/
noncomputable def exPoles (u : ℝ) : List (Ptr × LineStructure ℝ) :=
  [(1, exPole .deadEnd 45 (-20)), (2, exPole .suspension 50 0), (3, exPole .deadEnd 90 u)]

/-- The line cable. -/
def exStrung : LineCable := ⟨[⟨1, 0⟩, ⟨2, 0⟩, ⟨3, 0⟩], 0⟩

/-- A straight alignment with three poles and one line cable, its origin at height `e`. -/
noncomputable def exRoute (u e : ℝ) : GLine :=
  ⟨⟨[⟨0, 0, 0⟩, ⟨0, 0, 100⟩], exPoles u, [exStrung]⟩, ⟨0, 0, e⟩, false, false, [], []⟩

theorem exRoute_reachable (u e : ℝ) : GLine.Reachable (exRoute u e) := by
  have r0 : GLine.Reachable GLine.new := ⟨[], .nil _⟩
  have r1 := reachable_step r0 (.setOrigin ⟨0, 0, e⟩) trivial rfl
  have r2 := reachable_step r1 (g' := ⟨⟨[⟨0, 0, 0⟩], [], []⟩, ⟨0, 0, e⟩, false, false, [], []⟩)
    (.edit noHeap (.addAlignmentPoint ⟨0, 0, 0⟩)) trivial
    (by simp [Event.next, edit, Line.Op.apply, Line.addAlignmentPoint, Alignment.addPoint, searchPos, setOrigin,
      GLine.new, Line.empty, Line.wrap, edited, resets, Outcome.state?])
  have n1 : ¬ ((100 : ℝ) < 0) := by norm_num
  have r3 := reachable_step r2 (g' := ⟨⟨[⟨0, 0, 0⟩, ⟨0, 0, 100⟩], [], []⟩, ⟨0, 0, e⟩, false, false, [], []⟩)
    (.edit noHeap (.addAlignmentPoint ⟨0, 0, 100⟩)) trivial
    (by simp [Event.next, edit, Line.Op.apply, Line.addAlignmentPoint, Alignment.addPoint, searchPos, n1,
      Line.wrap, edited, resets, Outcome.state?])
  have m1 : (45 : ℝ) ≤ 100 := by norm_num
  have m2 : (50 : ℝ) ≤ 100 := by norm_num
  have m3 : (90 : ℝ) ≤ 100 := by norm_num
  have m4 : ¬ (50 : ℝ) < 45 := by norm_num
  have m5 : ¬ (90 : ℝ) < 45 := by norm_num
  have m6 : ¬ (90 : ℝ) < 50 := by norm_num
  have r4 := reachable_step r3 (g' := ⟨⟨[⟨0, 0, 0⟩, ⟨0, 0, 100⟩], [(1, exPole .deadEnd 45 (-20))], []⟩, ⟨0, 0, e⟩, false, false, [], []⟩)
    (.edit noHeap (.addLineStructure 1 (exPole .deadEnd 45 (-20))))
    ⟨by decide, by simp, exPole_reachable _ _ _⟩
    (by simp [Event.next, edit, Line.Op.apply, Line.addLineStructure, Alignment.isValidStation, searchPos,
      Line.wrap, edited, resets, Outcome.state?, exPole, m1])
  have r5 := reachable_step r4 (g' := ⟨⟨[⟨0, 0, 0⟩, ⟨0, 0, 100⟩],
      [(1, exPole .deadEnd 45 (-20)), (2, exPole .suspension 50 0)], []⟩, ⟨0, 0, e⟩, false, false, [], []⟩)
    (.edit noHeap (.addLineStructure 2 (exPole .suspension 50 0)))
    ⟨by decide, by simp, exPole_reachable _ _ _⟩
    (by simp [Event.next, edit, Line.Op.apply, Line.addLineStructure, Alignment.isValidStation, searchPos,
      Line.wrap, edited, resets, Outcome.state?, exPole, m2, m4])
  have r6 := reachable_step r5 (g' := ⟨⟨[⟨0, 0, 0⟩, ⟨0, 0, 100⟩], exPoles u, []⟩, ⟨0, 0, e⟩, false, false, [], []⟩)
    (.edit noHeap (.addLineStructure 3 (exPole .deadEnd 90 u)))
    ⟨by decide, by simp, exPole_reachable _ _ _⟩
    (by simp [Event.next, edit, Line.Op.apply, Line.addLineStructure, Alignment.isValidStation, searchPos,
      Line.wrap, edited, resets, Outcome.state?, exPole, exPoles, m3, m5, m6])
  refine reachable_step r6 (.edit noHeap (.addLineCable exStrung)) ?_ ?_
  · refine ⟨?_, by simp [exStrung]⟩
    simp only [exStrung, List.pairwise_cons, List.mem_cons, List.not_mem_nil, or_false, forall_eq_or_imp, forall_eq,
      IsEmpty.forall_iff, implies_true, List.Pairwise.nil, and_true]
    refine ⟨⟨⟨_, _, rfl, rfl, ?_⟩, ⟨_, _, rfl, rfl, ?_⟩⟩, ⟨_, _, rfl, rfl, ?_⟩⟩
    all_goals (simp only [exPole]; norm_num)
  · simp [Event.next, edit, Line.Op.apply, Line.addLineCable, LineCable.validateConnections,
      LineCable.checkConnections, LineCable.checkConnection, Line.heap, Line.lookup, exPoles, exPole, exStrung,
      validIndex, Line.checkOpen, Line.indexLineStructure, Line.indexLoop, Line.hasConnection, Line.cablePos,
      Line.wrap, edited, resets, Outcome.state?, exRoute]

/-- The line with its coordinates computed. -/
noncomputable def exRoute' (u e : ℝ) : GLine :=
  ⟨(exRoute u e).line, ⟨0, 0, e⟩, true, true, [⟨0, 0, e⟩, ⟨100, 0, e⟩],
    [some ⟨45, 0, e⟩, some ⟨50, 0, e⟩, some ⟨90, 0, e⟩]⟩

theorem rotate_none (v : V2) : v.rotate 0 = v := by
  unfold V2.rotate
  rw [if_pos (by norm_num)]

theorem exCorners (e : ℝ) : pointsAlignment ⟨0, 0, e⟩ [⟨0, 0, 0⟩, ⟨0, 0, 100⟩] = [⟨0, 0, e⟩, ⟨100, 0, e⟩] := by
  have hm : (V2.mk 1 0).magnitude = 1 := by simp [V2.magnitude]
  simp [pointsAlignment, alignmentLoop, fromVector, rotate_none, hm, V2.scale]

theorem exStations (e : ℝ) {t : ℝ} (h0 : 0 < t) (h1 : t < 100) :
    fromStation [⟨0, 0, 0⟩, ⟨0, 0, 100⟩] [⟨0, 0, e⟩, ⟨100, 0, e⟩] t = .val (some ⟨t, 0, e⟩) := by
  have hm : (V2.mk 1 0).magnitude = 1 := by simp [V2.magnitude]
  have a1 : ¬ t = 0 := h0.ne'
  have a2 : ¬ t = 100 := h1.ne
  simp [fromStation, Alignment.indexSegment, Alignment.isValidStation, Alignment.segmentPos, h0.le, h1.le, a1, a2,
    fromVector, rotate_none, hm, V2.scale, not_le.2 h0]

theorem exRoute_refresh (u e : ℝ) : (exRoute u e).refresh = .ok (exRoute' u e) true := by
  unfold refresh GLine.update updateA
  simp only [exRoute, GLine.isUpdated, Bool.or_self, if_true, stations, exPoles, exPole, List.map_cons, List.map_nil,
    exCorners, structuresLoop, exStations e (t := 45) (by norm_num) (by norm_num),
    exStations e (t := 50) (by norm_num) (by norm_num), exStations e (t := 90) (by norm_num) (by norm_num)]
  simp [exRoute', exRoute, exPoles, exPole]

theorem exRoute_attachment (u e : ℝ) (i : ℕ) (ty : HardwareType) (t y : ℝ) (p : Ptr) (h0 : 0 < t) (h1 : t < 100)
    (hi : (exPoles u)[i]? = some (p, exPole ty t y)) (hc : (exRoute' u e).cacheS[i]? = some (some ⟨t, 0, e⟩)) :
    (exRoute u e).pointXyzLineStructureAttachment i 0 = .ok (exRoute' u e) (some ⟨t, -y, 50 + e⟩) := by
  have a1 : ¬ t = 0 := h0.ne'
  have a2 : ¬ t = 100 := h1.ne
  have hil : i < 3 := (List.getElem?_eq_some_iff.1 hi).1
  have hm : (V2.mk 100 0).magnitude = 100 := by
    unfold V2.magnitude
    simp
  have hang : ((V2.mk 100 0).scale (1 / 100)).angle = 0 := by
    rw [V2.angle_scale _ (by norm_num)]
    exact (C29_axis_angles 100 (by norm_num)).1
  have hv : vectorStructure [⟨0, 0, 0⟩, ⟨0, 0, 100⟩] [⟨0, 0, e⟩, ⟨100, 0, e⟩] t =
      .val (some ((V2.mk 100 0).scale (1 / 100))) := by
    simp [vectorStructure, Alignment.indexSegment, Alignment.isValidStation, Alignment.segmentPos, h0.le, h1.le, a1, a2,
      not_le.2 h0, vectorSegment, hm]
  have hvi : validIndex (i : ℤ) (exPoles u).length = true := validIndex_natCast.2 hil
  unfold pointXyzLineStructureAttachment query
  rw [exRoute_refresh]
  simp only [attachmentPoint]
  have hl : (exRoute' u e).line.structures = exPoles u := rfl
  have hal : (exRoute' u e).line.alignment = [⟨0, 0, 0⟩, ⟨0, 0, 100⟩] := rfl
  have hca : (exRoute' u e).cacheA = [⟨0, 0, e⟩, ⟨100, 0, e⟩] := rfl
  rw [hl, hvi, if_neg (by simp), Int.toNat_natCast, hi]
  simp only [exPole, validIndex, List.length_singleton]
  simp only [hal, hca, hv, hc, hang, attachmentLocal, rotate_none]
  simp

/-- Hardware of length one everywhere. -/
def exOnes : Assemblies := fun _ _ => 1

/-- What the locator reads. -/
noncomputable def exData (u e : ℝ) : List (P3 × ℝ) :=
  [(⟨45, 20, 50 + e⟩, 1), (⟨50, 0, 50 + e⟩, 1), (⟨90, -u, 50 + e⟩, 1)]

theorem exRoute_updated (u e : ℝ) : (exRoute' u e).isUpdated = true := rfl

theorem exConnection (u e : ℝ) (i : ℕ) (ty : HardwareType) (t y : ℝ) (p : Ptr) (h0 : 0 < t) (h1 : t < 100)
    (hi : (exPoles u)[i]? = some (p, exPole ty t y)) (hc : (exRoute' u e).cacheS[i]? = some (some ⟨t, 0, e⟩))
    (hx : (exRoute u e).line.indexLineStructure p = i) :
    connectionData exOnes (exRoute u e) ⟨p, 0⟩ = .ok (exRoute' u e) (some (⟨t, -y, 50 + e⟩, 1)) ∧
    connectionData exOnes (exRoute' u e) ⟨p, 0⟩ = .ok (exRoute' u e) (some (⟨t, -y, 50 + e⟩, 1)) := by
  have h := exRoute_attachment u e i ty t y p h0 h1 hi hc
  have hd : connectionData exOnes (exRoute u e) ⟨p, 0⟩ = .ok (exRoute' u e) (some (⟨t, -y, 50 + e⟩, 1)) := by
    unfold connectionData
    simp only [hx]
    rw [h]
    simp only
    rw [if_neg (by linarith)]
    have hl : (exRoute' u e).line.structures = exPoles u := rfl
    rw [hl, Int.toNat_natCast, hi]
    simp [exPole, validIndex, exOnes]
  exact ⟨hd, by rw [← (connectionData_ok hd).2.2.1]; exact hd⟩

theorem exConnections (u e : ℝ) :
    connectionLoop exOnes exStrung.connections (exRoute u e) [] = .ok (exRoute' u e, exData u e) true := by
  have c1 := exConnection u e 0 .deadEnd 45 (-20) 1 (by norm_num) (by norm_num) rfl rfl rfl
  have c2 := exConnection u e 1 .suspension 50 0 2 (by norm_num) (by norm_num) rfl rfl rfl
  have c3 := exConnection u e 2 .deadEnd 90 u 3 (by norm_num) (by norm_num) rfl rfl rfl
  simp only [exStrung, connectionLoop, c1.1, c2.2, c3.2, exData, List.nil_append, List.cons_append, neg_neg, neg_zero]


/-! ## The tensions are small -/

theorem V3.add_magnitude (p q : V3) :
    (V3.mk (p.x + q.x) (p.y + q.y) (p.z + q.z)).magnitude ≤ p.magnitude + q.magnitude := by
  unfold V3.magnitude
  apply Real.sqrt_le_iff.2
  refine ⟨by positivity, ?_⟩
  have hp : √(p.x ^ 2 + p.y ^ 2 + p.z ^ 2) ^ 2 = p.x ^ 2 + p.y ^ 2 + p.z ^ 2 := Real.sq_sqrt (by positivity)
  have hq : √(q.x ^ 2 + q.y ^ 2 + q.z ^ 2) ^ 2 = q.x ^ 2 + q.y ^ 2 + q.z ^ 2 := Real.sq_sqrt (by positivity)
  have key : p.x * q.x + p.y * q.y + p.z * q.z ≤ √(p.x ^ 2 + p.y ^ 2 + p.z ^ 2) * √(q.x ^ 2 + q.y ^ 2 + q.z ^ 2) := by
    rw [← Real.sqrt_mul (by positivity)]
    apply Real.le_sqrt_of_sq_le
    nlinarith [sq_nonneg (p.x * q.y - p.y * q.x), sq_nonneg (p.x * q.z - p.z * q.x), sq_nonneg (p.y * q.z - p.z * q.y)]
  simp only
  nlinarith

theorem tension_small {k : Catenary2d} (R : k.Reachable) (P : k.Positive) (hz : k.z ≤ 0.1)
    (hs : |k.spacing.y| ≤ 0.2 * k.spacing.x) :
    k.tension 0 ≤ 1.2 * k.tensionHorizontal ∧ k.tension 1 ≤ 1.2 * k.tensionHorizontal := by
  have z0 := Catenary2d.z_pos P
  have hsinh : k.z ≤ Real.sinh k.z := Real.self_le_sinh_iff.2 z0.le
  have hx := P.a
  have hm : |k.mid| ≤ 0.2 := by
    have h1 : |k.spacing.y * k.z / (k.spacing.x * Real.sinh k.z)| ≤ 0.2 := by
      rw [abs_div, abs_mul, abs_mul, abs_of_pos z0, abs_of_pos hx,
        abs_of_pos (lt_of_lt_of_le z0 hsinh), div_le_iff₀ (mul_pos hx (lt_of_lt_of_le z0 hsinh))]
      calc |k.spacing.y| * k.z ≤ 0.2 * k.spacing.x * Real.sinh k.z :=
            mul_le_mul hs hsinh z0.le (by positivity)
        _ = _ := by ring
    have h2 : (0.2 : ℝ) ≤ Real.sinh 0.2 := Real.self_le_sinh_iff.2 (by norm_num)
    rw [abs_le] at h1 ⊢
    constructor
    · rw [← Real.arsinh_sinh (-0.2), Real.sinh_neg]
      exact Real.arsinh_le_arsinh.2 (by linarith [h1.1])
    · rw [← Real.arsinh_sinh 0.2]
      exact Real.arsinh_le_arsinh.2 (by linarith [h1.2])
  have hc : ∀ u : ℝ, |u| ≤ 0.3 → Real.cosh u ≤ 1.2 := by
    intro u hu
    refine le_trans (Real.cosh_le_exp_half_sq u) ?_
    have h2 : u ^ 2 ≤ 0.09 := by
      rw [← sq_abs]
      nlinarith [abs_nonneg u]
    refine le_trans (Real.exp_le_exp.2 (by linarith : u ^ 2 / 2 ≤ 0.045)) ?_
    have := Real.one_sub_le_exp_neg 0.045
    rw [Real.exp_neg] at this
    have he := Real.exp_pos 0.045
    have h3 : (1 - 0.045) * Real.exp 0.045 ≤ 1 := by
      calc _ ≤ (Real.exp 0.045)⁻¹ * Real.exp 0.045 := mul_le_mul_of_nonneg_right this he.le
        _ = 1 := inv_mul_cancel₀ he.ne'
    linarith
  obtain ⟨m1, m2⟩ := abs_le.1 hm
  unfold Catenary2d.tension
  rw [R.refresh_eq, Catenary2d.tensionBody_update P, Catenary2d.tensionBody_update P, Catenary2d.coordinateX_zero P,
    Catenary2d.coordinateX_one P, Catenary2d.left_div P, Catenary2d.right_div P]
  have hh := P.h
  constructor
  · have := hc (k.mid - k.z) (by rw [abs_le]; constructor <;> linarith)
    nlinarith
  · have := hc (k.mid + k.z) (by rw [abs_le]; constructor <;> linarith)
    nlinarith

/-- The unit weight. -/
noncomputable def exLight : V3 := ⟨0, 0, 0.001⟩

theorem exLight_magnitude : exLight.magnitude = 0.001 := by
  unfold V3.magnitude exLight
  simp only
  rw [show (0:ℝ) ^ 2 + 0 ^ 2 + 0.001 ^ 2 = 0.001 ^ 2 by norm_num]
  exact Real.sqrt_sq (by norm_num)

theorem span_small {p q : P3} (h0 : 15 ≤ (across p q).magnitude) (h1 : (across p q).magnitude ≤ 50)
    (hz : |q.z - p.z| ≤ 2) :
    ((spanBetween .positive 0.5 exLight p q).tensionVector 0 .positive).magnitude ≤ 0.6 ∧
    ((spanBetween .positive 0.5 exLight p q).tensionVector 1 .negative).magnitude ≤ 0.6 := by
  have R := spanBetween_reachable (d := .positive) (h := 0.5) (w := exLight) (p := p) (q := q)
  have P := spanBetween_physical (d := .positive) (h := 0.5) (w := exLight) (p := p) (q := q) (by norm_num)
    rfl (le_refl _) (by norm_num [exLight]) (by linarith)
  rw [C53_tension_magnitude R P 0 .positive (by simp), C53_tension_magnitude R P 1 .negative (by simp)]
  obtain ⟨-, -, -, -, -, -, e, -⟩ := C51_vertical R P rfl
  rw [e, e]
  set k := ((Catenary2d.new.setSpacing ⟨(spanBetween .positive 0.5 exLight p q).spacing.x,
    (spanBetween .positive 0.5 exLight p q).spacing.z⟩).setTension
      (spanBetween .positive 0.5 exLight p q).tensionHorizontal).setWeight
        (spanBetween .positive 0.5 exLight p q).weightUnit.z with hk
  have eh : k.tensionHorizontal = 0.5 := rfl
  have ew : k.weightUnit = 0.001 := rfl
  have ex : k.spacing.x = (across p q).magnitude := rfl
  have ey : k.spacing.y = q.z - p.z := rfl
  have R2 : k.Reachable := ⟨[.setSpacing _, .setTension _, .setWeight _], rfl, rfl⟩
  have P2 : k.Positive := ⟨by rw [eh]; norm_num, by rw [ew]; norm_num, by rw [ex]; linarith⟩
  have := tension_small R2 P2 (by unfold Catenary2d.z; rw [eh, ew, ex]; norm_num; linarith)
    (by rw [ex, ey]; linarith)
  rw [eh] at this
  constructor <;> linarith [this.1, this.2]

theorem pull_small {b c a : P3} (h0 : 15 ≤ (across b c).magnitude) (h1 : (across b c).magnitude ≤ 50)
    (h2 : 15 ≤ (across c a).magnitude) (h3 : (across c a).magnitude ≤ 50) (hz : |c.z - b.z| ≤ 2)
    (hz' : |a.z - c.z| ≤ 2) (t : ℝ) (d : Direction) :
    (EquilibriumSolver.tensionCable t d (spanBetween .positive 0.5 exLight b c)
      (spanBetween .positive 0.5 exLight c a)).magnitude ≤ 1.2 := by
  have hb := (span_small h0 h1 hz).2
  have ha := (span_small h2 h3 hz').1
  unfold EquilibriumSolver.tensionCable
  refine le_trans (V3.add_magnitude _ _) ?_
  rw [V3.rotate_magnitude, V3.rotate_magnitude]
  linarith

/-- The imbalance at one point. -/
theorem imbalance_small {b c a : P3} (h0 : 15 ≤ (across b c).magnitude) (h1 : (across b c).magnitude ≤ 50)
    (h2 : 15 ≤ (across c a).magnitude) (h3 : (across c a).magnitude ≤ 50) (hz : |c.z - b.z| ≤ 2)
    (hz' : |a.z - c.z| ≤ 2) (z0 : ℝ) : ∃ s z t,
      (equilibriumAt .positive 0.5 exLight b c a z0).angleEquilibriumQ = .ok s z ∧
      s.tensionImbalance = .ok s t ∧ 0 ≤ t ∧ t < 5 := by
  set e := equilibriumAt .positive 0.5 exLight b c a z0 with he
  set t := EquilibriumSolver.tensionCable e.angleCatenaries e.direction (spanBetween .positive 0.5 exLight b c)
    (spanBetween .positive 0.5 exLight c a) with ht
  set k := EquilibriumSolver.tensionHardware e.angleHardware e.direction t with hk
  have h4 : t.magnitude ≤ 1.2 := pull_small h0 h1 h2 h3 hz hz' _ _
  have h5 : k.magnitude = t.magnitude := by
    rw [hk]
    unfold EquilibriumSolver.tensionHardware
    simp only
    rw [V3.rotate_magnitude, V3.magnitude_scale _ (V3.magnitude_nonneg _), V3.rotate_magnitude]
    have : (V3.mk 0 0 1).magnitude = 1 := by simp [V3.magnitude]
    rw [this, one_mul]
  refine ⟨{ e with
      imbalance := ⟨-1 * (k.x + t.x), -1 * (k.y + t.y), -1 * (k.z + t.z)⟩
      angleEquilibrium := if e.direction = .positive then t.angle .zy else 360 - t.angle .zy
      isUpdated := true }, _, (V3.mk (-1 * (k.x + t.x)) (-1 * (k.y + t.y)) (-1 * (k.z + t.z))).magnitude, rfl, rfl,
    Real.sqrt_nonneg _, ?_⟩
  have h6 := V3.add_magnitude k t
  have h7 : (V3.mk (-1 * (k.x + t.x)) (-1 * (k.y + t.y)) (-1 * (k.z + t.z))).magnitude =
      (V3.mk (k.x + t.x) (k.y + t.y) (k.z + t.z)).magnitude := by
    unfold V3.magnitude
    congr 1
    ring
  linarith


/-! ## Locating it -/

/-- The settings. -/
noncomputable def exSettings (u e : ℝ) : List Locator.Call :=
  [.setDirection .positive, .setIndex 0, .setLine (some (exRoute u e)), .setTension 0.5, .setWeight (some exLight)]

/-- The locator. -/
noncomputable def exLocator (u e : ℝ) : Locator :=
  ((((Locator.new.setDirection .positive).setIndex 0).setLine (some (exRoute u e))).setTension 0.5).setWeight (some exLight)

theorem exLocator_reached (u e : ℝ) : Located.Reached exOnes (exLocator u e) := by
  refine ⟨exSettings u e, ?_, rfl⟩
  intro k hk
  simp only [exSettings, List.mem_cons, List.not_mem_nil, or_false] at hk
  rcases hk with rfl | rfl | rfl | rfl | rfl <;> exact trivial

theorem near_bounds {c : P3} {k : Spherical} (hk : k.radius = 1) :
    |(place c k).x - c.x| ≤ 1 ∧ |(place c k).y - c.y| ≤ 1 ∧ |(place c k).z - c.z| ≤ 1 := by
  have h := place_dist c k
  rw [hk] at h
  unfold sqDist at h
  have h1 := sq_nonneg ((place c k).x - c.x)
  have h2 := sq_nonneg ((place c k).y - c.y)
  have h3 := sq_nonneg ((place c k).z - c.z)
  refine ⟨?_, ?_, ?_⟩ <;> (rw [← sq_le_one_iff_abs_le_one]; linarith)

theorem place_here (p : P3) : place p ⟨0, 0, 0⟩ = p := by
  unfold place Spherical.offset
  simp

theorem exAcross (u e : ℝ) (hu : |u| ≤ 20) {k : Spherical} (hk : k.radius = 1) :
    let b : P3 := ⟨45, 20, 50 + e⟩
    let c : P3 := ⟨50, 0, 50 + e⟩
    let a : P3 := ⟨90, -u, 50 + e⟩
    15 ≤ (across b (place c k)).magnitude ∧ (across b (place c k)).magnitude ≤ 50 ∧
    15 ≤ (across (place c k) a).magnitude ∧ (across (place c k) a).magnitude ≤ 50 ∧
    |(place c k).z - b.z| ≤ 1 ∧ |a.z - (place c k).z| ≤ 1 := by
  intro b c a
  obtain ⟨h1, h2, h3⟩ := near_bounds (c := c) hk
  generalize place c k = q at *
  rw [abs_le] at h1 h2
  simp only [c] at h1 h2 h3
  unfold V2.magnitude across
  simp only [b, a]
  rw [abs_le] at hu
  refine ⟨?_, ?_, ?_, ?_, h3, by rw [abs_sub_comm]; exact h3⟩
  · apply Real.le_sqrt_of_sq_le; nlinarith
  · rw [Real.sqrt_le_iff]; constructor
    · norm_num
    · nlinarith
  · apply Real.le_sqrt_of_sq_le; nlinarith
  · rw [Real.sqrt_le_iff]; constructor
    · norm_num
    · nlinarith

/-- The cable is located. -/
theorem exLocator_located (u e : ℝ) (hu20 : |u| ≤ 20) : ∃ s' q, (exLocator u e).pointsAttachment exOnes =
    .ok s' (some [⟨45, 20, 50 + e⟩, q, ⟨90, -u, 50 + e⟩]) ∧ s'.line = some (exRoute' u e) := by
  have hcb : (across ⟨50, 0, 50 + e⟩ ⟨45, 20, 50 + e⟩).magnitude ≠ 0 := by
    rw [Ne, V2.magnitude_eq_zero]
    unfold across
    norm_num
  have hca : (across ⟨50, 0, 50 + e⟩ ⟨90, -u, 50 + e⟩).magnitude ≠ 0 := by
    rw [Ne, V2.magnitude_eq_zero]
    unfold across
    norm_num
  obtain ⟨v, hv⟩ : ∃ v, bisector ⟨45, 20, 50 + e⟩ ⟨50, 0, 50 + e⟩ ⟨90, -u, 50 + e⟩ = some v := by
    unfold bisector
    simp only
    rw [if_neg (by push Not; exact ⟨hcb, hca⟩)]
    exact ⟨_, rfl⟩
  have hps : (exData u e).map Prod.fst = [⟨45, 20, 50 + e⟩, ⟨50, 0, 50 + e⟩, ⟨90, -u, 50 + e⟩] := rfl
  have hls : (exData u e).map Prod.snd = [1, 1, 1] := rfl
  have hi : initialHardware ((exData u e).map Prod.fst) ((exData u e).map Prod.snd) =
      some [⟨0, 0, 0⟩, ⟨1, v.angle, 180⟩, ⟨0, 0, 0⟩] := by
    rw [hps, hls]
    unfold initialHardware
    simp [List.range, List.range.loop, initialAt, hv, List.mapM_cons]
  set k : Spherical := ⟨1, v.angle, 180⟩ with hk
  obtain ⟨n1, n2, n3, n4, n5, n6⟩ := exAcross u e hu20 (k := k) rfl
  obtain ⟨s1, z, t, e1, e2, t0, t5⟩ := imbalance_small n1 n2 n3 n4 (by linarith) (by linarith) 180
  have hpl : placed [⟨45, 20, 50 + e⟩, ⟨50, 0, 50 + e⟩, ⟨90, -u, 50 + e⟩] [⟨0, 0, 0⟩, k, ⟨0, 0, 0⟩] =
      [⟨45, 20, 50 + e⟩, place ⟨50, 0, 50 + e⟩ k, ⟨90, -u, 50 + e⟩] := by
    simp [placed, place_here]
  have ha : adjusted .positive 0.5 exLight
      [⟨45, 20, 50 + e⟩, place ⟨50, 0, 50 + e⟩ k, ⟨90, -u, 50 + e⟩] [⟨0, 0, 0⟩, k, ⟨0, 0, 0⟩] =
      some ([⟨0, 0, 0⟩, { k with angleZ := z }, ⟨0, 0, 0⟩], if 0 < t then t else 0) := by
    have hmid : adjustAt .positive 0.5 exLight
        [⟨45, 20, 50 + e⟩, place ⟨50, 0, 50 + e⟩ k, ⟨90, -u, 50 + e⟩] [⟨0, 0, 0⟩, k, ⟨0, 0, 0⟩] 1 =
        some ({ k with angleZ := z }, t) := by
      unfold adjustAt
      simp only [List.getElem?_cons_succ, List.getElem?_cons_zero, List.length_cons, List.length_nil]
      rw [if_neg (by simp)]
      simp only [Nat.sub_self, List.getElem?_cons_zero]
      rw [if_neg (by rw [exLight_magnitude]; push Not; refine ⟨by norm_num, by norm_num, by linarith, by linarith⟩)]
      rw [show k.angleZ = 180 from rfl, e1]
      simp only [e2]
    have h0 : adjustAt .positive 0.5 exLight
        [⟨45, 20, 50 + e⟩, place ⟨50, 0, 50 + e⟩ k, ⟨90, -u, 50 + e⟩] [⟨0, 0, 0⟩, k, ⟨0, 0, 0⟩] 0 =
        some (⟨0, 0, 0⟩, 0) := by
      unfold adjustAt; simp
    have h2 : adjustAt .positive 0.5 exLight
        [⟨45, 20, 50 + e⟩, place ⟨50, 0, 50 + e⟩ k, ⟨90, -u, 50 + e⟩] [⟨0, 0, 0⟩, k, ⟨0, 0, 0⟩] 2 =
        some (⟨0, 0, 0⟩, 0) := by
      unfold adjustAt; simp
    unfold adjusted
    simp only [List.length_cons, List.length_nil, List.range, List.range.loop, List.mapM_cons, h0, hmid, h2]
    by_cases ht : 0 < t
    · simp [ht, not_lt.2 t0]
    · simp [ht]
  have hl : solveLoop .positive 0.5 exLight ((exData u e).map Prod.fst) 100 [⟨0, 0, 0⟩, k, ⟨0, 0, 0⟩] =
      some (true, [⟨0, 0, 0⟩, { k with angleZ := z }, ⟨0, 0, 0⟩]) := by
    unfold solveLoop
    rw [hps, hpl, ha]
    simp only
    rw [if_neg (by split <;> simp [abs_of_nonneg t0, t5])]
    simp
  have hpe : placed ((exData u e).map Prod.fst) [⟨0, 0, 0⟩, { k with angleZ := z }, ⟨0, 0, 0⟩] =
      [⟨45, 20, 50 + e⟩, place ⟨50, 0, 50 + e⟩ { k with angleZ := z }, ⟨90, -u, 50 + e⟩] := by
    rw [hps]; simp [placed, place_here]
  have hu : (exLocator u e).update exOnes = .ok { exLocator u e with
      line := some (exRoute' u e), structures := (exData u e).map Prod.fst, lengths := (exData u e).map Prod.snd
      hardware := [⟨0, 0, 0⟩, { k with angleZ := z }, ⟨0, 0, 0⟩]
      points := placed ((exData u e).map Prod.fst) [⟨0, 0, 0⟩, { k with angleZ := z }, ⟨0, 0, 0⟩]
      isUpdated := true } true := by
    unfold Locator.update
    have hline : (exLocator u e).line = some (exRoute u e) := rfl
    have hidx : (exLocator u e).index = 0 := rfl
    have hcab : (exRoute u e).line.cables = [exStrung] := rfl
    have hw : (exLocator u e).weight = some exLight := rfl
    have hd : (exLocator u e).direction = .positive := rfl
    have htt : (exLocator u e).tension = 0.5 := rfl
    simp only [hline, hidx, hcab, hw, hd, htt]
    rw [if_neg (by decide)]
    simp only [Int.toNat_zero, List.getElem?_cons_zero, exConnections, hi, hl]
  rw [hpe] at hu
  generalize place ⟨50, 0, 50 + e⟩ { k with angleZ := z } = q at hu
  refine ⟨{ exLocator u e with
      line := some (exRoute' u e), structures := (exData u e).map Prod.fst, lengths := (exData u e).map Prod.snd
      hardware := [⟨0, 0, 0⟩, { k with angleZ := z }, ⟨0, 0, 0⟩]
      points := [⟨45, 20, 50 + e⟩, q, ⟨90, -u, 50 + e⟩]
      isUpdated := true }, q, ?_, rfl⟩
  unfold pointsAttachment ask
  rw [if_neg (by simp [exLocator, setWeight]), hu]
  rfl


/-! ## C121 is false -/

theorem heading_back {v : V2} (hx : v.x < 0) (h : -v.x ≤ v.y) : v.angle ≤ 135 := by
  have hy : 0 < v.y := by linarith
  unfold V2.angle
  rw [if_neg (by rintro ⟨h, -⟩; linarith)]
  simp only [Bool.false_eq_true, and_false, if_false]
  rw [if_neg (by rintro (h | h) <;> linarith), if_pos hy.le, if_neg (by linarith)]
  have h1 : (1 : ℝ) ≤ -(v.y / v.x) := by
    rw [← div_neg, le_div_iff₀ (by linarith)]
    linarith
  have h2 : Real.pi / 4 ≤ |Real.arctan (v.y / v.x)| := by
    rw [← Real.arctan_one, ← abs_neg, ← Real.arctan_neg]
    exact le_trans (Real.arctan_strictMono.monotone h1) (le_abs_self _)
  have h3 : 45 ≤ toDegrees |Real.arctan (v.y / v.x)| := by
    rw [toDegrees_eq]
    have hk := kPi_pos
    calc (45 : ℝ) = kPi / 4 * (180 / kPi) := by field_simp; norm_num
      _ ≤ _ := mul_le_mul_of_nonneg_right (by linarith [kPi_lt_pi]) (by positivity)
  linarith

theorem heading_ahead {v : V2} (hy : v.y < 0) (hx : -v.y ≤ 0.6 * v.x) : 324 ≤ v.angle := by
  have hx0 : 0 < v.x := by linarith
  unfold V2.angle
  rw [if_neg (by rintro ⟨h, -⟩; linarith)]
  simp only [Bool.false_eq_true, and_false, if_false]
  rw [if_neg (by rintro (h | h) <;> linarith), if_neg (by linarith), if_neg (by linarith)]
  have h1 : -(v.y / v.x) ≤ 0.6 := by
    rw [← neg_div, div_le_iff₀ hx0]
    exact hx
  have h0 : 0 ≤ -(v.y / v.x) := by
    rw [← neg_div]
    exact div_nonneg (by linarith) hx0.le
  have h2 : |Real.arctan (v.y / v.x)| ≤ 0.6 := by
    rw [← abs_neg, ← Real.arctan_neg, abs_of_nonneg (Real.arctan_nonneg.2 h0)]
    have h4 : -(v.y / v.x) < Real.pi / 2 := by linarith [Real.pi_gt_three]
    calc _ ≤ Real.arctan (Real.tan (-(v.y / v.x))) := Real.arctan_strictMono.monotone (Real.le_tan h0 h4)
      _ = -(v.y / v.x) := Real.arctan_tan (by linarith [Real.pi_pos]) h4
      _ ≤ _ := h1
  have h3 : toDegrees |Real.arctan (v.y / v.x)| ≤ 36 := by
    rw [toDegrees_eq]
    have hk := kPi_pos
    have hk3 : (3 : ℝ) < kPi := by norm_num [kPi]
    calc _ ≤ 0.6 * (180 / kPi) := mul_le_mul_of_nonneg_right h2 (by positivity)
      _ ≤ 36 := by
        rw [mul_div_assoc', div_le_iff₀ hk]
        linarith
  linarith

theorem within_bounds {p q : P3} (h : Within p 1 q) : |q.x - p.x| ≤ 1 ∧ |q.y - p.y| ≤ 1 ∧ |q.z - p.z| ≤ 1 := by
  unfold Within sqDist at h
  have h1 := sq_nonneg (q.x - p.x)
  have h2 := sq_nonneg (q.y - p.y)
  have h3 := sq_nonneg (q.z - p.z)
  refine ⟨?_, ?_, ?_⟩ <;> (rw [← sq_le_one_iff_abs_le_one]; linarith)

theorem exPull {u e : ℝ} (hu : |u| ≤ 20) {b c a : P3} (nb : Within ⟨45, 20, 50 + e⟩ 1 b) (nc : Within ⟨50, 0, 50 + e⟩ 1 c)
    (na : Within ⟨90, -u, 50 + e⟩ 1 a) (t : ℝ) (d : Direction) :
    (EquilibriumSolver.tensionCable t d (spanBetween .positive 0.5 exLight b c)
      (spanBetween .positive 0.5 exLight c a)).magnitude ≤ 1.2 := by
  obtain ⟨nb1, nb2, nb3⟩ := within_bounds nb
  obtain ⟨nc1, nc2, nc3⟩ := within_bounds nc
  obtain ⟨na1, na2, na3⟩ := within_bounds na
  simp only at nb1 nb2 nb3 nc1 nc2 nc3 na1 na2 na3
  rw [abs_le] at nb1 nb2 nb3 nc1 nc2 nc3 na1 na2 na3 hu
  have size : ∀ {x y : ℝ}, |x| ≤ 7 ∧ 18 ≤ |y| ∧ |y| ≤ 22 → 15 ≤ √(x ^ 2 + y ^ 2) ∧ √(x ^ 2 + y ^ 2) ≤ 50 := by
    rintro x y ⟨h1, h2, h3⟩
    rw [← sq_abs x, ← sq_abs y]
    have := abs_nonneg x
    refine ⟨Real.le_sqrt_of_sq_le ?_, Real.sqrt_le_iff.2 ⟨by norm_num, ?_⟩⟩ <;> nlinarith
  have size' : ∀ {x y : ℝ}, |y| ≤ 22 ∧ 38 ≤ |x| ∧ |x| ≤ 42 → 15 ≤ √(x ^ 2 + y ^ 2) ∧ √(x ^ 2 + y ^ 2) ≤ 50 := by
    rintro x y ⟨h1, h2, h3⟩
    rw [← sq_abs x, ← sq_abs y]
    have := abs_nonneg y
    refine ⟨Real.le_sqrt_of_sq_le ?_, Real.sqrt_le_iff.2 ⟨by norm_num, ?_⟩⟩ <;> nlinarith
  have s1 : 15 ≤ (across b c).magnitude ∧ (across b c).magnitude ≤ 50 := by
    apply size
    unfold across
    refine ⟨abs_le.2 ⟨?_, ?_⟩, ?_, abs_le.2 ⟨?_, ?_⟩⟩
    case refine_3 => rw [← abs_neg]; exact le_trans (by simp only; linarith) (le_abs_self _)
    all_goals (simp only; linarith)
  have s2 : 15 ≤ (across c a).magnitude ∧ (across c a).magnitude ≤ 50 := by
    apply size'
    unfold across
    refine ⟨abs_le.2 ⟨?_, ?_⟩, ?_, abs_le.2 ⟨?_, ?_⟩⟩
    case refine_3 => exact le_trans (by simp only; linarith) (le_abs_self _)
    all_goals (simp only; linarith)
  exact pull_small s1.1 s1.2 s2.1 s2.2 (by rw [abs_le]; constructor <;> linarith)
    (by rw [abs_le]; constructor <;> linarith) t d

theorem exInside {e : ℝ} : 0 < (inside ⟨45, 20, 50 + e⟩ ⟨50, 0, 50 + e⟩ ⟨90, -20, 50 + e⟩).magnitude := by
  apply lt_of_le_of_ne (V2.magnitude_nonneg _)
  intro hc
  have h := ((V2.magnitude_eq_zero _).1 hc.symm).1
  unfold inside at h
  simp only at h
  have h1 : 20 ≤ √((45 - 50 : ℝ) ^ 2 + (20 - 0) ^ 2) := Real.le_sqrt_of_sq_le (by norm_num)
  have h2 : √((90 - 50 : ℝ) ^ 2 + (-20 - 0) ^ 2) ≤ 45 := Real.sqrt_le_iff.2 (by norm_num)
  have h3 : 0 < √((90 - 50 : ℝ) ^ 2 + (-20 - 0) ^ 2) := Real.sqrt_pos.2 (by norm_num)
  clear hc
  generalize √((45 - 50 : ℝ) ^ 2 + (20 - 0) ^ 2) = r at *
  generalize √((90 - 50 : ℝ) ^ 2 + (-20 - 0) ^ 2) = u at *
  have h4 : -(1 / 4) ≤ (45 - 50 : ℝ) / r := by
    rw [le_div_iff₀ (by linarith)]
    linarith
  have h5 : 1 / 2 ≤ (90 - 50 : ℝ) / u := by
    rw [le_div_iff₀ h3]
    linarith
  linarith

/-- **C121** is false: a cable with a line angle in still air, located, whose intermediate attachment point is displaced
to the outside of the line angle. -/
theorem C121_fails : ∃ (as : Assemblies) (s s' : Locator) (g : GLine) (b c a q : P3), Located.Reached as s ∧
    s.line = some g ∧ g.Reachable ∧ s.pointsAttachment as = .ok s' (some [b, q, a]) ∧ 0 < s.tension ∧
    s.weight = some exLight ∧
    (∃ g', g.pointXyzLineStructureAttachment 0 0 = .ok g' (some b)) ∧
    (∃ g', g.pointXyzLineStructureAttachment 1 0 = .ok g' (some c)) ∧
    (∃ g', g.pointXyzLineStructureAttachment 2 0 = .ok g' (some a)) ∧
    (q.x - c.x) * (inside b c a).x + (q.y - c.y) * (inside b c a).y < 0 := by
  obtain ⟨s', q, h, hg⟩ := exLocator_located 20 0 (by norm_num)
  have hr := exLocator_reached 20 0
  have pb := exRoute_attachment 20 0 0 .deadEnd 45 (-20) 1 (by norm_num) (by norm_num) rfl rfl
  have pc := exRoute_attachment 20 0 1 .suspension 50 0 2 (by norm_num) (by norm_num) rfl rfl
  have pa := exRoute_attachment 20 0 2 .deadEnd 90 20 3 (by norm_num) (by norm_num) rfl rfl
  rw [neg_neg] at pb
  rw [neg_zero] at pc
  refine ⟨exOnes, exLocator 20 0, s', exRoute 20 0, _, ⟨50, 0, 50 + 0⟩, _, q, hr, rfl, exRoute_reachable 20 0, h,
    by norm_num [exLocator, setWeight, setTension], rfl, ⟨_, pb⟩, ⟨_, pc⟩, ⟨_, pa⟩, ?_⟩
  obtain ⟨h1, ⟨i1, i2, i3, i4⟩, h3, -⟩ := located_points (reached_sound hr) h
  have hk : (exRoute' 20 0).line.cables[s'.index.toNat]? = some exStrung := by rw [i2]; rfl
  have read : ∀ {i : ℤ} {p : P3}, (exRoute 20 0).pointXyzLineStructureAttachment i 0 = .ok (exRoute' 20 0) (some p) →
      (exRoute' 20 0).pointXyzLineStructureAttachment i 0 = .ok (exRoute' 20 0) (some p) := by
    intro i p hp
    unfold pointXyzLineStructureAttachment at hp ⊢
    rw [← (query_ok hp).2.2]
    exact hp
  obtain ⟨b1, b2⟩ := located_data h1 hg hk (i := 0) (c := ⟨1, 0⟩) rfl (read pb)
  obtain ⟨c1, c2⟩ := located_data h1 hg hk (i := 1) (c := ⟨2, 0⟩) rfl (read pc)
  obtain ⟨a1, a2⟩ := located_data h1 hg hk (i := 2) (c := ⟨3, 0⟩) rfl (read pa)
  have hw : s'.weight = some exLight := i4
  have ht : s'.tension = 0.5 := i3
  have hd : s'.direction = .positive := i1
  obtain ⟨b', c', a', n, nb, nc, na, -, -, m1, m2, e, r, x, z⟩ :=
    located_swing h1 hw (i := 1) (by norm_num) b1 c1 a1 b2 c2 a2 (q := q) (by rw [h3]; rfl)
  rw [ht, hd] at z
  obtain ⟨f, f0, -, hf⟩ := displacement_inside _ n _ x
  rw [e, hf, r]
  obtain ⟨nb1, nb2, nb3⟩ := within_bounds nb
  obtain ⟨nc1, nc2, nc3⟩ := within_bounds nc
  obtain ⟨na1, na2, na3⟩ := within_bounds na
  simp only at nb1 nb2 nb3 nc1 nc2 nc3 na1 na2 na3
  rw [abs_le] at nb1 nb2 nb3 nc1 nc2 nc3 na1 na2 na3
  have hb := heading_back (v := ⟨b'.x - c'.x, b'.y - c'.y⟩) (by simp only; linarith) (by simp only; linarith)
  have ha := heading_ahead (v := ⟨a'.x - c'.x, a'.y - c'.y⟩) (by simp only; linarith) (by simp only; linarith)
  have hdeg : 189 ≤ headings b' c' a' := by
    unfold headings
    exact le_trans (by linarith) (le_abs_self _)
  have hneg : lineDirection (headings b' c' a') = .negative := if_neg (by linarith)
  obtain ⟨r0, r1⟩ := headings_range m1 m2
  have hpull := (pull_inward (d := .positive) (h := 0.5) (w := exLight) (by norm_num) rfl rfl
    (by norm_num [exLight]) m1 m2 r0 r1).2 (by linarith)
  rw [hneg] at z hpull
  rw [if_neg (by simp)] at z
  set t := EquilibriumSolver.tensionCable (headings b' c' a') .negative (spanBetween .positive 0.5 exLight b' c')
    (spanBetween .positive 0.5 exLight c' a') with htt
  have hsin : 0.04 ≤ Real.sin (toRadians ((headings b' c' a' - 180) / 2)) := by
    have hk0 := kPi_pos
    have hk3 : (3.14 : ℝ) < kPi := by norm_num [kPi]
    have hkp := kPi_lt_pi
    have hp4 := Real.pi_le_four
    have u0 : 0.07 ≤ toRadians ((headings b' c' a' - 180) / 2) := by
      rw [toRadians_eq]
      nlinarith
    have u1 : toRadians ((headings b' c' a' - 180) / 2) ≤ Real.pi / 2 := by
      rw [toRadians_eq]
      nlinarith
    have := Real.mul_le_sin (by linarith : 0 ≤ toRadians ((headings b' c' a' - 180) / 2)) u1
    have hpi : Real.pi < 3.15 := Real.pi_lt_d2
    have h2p : 0.6 ≤ 2 / Real.pi := by
      rw [le_div_iff₀ Real.pi_pos]; linarith
    calc (0.04 : ℝ) ≤ 0.6 * 0.07 := by norm_num
      _ ≤ 2 / Real.pi * toRadians ((headings b' c' a' - 180) / 2) := mul_le_mul h2p u0 (by norm_num) (by linarith)
      _ ≤ _ := this
  have hty : 0.02 ≤ t.y := by linarith
  have hT : t.magnitude ≤ 1.2 := exPull (by norm_num) nb nc na _ _
  have hm : √(t.z ^ 2 + t.y ^ 2) ≤ 1.2 := by
    refine le_trans (Real.sqrt_le_sqrt ?_) hT
    nlinarith [sq_nonneg t.x]
  have hs := (swing_negative (by linarith : 0 ≤ t.y)).2 (by linarith)
  rw [← z] at hs
  have hm0 : 0 < √(t.z ^ 2 + t.y ^ 2) := Real.sqrt_pos.2 (by nlinarith [sq_nonneg t.z])
  have hs0 : Real.sin (toRadians n.angleZ) < 0 := by
    by_contra hc
    push Not at hc
    have := mul_nonneg hc hm0.le
    linarith
  have hin : 0 < (inside ⟨45, 20, 50 + 0⟩ ⟨50, 0, 50 + 0⟩ ⟨90, -20, 50 + 0⟩).magnitude := exInside
  have h1' : exOnes 2 (0 : ℤ).toNat = 1 := rfl
  rw [h1']
  have := mul_pos hin (by linarith : 0 < f)
  nlinarith


/-! ## The other properties -/

/-- C121: with the arms of the outer poles on one side the middle attachment point swings to the inside. -/
example : ∃ s' q, (exLocator (-20) 0).pointsAttachment exOnes =
      .ok s' (some [⟨45, 20, 50⟩, q, ⟨90, 20, 50⟩]) ∧
    0 ≤ (q.x - 50) * (inside ⟨45, 20, 50⟩ ⟨50, 0, 50⟩ ⟨90, 20, 50⟩).x +
      (q.y - 0) * (inside ⟨45, 20, 50⟩ ⟨50, 0, 50⟩ ⟨90, 20, 50⟩).y := by
  obtain ⟨s', q, h, hg⟩ := exLocator_located (-20) 0 (by norm_num)
  have pb := exRoute_attachment (-20) 0 0 .deadEnd 45 (-20) 1 (by norm_num) (by norm_num) rfl rfl
  have pc := exRoute_attachment (-20) 0 1 .suspension 50 0 2 (by norm_num) (by norm_num) rfl rfl
  have pa := exRoute_attachment (-20) 0 2 .deadEnd 90 (-20) 3 (by norm_num) (by norm_num) rfl rfl
  simp only [neg_neg, add_zero, neg_zero] at h pb pc pa
  have read : ∀ {i : ℤ} {p : P3},
      (exRoute (-20) 0).pointXyzLineStructureAttachment i 0 = .ok (exRoute' (-20) 0) (some p) →
      (exRoute' (-20) 0).pointXyzLineStructureAttachment i 0 = .ok (exRoute' (-20) 0) (some p) := by
    intro i p hp
    unfold pointXyzLineStructureAttachment at hp ⊢
    rw [← (query_ok hp).2.2]
    exact hp
  refine ⟨s', q, h, ?_⟩
  refine C121_inside_partial (k := exStrung) (exLocator_reached (-20) 0) h hg rfl (w := exLight) rfl
    (by norm_num [exLocator, setWeight, setTension]) rfl rfl (by norm_num [exLight]) (i := 1) (by norm_num) rfl rfl rfl
    (read pb) (read pc) (read pa) (by norm_num [exOnes]) ?_ rfl
  intro b' c' a' nb nc na
  obtain ⟨nb1, nb2, -⟩ := within_bounds nb
  obtain ⟨nc1, nc2, -⟩ := within_bounds nc
  obtain ⟨na1, na2, -⟩ := within_bounds na
  simp only at nb1 nb2 nc1 nc2 na1 na2
  rw [abs_le] at nb1 nb2 nc1 nc2 na1 na2
  have hb := angle_upper ⟨b'.x - c'.x, b'.y - c'.y⟩ (by simp only; linarith) (by simp only; rintro ⟨-, h⟩; linarith)
  have ha := angle_upper ⟨a'.x - c'.x, a'.y - c'.y⟩ (by simp only; linarith) (by simp only; rintro ⟨-, h⟩; linarith)
  unfold headings
  rw [abs_le]
  constructor <;> linarith [hb.1, hb.2, ha.1, ha.2]

/-- C79: the index of the last attachment point of a located cable is an undefined read. -/
example : (exLocator 20 0).pointsCable exOnes 2 10 = .ub := by
  obtain ⟨s', q, h, -⟩ := exLocator_located 20 0 (by norm_num)
  exact C79_last_index_ub (exLocator_reached 20 0) h (by simp) 10

/-- C79: the others are not. -/
example : (exLocator 20 0).pointsCable exOnes 1 10 ≠ .ub ∧ (exLocator 20 0).pointsCable exOnes (-1) 10 ≠ .ub := by
  obtain ⟨s', q, h, -⟩ := exLocator_located 20 0 (by norm_num)
  exact ⟨(C79_partial (exLocator_reached 20 0) h 1 10 (by simp)).1, (C79_partial (exLocator_reached 20 0) h (-1) 10 (by simp)).1⟩

/-- C122: the middle attachment point is one foot from the structure. -/
example : ∃ s' q, (exLocator 20 0).pointsAttachment exOnes = .ok s' (some [⟨45, 20, 50⟩, q, ⟨90, -20, 50⟩]) ∧
    sqDist ⟨50, 0, 50⟩ q = 1 := by
  obtain ⟨s', q, h, hg⟩ := exLocator_located 20 0 (by norm_num)
  simp only [add_zero] at h
  refine ⟨s', q, h, ?_⟩
  obtain ⟨g, k, h1, -, h2, -, h4⟩ := C122_attachment (exLocator_reached 20 0) h
  rw [hg] at h1
  cases h1
  cases h2
  obtain ⟨p, q', g', e1, e2, -, e3⟩ := h4 1 ⟨2, 0⟩ rfl
  cases e1
  have pc := exRoute_attachment 20 0 1 .suspension 50 0 2 (by norm_num) (by norm_num) rfl rfl
  simp only [neg_zero, add_zero] at pc
  have : (exRoute' 20 0).pointXyzLineStructureAttachment 1 0 = .ok (exRoute' 20 0) (some ⟨50, 0, 50⟩) := by
    unfold pointXyzLineStructureAttachment at pc ⊢
    rw [← (query_ok pc).2.2]
    exact pc
  rw [show (exRoute' 20 0).line.indexLineStructure 2 = 1 from rfl, this] at e2
  cases e2
  have := e3 (by norm_num) (by simp [exStrung])
  rw [this]
  norm_num [exOnes]

/-- C123: the first span, traced by ten points. -/
example : ∃ s' rs, (exLocator 20 0).pointsCable exOnes 0 10 = .ok s' rs ∧ rs.length = 10 ∧
    rs[0]? = some ⟨45, 20, 50⟩ := by
  obtain ⟨s', q, h, hg⟩ := exLocator_located 20 0 (by norm_num)
  simp only [add_zero] at h
  have hq : |q.x - 50| ≤ 1 := by
    obtain ⟨g, k, h1, -, h2, -, h4⟩ := C122_attachment (exLocator_reached 20 0) h
    rw [hg] at h1
    cases h1
    cases h2
    obtain ⟨p, q', g', e1, e2, -, e3⟩ := h4 1 ⟨2, 0⟩ rfl
    cases e1
    have pc := exRoute_attachment 20 0 1 .suspension 50 0 2 (by norm_num) (by norm_num) rfl rfl
    simp only [neg_zero, add_zero] at pc
    have : (exRoute' 20 0).pointXyzLineStructureAttachment 1 0 = .ok (exRoute' 20 0) (some ⟨50, 0, 50⟩) := by
      unfold pointXyzLineStructureAttachment at pc ⊢
      rw [← (query_ok pc).2.2]
      exact pc
    rw [show (exRoute' 20 0).line.indexLineStructure 2 = 1 from rfl, this] at e2
    cases e2
    have := e3 (by norm_num) (by simp [exStrung])
    exact (within_bounds (p := ⟨50, 0, 50⟩) (by unfold Within; rw [this]; norm_num [exOnes])).1
  obtain ⟨rs, r1, r2, r3, -⟩ := C123_span (exLocator_reached 20 0) h (w := exLight) rfl
    (by norm_num [exLocator, setWeight, setTension]) rfl (le_refl _) (by norm_num [exLight]) (i := 0) rfl rfl
    (by rintro ⟨hx, -⟩; simp only at hx; rw [hx, abs_le] at hq; linarith [hq.1]) 10
  exact ⟨s', rs, r1, r2, r3 (by norm_num)⟩

/-- A line is read through its coordinates. -/
theorem connectionData_refresh {as : Assemblies} {g h : GLine} (hr : g.refresh = h.refresh) (hl : g.line = h.line)
    (c : Connection) : connectionData as g c = connectionData as h c := by
  unfold connectionData
  have : ∀ i j, g.pointXyzLineStructureAttachment i j = h.pointXyzLineStructureAttachment i j := by
    intro i j
    unfold pointXyzLineStructureAttachment query
    rw [hr]
  simp only [this, hl]

theorem exLocator_refresh {g : GLine} {u e : ℝ} (hr : g.refresh = (exRoute u e).refresh) (hl : g.line = (exRoute u e).line) :
    ((exLocator u e).setLine (some g)).pointsAttachment exOnes = (exLocator u e).pointsAttachment exOnes := by
  have hc : connectionLoop exOnes exStrung.connections g [] = connectionLoop exOnes exStrung.connections (exRoute u e) [] := by
    simp only [exStrung]
    unfold connectionLoop
    rw [connectionData_refresh hr hl]
  have hu : ((exLocator u e).setLine (some g)).update exOnes = (exLocator u e).update exOnes := by
    unfold Locator.update
    have e1 : ((exLocator u e).setLine (some g)).line = some g := rfl
    have e2 : (exLocator u e).line = some (exRoute u e) := rfl
    have e3 : ((exLocator u e).setLine (some g)).index = 0 := rfl
    have e4 : (exLocator u e).index = 0 := rfl
    have e5 : (exRoute u e).line.cables = [exStrung] := rfl
    rw [e1, e2, e3, e4]
    simp only [hl, e5, Int.toNat_zero, List.getElem?_cons_zero, hc, exConnections]
    rfl
  unfold pointsAttachment ask
  rw [hu]
  rfl

/-- C125: the example hands out positions, so a new locator finds them. -/
example : ∃ t, (relocated (exLocator 20 0)).update exOnes = .ok t true := by
  obtain ⟨s', q, h, -⟩ := exLocator_located 20 0 (by norm_num)
  obtain ⟨t, ht, -⟩ := (C125_partial (exLocator_reached 20 0) h).1 _ rfl
  exact ⟨t, ht⟩

/-- **C124** is false: the origin of the line is raised by five feet, and the locator still hands out the old positions,
while a new locator with the same settings hands out others. -/
theorem C124_fails : ∃ (s t t' : Locator) (g : GLine) (qs qs' : List P3), Located.Reached exOnes s ∧ s.line = some g ∧
    Locator.run exOnes s [.edited (g.setOrigin ⟨0, 0, 5⟩)] = some t ∧
    t.pointsAttachment exOnes = .ok t (some qs) ∧
    (relocated t).pointsAttachment exOnes = .ok t' (some qs') ∧ qs ≠ qs' := by
  obtain ⟨s', q, h, hg⟩ := exLocator_located 20 0 (by norm_num)
  obtain ⟨t', q', h', -⟩ := exLocator_located 20 5 (by norm_num)
  have hreach : Located.Reached exOnes s' := by
    refine ⟨exSettings 20 0 ++ [.attachment], ?_, ?_⟩
    · intro k hk
      simp only [exSettings, List.mem_append, List.mem_cons, List.not_mem_nil, or_false] at hk
      rcases hk with (rfl | rfl | rfl | rfl | rfl) | rfl <;> exact trivial
    · have : Locator.run exOnes (exLocator 20 0) [.attachment] = some s' := by
        simp [Locator.run, Call.next, h, Run.returned]
      exact this
  obtain ⟨h1, ⟨i1, i2, i3, i4⟩, h3, -⟩ := located_points (reached_sound (exLocator_reached 20 0)) h
  obtain ⟨t, ht, hline, -⟩ := C124_edits_unseen (exLocator_reached 20 0) h ((exRoute' 20 0).setOrigin ⟨0, 0, 5⟩)
  refine ⟨s', { s' with line := some ((exRoute' 20 0).setOrigin ⟨0, 0, 5⟩) }, t', exRoute' 20 0,
    [⟨45, 20, 50 + 0⟩, q, ⟨90, -20, 50 + 0⟩], [⟨45, 20, 50 + 5⟩, q', ⟨90, -20, 50 + 5⟩], hreach, hg, rfl, ?_, ?_, by simp⟩
  rotate_left
  · have hrel : relocated { s' with line := some ((exRoute' 20 0).setOrigin ⟨0, 0, 5⟩) } =
        (exLocator 20 5).setLine (some ((exRoute' 20 0).setOrigin ⟨0, 0, 5⟩)) := by
      unfold relocated
      simp only [i1, i2, i3, i4]
      rfl
    rw [hrel, exLocator_refresh (g := (exRoute' 20 0).setOrigin ⟨0, 0, 5⟩) (e := 5) ?_ rfl]
    · exact h'
    · rw [exRoute_refresh]
      have := exRoute_refresh 20 5
      unfold refresh GLine.update updateA at this ⊢
      exact this
  · have hu : s'.isUpdated = true := by
      obtain ⟨-, -, h5⟩ := ask_ok attachment_const (reached_sound (exLocator_reached 20 0)) h
      rcases h5 with ⟨h5, -⟩ | ⟨-, h5⟩
      · exact h5
      · cases h5
    unfold pointsAttachment ask
    simp only [hu, if_true, h3]

/-- The line after its first pole has been moved before the start of the alignment. -/
noncomputable def exMoved : GLine :=
  ⟨⟨[⟨0, 0, 0⟩, ⟨0, 0, 100⟩], [(1, exPole .deadEnd (-0.5) (-20)), (2, exPole .suspension 50 0), (3, exPole .deadEnd 90 20)],
    [exStrung]⟩, ⟨0, 0, 0⟩, false, false, [], []⟩

theorem exMoved_reachable : GLine.Reachable exMoved := by
  have e1 : ¬ (-0.5 : ℝ) ≤ -1 := by norm_num
  have e2 : ¬ (50 : ℝ) ≤ -0.5 := by norm_num
  refine reachable_step (exRoute_reachable 20 0) (.edit noHeap (.modifyLineStructure 0 (exPole .deadEnd (-0.5) (-20))))
    (exPole_reachable _ _ _) ?_
  simp [Event.next, edit, Line.Op.apply, Line.modifyLineStructure, exRoute, exPoles, validIndex, exPole, e1, e2,
      Line.wrap, edited, resets, Outcome.state?, Line.finishCables, Line.stationBack, Line.stationAhead, exMoved,
      Line.deleteInvalidConnections, Line.deleteInvalidLineCables, exStrung, Line.eraseLoop_zero, LineCable.validateConnections,
      LineCable.checkConnections, LineCable.checkConnection, Line.heap, Line.lookup]

/-- **C125** is false: a structure was moved just before the start of the alignment, which the line accepts; locating
the cable throws, and asking again hands out placeholder points. -/
theorem C125_fails : ∃ (g : GLine) (s s' : Locator), g.Reachable ∧ Located.Reached exOnes s ∧ s.line = some g ∧
    s.pointsAttachment exOnes = .throws s' ∧
    s'.pointsAttachment exOnes = .ok s' (some (List.replicate 3 ⟨-999999, -999999, -999999⟩)) := by
  have e1 : ¬ (0 : ℝ) ≤ -0.5 := by norm_num
  have e2 : ¬ (-0.5 : ℝ) = 0 := by norm_num
  have e3 : ¬ (-0.5 : ℝ) = 100 := by norm_num
  have h0 : ∃ g', exMoved.pointXyzLineStructureAttachment 0 0 = .throws g' := by
    have s2 := exStations 0 (t := 50) (by norm_num) (by norm_num)
    have s3 := exStations 0 (t := 90) (by norm_num) (by norm_num)
    have s1 : fromStation [⟨0, 0, 0⟩, ⟨0, 0, 100⟩] [⟨0, 0, 0⟩, ⟨100, 0, 0⟩] (-0.5) = .val (some P3.default) := by
      simp [fromStation, Alignment.indexSegment, Alignment.isValidStation, e1]
    have s4 : vectorStructure [⟨0, 0, 0⟩, ⟨0, 0, 100⟩] [⟨0, 0, 0⟩, ⟨100, 0, 0⟩] (-0.5) = .throws := by
      simp [vectorStructure, Alignment.indexSegment, Alignment.isValidStation, e1, e2, e3, vectorSegment]
    have : answer (exMoved.pointXyzLineStructureAttachment 0 0) = .throws := by
      simp [exCorners, s1, s2, s3, s4, answer, pointXyzLineStructureAttachment, query, refresh, GLine.isUpdated, GLine.update, updateA, stations,
        structuresLoop, exMoved, exPole, attachmentPoint, validIndex]
    match hx : exMoved.pointXyzLineStructureAttachment 0 0 with
    | .ok _ _ => rw [hx] at this; cases this
    | .ub => rw [hx] at this; cases this
    | .throws g' => exact ⟨g', rfl⟩
  obtain ⟨g', h0⟩ := h0
  set s := (exLocator 20 0).setLine (some exMoved) with hs
  have hu : ∃ s', s.update exOnes = .throws s' := by
    unfold Locator.update
    have f1 : s.line = some exMoved := rfl
    have f2 : s.index = 0 := rfl
    have f3 : exMoved.line.cables = [exStrung] := rfl
    have f4 : exMoved.line.indexLineStructure 1 = 0 := rfl
    rw [f1, f2]
    simp only [f3]
    rw [if_neg (by decide)]
    simp only [Int.toNat_zero, List.getElem?_cons_zero, exStrung, connectionLoop, connectionData, f4, h0]
    exact ⟨_, rfl⟩
  obtain ⟨s', hu⟩ := hu
  obtain ⟨g, k, hg, hk, hp⟩ := C125_placeholders hu
  cases hg
  cases hk
  refine ⟨exMoved, s, s', exMoved_reachable, ⟨exSettings 20 0 ++ [.setLine (some exMoved)], ?_, rfl⟩, rfl, ?_, hp⟩
  · intro k hk
    simp only [exSettings, List.mem_append, List.mem_cons, List.not_mem_nil, or_false] at hk
    rcases hk with (rfl | rfl | rfl | rfl | rfl) | rfl <;> exact trivial
  · unfold pointsAttachment ask
    rw [if_neg (by simp [hs, setLine]), hu]
    rfl

end Verif.Props
