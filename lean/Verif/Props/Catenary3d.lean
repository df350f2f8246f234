import Verif.Catenary3dLemmas
import Verif.Props.Catenary2d
import Verif.Props.Vector

/-! # Properties of the 3D catenary (C50-C54, C84, C85) -/

set_option linter.unusedSectionVars false

namespace Verif.Props

open Verif.Units Catenary3d

/-- A 300 x 400 span under a load that is not vertical. -/
noncomputable def exCat3 : Catenary3d :=
  ((Catenary3d.new.setSpacing ⟨300, 0, 400⟩).setTension 100000).setWeight ⟨0, √7, 3⟩

theorem exCat3_reachable : exCat3.Reachable :=
  ⟨[.setSpacing ⟨300, 0, 400⟩, .setTension 100000, .setWeight ⟨0, √7, 3⟩], rfl⟩

theorem exCat3_physical : exCat3.Physical := by
  refine ⟨?_, ?_, rfl, rfl, Real.sqrt_nonneg _, ?_⟩
  · show (0:ℝ) < 100000; norm_num
  · show (0:ℝ) < 300; norm_num
  · show (0:ℝ) < 3; norm_num

theorem exCat3_spacing2d : exCat3.spacing2d = ⟨400, 300⟩ := by
  have h7 : √7 ^ 2 = (7:ℝ) := Real.sq_sqrt (by norm_num)
  have hw : exCat3.weightUnit.magnitude = 4 := by
    show √(0 ^ 2 + √7 ^ 2 + 3 ^ 2) = 4
    rw [h7, show ((0:ℝ) ^ 2 + 7 + 3 ^ 2) = 4 ^ 2 by norm_num, Real.sqrt_sq (by norm_num)]
  have hs : exCat3.spacing.magnitude = 500 := by
    show √((300:ℝ) ^ 2 + 0 ^ 2 + 400 ^ 2) = 500
    rw [show ((300:ℝ) ^ 2 + 0 ^ 2 + 400 ^ 2) = 500 ^ 2 by norm_num, Real.sqrt_sq (by norm_num)]
  have hz : exCat3.weightUnit.z = 3 := rfl
  have hz' : exCat3.spacing.z = 400 := rfl
  unfold spacing2d
  rw [hw, hs, hz, hz']
  ext
  · show √((500:ℝ) ^ 2 - (400 * (|3| / 4)) ^ 2) = 400
    rw [abs_of_pos (by norm_num), show ((500:ℝ) ^ 2 - (400 * (3 / 4)) ^ 2) = 400 ^ 2 by norm_num,
      Real.sqrt_sq (by norm_num)]
  · show (400:ℝ) * (|3| / 4) = 300
    rw [abs_of_pos (by norm_num)]; norm_num

/-! ## C50: history -/

/-- Every query of the class, with its arguments. -/
inductive Query3 : Type → Type 1 where
  | constant : Query3 ℝ
  | coordinate (p : ℝ) : Query3 V3
  | coordinateChord (p : ℝ) : Query3 V3
  | length : Query3 ℝ
  | lengthSlack : Query3 ℝ
  | positionFractionOrigin : Query3 ℝ
  | positionFractionSagPoint : Query3 ℝ
  | sag : Query3 ℝ
  | sagAt (p : ℝ) : Query3 ℝ
  | swingAngle : Query3 ℝ
  | tangentAngleTransverse (p : ℝ) (d : Direction) : Query3 ℝ
  | tangentAngleVertical (p : ℝ) (d : Direction) : Query3 ℝ
  | tangentVector (p : ℝ) (d : Direction) : Query3 V3
  | tension (p : ℝ) : Query3 ℝ
  | tensionVector (p : ℝ) (d : Direction) : Query3 V3
  | tensionAverage (n : Int) : Query3 ℝ
  | tensionMax : Query3 ℝ
  | validate : Query3 (Bool × List String)

/-- The answer to a query. -/
noncomputable def Query3.ask (k : Catenary3d) : {A : Type} → Query3 A → A
  | _, .constant => k.constant
  | _, .coordinate p => k.coordinate p
  | _, .coordinateChord p => k.coordinateChord p
  | _, .length => k.length
  | _, .lengthSlack => k.lengthSlack
  | _, .positionFractionOrigin => k.positionFractionOrigin
  | _, .positionFractionSagPoint => k.positionFractionSagPoint
  | _, .sag => k.sag
  | _, .sagAt p => k.sagAt p
  | _, .swingAngle => k.swingAngle
  | _, .tangentAngleTransverse p d => k.tangentAngleTransverse p d
  | _, .tangentAngleVertical p d => k.tangentAngleVertical p d
  | _, .tangentVector p d => k.tangentVector p d
  | _, .tension p => k.tension p
  | _, .tensionVector p d => k.tensionVector p d
  | _, .tensionAverage n => k.tensionAverage n
  | _, .tensionMax => k.tensionMax
  | _, .validate => k.validate

/-- C50: whatever calls came before, every query answers as on a new object that was given the current
parameters. -/
theorem C50_history_3d {k : Catenary3d} (R : k.Reachable) {A : Type} (q : Query3 A) :
    q.ask k = q.ask ((((Catenary3d.new.setDirection k.direction).setSpacing k.spacing).setTension
      k.tensionHorizontal).setWeight k.weightUnit) := by
  set f := (((Catenary3d.new.setDirection k.direction).setSpacing k.spacing).setTension
      k.tensionHorizontal).setWeight k.weightUnit with hf
  have Rf : f.Reachable := ⟨[.setDirection k.direction, .setSpacing k.spacing,
    .setTension k.tensionHorizontal, .setWeight k.weightUnit], rfl⟩
  obtain ⟨r1, s1, w1⟩ := R.inner
  obtain ⟨r2, s2, w2⟩ := Rf.inner
  obtain ⟨d1, sp1, wt1, h1⟩ := Catenary3d.refresh_params k
  obtain ⟨d2, sp2, wt2, h2⟩ := Catenary3d.refresh_params f
  have es : f.refresh.catenary2d.spacing = k.refresh.catenary2d.spacing := by rw [s1, s2]; rfl
  have ew : f.refresh.catenary2d.weightUnit = k.refresh.catenary2d.weightUnit := by rw [w1, w2]; rfl
  have eh : f.refresh.catenary2d.tensionHorizontal = k.refresh.catenary2d.tensionHorizontal := by
    rw [h1, h2]; rfl
  have Q : ∀ {B : Type} (q : Query2 B), q.ask k.refresh.catenary2d = q.ask f.refresh.catenary2d := by
    intro B q
    rw [C50_history_2d r1 q, C50_history_2d r2 q, es, ew, eh]
  have ed : f.refresh.direction = k.refresh.direction := by rw [d1, d2]; rfl
  have esp : f.refresh.spacing = k.refresh.spacing := by rw [sp1, sp2]; rfl
  have ewt : f.refresh.weightUnit = k.refresh.weightUnit := by rw [wt1, wt2]; rfl
  have echord : ∀ p, k.refresh.coordinateChordBody p = f.refresh.coordinateChordBody p := by
    intro p
    have := Q (.coordinateChord p true)
    simp only [Query2.ask] at this
    simp only [coordinateChordBody, this, es, esp]
  have ecoord : ∀ p, k.refresh.coordinateBody p = f.refresh.coordinateBody p := by
    intro p
    have q1 := Q (.coordinateChord p true)
    have q2 := Q (.coordinate p true)
    simp only [Query2.ask] at q1 q2
    simp only [coordinateBody, echord, q1, q2, es, esp, ed, ewt]
  have etan : ∀ p d, k.refresh.tangentVectorBody p d = f.refresh.tangentVectorBody p d := by
    intro p d
    have q1 := Q (.tangentVector p d)
    simp only [Query2.ask] at q1
    simp only [tangentVectorBody, swingAngleBody, q1, es, esp, ed, ewt]
  cases q with
  | constant => exact Q .constant
  | coordinate p => exact ecoord p
  | coordinateChord p => exact echord p
  | length => exact Q .length
  | lengthSlack => exact Q .lengthSlack
  | positionFractionOrigin => exact Q .positionFractionOrigin
  | positionFractionSagPoint => exact Q .positionFractionSagPoint
  | sag => exact Q .sag
  | sagAt p => exact Q (.sagAt p)
  | swingAngle => simp only [Query3.ask, swingAngle, swingAngleBody, ewt]
  | tangentAngleTransverse p d => simp only [Query3.ask, tangentAngleTransverse, tangentVector, etan]
  | tangentAngleVertical p d => simp only [Query3.ask, tangentAngleVertical, tangentVector, etan]
  | tangentVector p d => exact etan p d
  | tension p => exact Q (.tension p)
  | tensionVector p d =>
    have := Q (.tension p)
    simp only [Query2.ask] at this
    simp only [Query3.ask, tensionVector, tangentVector, etan, Catenary3d.tension, this]
  | tensionAverage n => exact Q (.tensionAverage n)
  | tensionMax => exact Q .tensionMax
  | validate =>
    have := Q .validate
    simp only [Query2.ask] at this
    simp only [Query3.ask, Catenary3d.validate, this]
    rfl

/-! ## C51: vertical load -/

section
variable {k : Catenary3d} (R : k.Reachable) (P : k.Physical)
include R P

/-- C51: under a vertical load the 3D catenary is the 2D catenary in the x-z plane. -/
theorem C51_vertical (hy : k.weightUnit.y = 0) :
    let k2 := ((Catenary2d.new.setSpacing ⟨k.spacing.x, k.spacing.z⟩).setTension
      k.tensionHorizontal).setWeight k.weightUnit.z
    (∀ p, k.coordinate p = ⟨(k2.coordinate p true).x, 0, (k2.coordinate p true).y⟩) ∧
    (∀ p, k.coordinateChord p = ⟨(k2.coordinateChord p true).x, 0, (k2.coordinateChord p true).y⟩) ∧
    (∀ p d, k.tangentVector p d = ⟨(k2.tangentVector p d).x, 0, (k2.tangentVector p d).y⟩) ∧
    k.length = k2.lengthQ ∧ k.sag = k2.sag ∧ (∀ p, k.sagAt p = k2.sagAt p) ∧
    (∀ p, k.tension p = k2.tension p) ∧ k.tensionMax = k2.tensionMax ∧
    (∀ n, k.tensionAverage n = k2.tensionAverage n) ∧ k.swingAngle = 0 := by
  intro k2
  obtain ⟨r1, s1, w1⟩ := R.inner
  obtain ⟨d1, sp1, wt1, h1⟩ := Catenary3d.refresh_params k
  have hwm : k.weightUnit.magnitude = k.weightUnit.z := by
    unfold V3.magnitude
    rw [P.wx, hy]
    simp [Real.sqrt_sq P.wz.le]
  have hsp : k.spacing2d = ⟨k.spacing.x, k.spacing.z⟩ := by
    unfold spacing2d
    simp only
    rw [hwm, abs_of_pos P.wz, div_self P.wz.ne']
    ext
    · show √(k.spacing.magnitude ^ 2 - (k.spacing.z * 1) ^ 2) = k.spacing.x
      rw [V3.magnitude_sq, P.sy]
      have : k.spacing.x ^ 2 + 0 ^ 2 + k.spacing.z ^ 2 - (k.spacing.z * 1) ^ 2 = k.spacing.x ^ 2 := by ring
      rw [this, Real.sqrt_sq P.sx.le]
    · show k.spacing.z * 1 = k.spacing.z
      ring
  have Q : ∀ {B : Type} (q : Query2 B), q.ask k.refresh.catenary2d = q.ask k2 := by
    intro B q
    rw [C50_history_2d r1 q, s1, w1, h1, hsp, hwm]
  have hrot : k.spacing.angle .xz - k.spacing2d.angle = 0 := by
    rw [hsp]
    show V2.angle ⟨k.spacing.x, k.spacing.z⟩ - _ = 0
    ring
  have hwa : k.weightUnit.angle .zy = 0 := by
    show V2.angle ⟨k.weightUnit.z, k.weightUnit.y⟩ = 0
    rw [V2.angle_of_pos _ P.wz]
    simp [hy, toDegrees_eq]
  have r0 : ∀ (v : V3) (pl : Plane), v.rotate pl 0 = v := by
    intro v pl
    unfold V3.rotate
    rw [if_pos (by rw [abs_zero]; norm_num)]
  have hchord : ∀ p, k.refresh.coordinateChordBody p =
      ⟨(k2.coordinateChord p true).x, 0, (k2.coordinateChord p true).y⟩ := by
    intro p
    have q1 := Q (.coordinateChord p true)
    simp only [Query2.ask] at q1
    simp only [coordinateChordBody, q1, s1, sp1, hrot, r0, sub_zero]
  refine ⟨?_, hchord, ?_, Q .length, Q .sag, fun p => Q (.sagAt p), fun p => Q (.tension p),
    Q .tensionMax, fun n => Q (.tensionAverage n), ?_⟩
  · intro p
    have q1 := Q (.coordinateChord p true)
    have q2 := Q (.coordinate p true)
    simp only [Query2.ask] at q1 q2
    simp only [Catenary3d.coordinate, coordinateBody, hchord, q1, q2, s1, sp1, wt1, hrot, hwa, zero_mul, ite_self,
      r0]
    ext <;> simp
  · intro p d
    have q1 := Q (.tangentVector p d)
    simp only [Query2.ask] at q1
    simp only [Catenary3d.tangentVector, tangentVectorBody, q1, wt1, hy, ne_eq, not_true_eq_false, and_false, if_false]
  · simp [swingAngle, swingAngleBody, wt1, hy, toDegrees_eq]

/-! ## C52: ends -/

/-- The rotated 2D spacing is the 3D spacing up to `1e-6` of its length. -/
theorem rotated_spacing (t : ℝ) (ht : t = k.spacing.angle .xz - k.spacing2d.angle) :
    |(k.spacing2d.rotate t).x - k.spacing.x| ≤ 1e-6 * k.spacing.magnitude ∧
    |(k.spacing2d.rotate t).y - k.spacing.z| ≤ 1e-6 * k.spacing.magnitude := by
  have hx2 : 0 < k.spacing2d.x := lt_of_lt_of_le P.sx P.s2x
  have hm := V3.magnitude_nonneg k.spacing
  obtain ⟨a1, a2⟩ := V2.polar_of_pos (y := k.spacing.z) P.sx
  obtain ⟨b1, b2⟩ := V2.polar_of_pos (y := k.spacing2d.y) hx2
  have e1 : √(k.spacing.x ^ 2 + k.spacing.z ^ 2) = k.spacing.magnitude := by
    unfold V3.magnitude; rw [P.sy]; congr 1; ring
  have e2 : √(k.spacing2d.x ^ 2 + k.spacing2d.y ^ 2) = k.spacing.magnitude := P.chord
  rw [e1] at a1 a2
  rw [e2] at b1 b2
  have hd := P.angle_diff.1
  rw [← ht] at hd
  have p1 := kPi_lt_pi
  have p2 := pi_sub_kPi
  have p3 := kPi_pos
  have p4 : kPi < 4 := by norm_num [kPi]
  set α := Real.arctan (k.spacing.z / k.spacing.x)
  set β := Real.arctan (k.spacing2d.y / k.spacing2d.x)
  by_cases hdead : |t| < 0.00005
  · have er : k.spacing2d.rotate t = k.spacing2d := by unfold V2.rotate; rw [if_pos hdead]
    rw [er]
    have hβ : |β - α| ≤ 1e-6 := by
      have : α - β = toRadians t := by rw [hd, toRadians_toDegrees]
      rw [abs_sub_comm, this, toRadians_eq, abs_mul, abs_of_pos (by positivity : (0:ℝ) < kPi / 180)]
      have : |t| * (kPi / 180) ≤ 0.00005 * (kPi / 180) :=
        mul_le_mul_of_nonneg_right hdead.le (by positivity)
      have k4 : kPi < 3.15 := by norm_num [kPi]
      linarith
    have near := V2.polar_near k.spacing.magnitude β α hm
    rw [← a1, ← a2, ← b1, ← b2] at near
    have hb := mul_le_mul_of_nonneg_left hβ hm
    exact ⟨near.1.trans (by linarith), near.2.trans (by linarith)⟩
  · have er : k.spacing2d.rotate t = ⟨k.spacing.magnitude * Real.cos (toRadians (k.spacing2d.angle + t)),
        k.spacing.magnitude * Real.sin (toRadians (k.spacing2d.angle + t))⟩ := by
      unfold V2.rotate; rw [if_neg hdead, P.chord]
    rw [er]
    have ea : k.spacing2d.angle + t = toDegrees α + (if k.spacing.z < 0 then 360 else 0) := by
      have e1 : k.spacing.angle .xz = (V2.mk k.spacing.x k.spacing.z).angle := rfl
      have e2 := V2.angle_of_pos (V2.mk k.spacing.x k.spacing.z) P.sx
      rw [← e1] at e2
      rw [ht, ← e2]
      ring
    have near : ∀ r : ℝ, |toRadians (k.spacing2d.angle + t) - r| ≤ 1e-6 → Real.cos r = Real.cos α →
        Real.sin r = Real.sin α →
        |k.spacing.magnitude * Real.cos (toRadians (k.spacing2d.angle + t)) - k.spacing.x| ≤
          1e-6 * k.spacing.magnitude ∧
        |k.spacing.magnitude * Real.sin (toRadians (k.spacing2d.angle + t)) - k.spacing.z| ≤
          1e-6 * k.spacing.magnitude := by
      intro r hr hc hs
      have near := V2.polar_near k.spacing.magnitude (toRadians (k.spacing2d.angle + t)) r hm
      rw [hc, hs, ← a1, ← a2] at near
      have hb := mul_le_mul_of_nonneg_left hr hm
      exact ⟨near.1.trans (by linarith), near.2.trans (by linarith)⟩
    rw [ea] at near ⊢
    split
    · rename_i hz
      rw [if_pos hz] at near
      apply near (α + 2 * Real.pi)
      · rw [toRadians_add, toRadians_toDegrees, toRadians_360, abs_le]
        constructor <;> linarith
      · exact Real.cos_add_two_pi α
      · exact Real.sin_add_two_pi α
    · rename_i hz
      rw [if_neg hz] at near
      apply near α
      · rw [add_zero, toRadians_toDegrees, sub_self, abs_zero]; norm_num
      · rfl
      · rfl

/-- The 3D chord point is a fraction of the rotated 2D spacing. -/
theorem chord_fraction (p : ℝ) (hp0 : 0 ≤ p) (hp1 : p ≤ 1) :
    ∃ f, 0 ≤ f ∧ f ≤ 1 ∧ (p = 0 → f = 0) ∧ (p = 1 → f = 1) ∧
    k.coordinateChord p = ⟨f * (k.spacing2d.rotate (k.spacing.angle .xz - k.spacing2d.angle)).x, 0,
      f * (k.spacing2d.rotate (k.spacing.angle .xz - k.spacing2d.angle)).y⟩ := by
  obtain ⟨r1, s1, w1⟩ := R.inner
  have P2 := P.inner_positive R
  obtain ⟨d1, sp1, wt1, h1⟩ := Catenary3d.refresh_params k
  have hx2 : 0 < k.spacing2d.x := lt_of_lt_of_le P.sx P.s2x
  set c2 := k.refresh.catenary2d with hc2
  have hmem := Catenary2d.coordinateX_mem P2 hp0 hp1
  have hspan := Catenary2d.span_eq P2
  rw [s1] at hspan
  set f := (c2.update.coordinateX p - c2.update.left.x) / k.spacing2d.x with hf
  have hch : c2.coordinateChord p true = (k.spacing2d).scale f := by
    unfold Catenary2d.coordinateChord
    rw [r1.refresh_eq]
    have e : c2.update.spacing = k.spacing2d := s1
    simp only [Catenary2d.coordinateChordBody, Catenary2d.coordinateBody, if_true, Bool.false_eq_true, if_false,
      V2.scale, e, hf]
    ext
    · simp only; field_simp
    · simp only; field_simp; ring
  have hf0 : 0 ≤ f := div_nonneg (by linarith [hmem.1]) hx2.le
  refine ⟨f, hf0, ?_, ?_, ?_, ?_⟩
  · rw [hf, div_le_one hx2]; linarith [hmem.2]
  · rintro rfl
    rw [hf, Catenary2d.coordinateX_zero P2, sub_self, zero_div]
  · rintro rfl
    rw [hf, Catenary2d.coordinateX_one P2, hspan, div_self hx2.ne']
  · unfold Catenary3d.coordinateChord
    simp only [coordinateChordBody, ← hc2, hch, s1, sp1, sub_zero]
    set t := k.spacing.angle .xz - k.spacing2d.angle
    have e3 : ∀ v : V2, (V3.mk v.x 0 v.y).rotate .xz t = ⟨(v.rotate t).x, 0, (v.rotate t).y⟩ := by
      intro v
      unfold V3.rotate
      split
      · rename_i h
        unfold V2.rotate
        rw [if_pos h]
      · rfl
    rw [e3]
    rcases hf0.lt_or_eq with h | h
    · rw [V2.rotate_scale _ h]
      ext <;> simp only [V2.scale] <;> ring
    · rw [← h]
      have : k.spacing2d.scale 0 = ⟨0, 0⟩ := by ext <;> simp [V2.scale]
      rw [this, C30_rotate_zero]
      simp

/-- C52: points of the chord lie on the straight line to the far end, up to `1e-6` of its length. -/
theorem C52_chord (p : ℝ) (hp0 : 0 ≤ p) (hp1 : p ≤ 1) :
    ∃ f, 0 ≤ f ∧ f ≤ 1 ∧ (p = 0 → f = 0) ∧ (p = 1 → f = 1) ∧ (k.coordinateChord p).y = 0 ∧
      |(k.coordinateChord p).x - f * k.spacing.x| ≤ 1e-6 * k.spacing.magnitude ∧
      |(k.coordinateChord p).z - f * k.spacing.z| ≤ 1e-6 * k.spacing.magnitude := by
  obtain ⟨f, f0, f1, g0, g1, e⟩ := chord_fraction R P p hp0 hp1
  obtain ⟨n1, n2⟩ := rotated_spacing R P _ rfl
  have hm := V3.magnitude_nonneg k.spacing
  refine ⟨f, f0, f1, g0, g1, by rw [e], ?_, ?_⟩
  · rw [e]
    simp only
    rw [← mul_sub, abs_mul, abs_of_nonneg f0]
    exact (mul_le_of_le_one_left (abs_nonneg _) f1).trans n1
  · rw [e]
    simp only
    rw [← mul_sub, abs_mul, abs_of_nonneg f0]
    exact (mul_le_of_le_one_left (abs_nonneg _) f1).trans n2

/-- The curve meets the chord at both ends. -/
theorem coordinate_end (p : ℝ) (hp : p = 0 ∨ p = 1) : k.coordinate p = k.coordinateChord p := by
  obtain ⟨r1, s1, w1⟩ := R.inner
  have P2 := P.inner_positive R
  have hsag : k.refresh.catenary2d.sagAt p = 0 := by
    rcases hp with rfl | rfl
    · exact (C47_sag_ends r1 P2).1
    · exact (C47_sag_ends r1 P2).2
  have ex : (k.refresh.catenary2d.coordinate p true).x - (k.refresh.catenary2d.coordinateChord p true).x = 0 := by
    simp [Catenary2d.coordinate, Catenary2d.coordinateChord, Catenary2d.coordinateBody,
      Catenary2d.coordinateChordBody]
  have ey : (k.refresh.catenary2d.coordinate p true).y - (k.refresh.catenary2d.coordinateChord p true).y = 0 := by
    simp only [Catenary2d.sagAt, Catenary2d.sagBody, Catenary2d.coordinateBody,
      Catenary2d.coordinateChordBody, Bool.false_eq_true, if_false] at hsag
    simp only [Catenary2d.coordinate, Catenary2d.coordinateChord, Catenary2d.coordinateBody,
      Catenary2d.coordinateChordBody, if_true, Bool.false_eq_true, if_false]
    linarith
  unfold Catenary3d.coordinate Catenary3d.coordinateChord
  simp only [coordinateBody, ex, ey, V3.rotate_zero, add_zero]

/-- C52: the 3D catenary starts at the origin. -/
theorem C52_start : k.coordinate 0 = ⟨0, 0, 0⟩ := by
  rw [coordinate_end R P 0 (Or.inl rfl)]
  obtain ⟨f, _, _, g0, _, e⟩ := chord_fraction R P 0 (le_refl _) zero_le_one
  rw [e, g0 rfl]
  simp

/-- C52: the 3D catenary ends at the spacing, up to `1e-6` of its length. -/
theorem C52_end :
    |(k.coordinate 1).x - k.spacing.x| ≤ 1e-6 * k.spacing.magnitude ∧
    |(k.coordinate 1).y - k.spacing.y| ≤ 1e-6 * k.spacing.magnitude ∧
    |(k.coordinate 1).z - k.spacing.z| ≤ 1e-6 * k.spacing.magnitude := by
  rw [coordinate_end R P 1 (Or.inr rfl)]
  obtain ⟨f, _, _, _, g1, hy, h1, h2⟩ := C52_chord R P 1 zero_le_one (le_refl _)
  rw [g1 rfl, one_mul] at h1 h2
  refine ⟨h1, ?_, h2⟩
  rw [hy, P.sy, sub_zero, abs_zero]
  have := V3.magnitude_nonneg k.spacing
  positivity

/-! ## C53: magnitudes -/

omit P in
/-- C53: the tangent vector is a unit vector. -/
theorem C53_tangent_unit (p : ℝ) (d : Direction) (hd : d ≠ .null) :
    (k.tangentVector p d).magnitude = 1 := by
  have h2 : ((k.refresh.catenary2d.tangentVector p d)).magnitude = 1 := by
    cases d with
    | null => exact absurd rfl hd
    | positive => simp [Catenary2d.tangentVector, Catenary2d.tangentVectorBody, V2.magnitude]
    | negative => simp [Catenary2d.tangentVector, Catenary2d.tangentVectorBody, V2.magnitude]
  have h3 : (V3.mk (k.refresh.catenary2d.tangentVector p d).x 0
      (k.refresh.catenary2d.tangentVector p d).y).magnitude = 1 := by
    rw [← h2]
    unfold V3.magnitude V2.magnitude
    congr 1; ring
  unfold Catenary3d.tangentVector
  simp only [tangentVectorBody]
  split
  · rw [V3.rotate_magnitude]
    split
    · rw [V3.rotate_magnitude, h3]
    · exact h3
  · split
    · rw [V3.rotate_magnitude, h3]
    · exact h3

/-- C53: the tension vector is as long as the tension. -/
theorem C53_tension_magnitude (p : ℝ) (d : Direction) (hd : d ≠ .null) :
    (k.tensionVector p d).magnitude = k.tension p := by
  have ht : 0 ≤ k.tension p := by
    have P2 := P.inner_positive R
    exact le_trans P2.h.le (C44_tension_ge R.inner.1 P2 p)
  unfold Catenary3d.tensionVector
  rw [V3.magnitude_scale _ ht, C53_tangent_unit R p d hd, one_mul]

/-! ## C54: validation -/

omit P in
/-- C54: what `Validate` accepts, and that it reports a message exactly when it rejects. -/
theorem C54_validate_3d :
    (k.validate.1 = true ↔
      0 < k.tensionHorizontal ∧ 0 < k.spacing.x ∧ k.spacing.y = 0 ∧ |k.spacing.z| < 2000 ∧
      k.weightUnit.x = 0 ∧ 0 ≤ k.weightUnit.y ∧ 0 < k.weightUnit.z ∧
      k.spacing.magnitude / 2 ≤ k.tensionHorizontal / k.weightUnit.magnitude) ∧
    (k.validate.1 = true ↔ k.validate.2 = []) := by
  obtain ⟨r1, s1, w1⟩ := R.inner
  have h1 := (Catenary3d.refresh_params k).2.2.2
  have hv := C54_validate_2d k.refresh.catenary2d
  unfold Catenary3d.validate
  by_cases h2 : k.spacing.x ≤ 0
  · simp [h2, not_lt.2 h2]
  by_cases h3 : k.spacing.y = 0
  case neg => simp [h2, h3]
  by_cases h4 : 2000 ≤ |k.spacing.z|
  · simp [h2, h3, h4, not_lt.2 h4]
  have h4' : ¬ (10000 < |k.spacing.z|) := by intro h; apply h4; linarith
  by_cases h5 : k.weightUnit.x = 0
  case neg => simp [h2, h3, h4, h4', h5]
  by_cases h6 : k.weightUnit.y < 0
  · simp [h2, h3, h4, h4', h5, h6, not_le.2 h6]
  by_cases h7 : k.weightUnit.z ≤ 0
  · simp [h2, h3, h4, h4', h5, h6, h7, not_lt.2 h7]
  simp only [h2, h3, h4, h4', h5, h6, h7, ne_eq, not_true_eq_false, or_self, if_false, List.append_nil,
    List.isEmpty_nil, Bool.true_eq_false, List.nil_append]
  refine ⟨?_, hv.2⟩
  rw [hv.1, h1, s1, w1]
  constructor
  · rintro ⟨a, b, c, d, e⟩
    have P : k.Physical := ⟨a, not_le.1 h2, h3, h5, not_lt.1 h6, not_le.1 h7⟩
    rw [P.chord] at e
    exact ⟨a, not_le.1 h2, trivial, not_le.1 h4, trivial, not_lt.1 h6, not_le.1 h7, e⟩
  · rintro ⟨a, _, _, _, _, _, _, e⟩
    have P : k.Physical := ⟨a, not_le.1 h2, h3, h5, not_lt.1 h6, not_le.1 h7⟩
    rw [P.chord]
    refine ⟨a, P.w_pos, lt_of_lt_of_le P.sx P.s2x, ?_, e⟩
    obtain ⟨q0, q1⟩ := P.ratio
    show |k.spacing.z * (|k.weightUnit.z| / k.weightUnit.magnitude)| < 2000
    rw [abs_mul, abs_of_pos q0]
    have := mul_le_of_le_one_right (abs_nonneg k.spacing.z) q1
    linarith [not_le.1 h4]

omit P in
/-- C54: an accepted 3D catenary satisfies the hypotheses of the theorems above. -/
theorem C54_validate_physical (h : k.validate.1 = true) : k.Physical := by
  obtain ⟨a, b, c, _, e, f, g, _⟩ := (C54_validate_3d R).1.1 h
  exact ⟨a, b, c, e, f, g⟩

/-- C54: the 2D catenary behind a 3D catenary has a chord as long as the 3D chord: the slack is the
length minus the distance of the end points. -/
theorem C54_chord : k.lengthSlack = k.length - k.spacing.magnitude ∧ 0 < k.lengthSlack := by
  obtain ⟨r1, s1, w1⟩ := R.inner
  have P2 := P.inner_positive R
  refine ⟨?_, C43_slack_pos r1 P2⟩
  unfold Catenary3d.lengthSlack Catenary3d.length Catenary2d.lengthSlack Catenary2d.lengthQ
  rw [(Catenary2d.refresh_params _).2.2, s1, P.chord]

/-! ## C84: sag follows the load, C85: tension vectors balance the load -/

/-- The sign of the transverse load. -/
noncomputable def sense (d : Direction) : ℝ := if d = .negative then -1 else 1

omit R in
/-- Rotating a vertical vector through the swing angle. -/
theorem swing_rotation (v : ℝ) (t : ℝ) (ht : t = sense k.direction *
      toDegrees (Real.arctan (k.weightUnit.y / k.weightUnit.z))) :
    |((V2.mk 0 v).rotate t).x + sense k.direction * v * (k.weightUnit.y / k.weightUnit.magnitude)| ≤
      2e-6 * |v| ∧
    |((V2.mk 0 v).rotate t).y - v * (k.weightUnit.z / k.weightUnit.magnitude)| ≤ 2e-6 * |v| := by
  obtain ⟨c1, s1⟩ := V2.polar_of_pos (y := k.weightUnit.y) P.wz
  have e1 : √(k.weightUnit.z ^ 2 + k.weightUnit.y ^ 2) = k.weightUnit.magnitude := by
    unfold V3.magnitude; rw [P.wx]; congr 1; ring
  rw [e1] at c1 s1
  have hw := P.w_pos
  have hθ0 : 0 ≤ Real.arctan (k.weightUnit.y / k.weightUnit.z) :=
    Real.arctan_nonneg.2 (div_nonneg P.wy P.wz.le)
  have hθ1 := Real.arctan_lt_pi_div_two (k.weightUnit.y / k.weightUnit.z)
  have hσ : |sense k.direction| = 1 := by unfold sense; split <;> simp
  have hdeg := toDegrees_lt hθ1
  have hdeg0 := toDegrees_nonneg hθ0
  have ht' : |t| ≤ 360 := by rw [ht, abs_mul, hσ, one_mul, abs_of_nonneg hdeg0]; linarith
  obtain ⟨a1, a2⟩ := C31_rotate_accurate (V2.mk 0 v) t ht'
  have emag : √((V2.mk 0 v).x ^ 2 + (V2.mk 0 v).y ^ 2) = |v| := by
    simp [Real.sqrt_sq_eq_abs]
  rw [emag] at a1 a2
  set θ := Real.arctan (k.weightUnit.y / k.weightUnit.z) with hθ
  have p1 := kPi_lt_pi
  have p2 := pi_sub_kPi
  have p3 := kPi_pos
  have p4 : (3:ℝ) < kPi := by norm_num [kPi]
  have near : |t * Real.pi / 180 - sense k.direction * θ| ≤ 1e-6 := by
    have : t * Real.pi / 180 - sense k.direction * θ =
        sense k.direction * (θ * ((Real.pi - kPi) / kPi)) := by
      rw [ht, toDegrees_eq]; field_simp
    rw [this, abs_mul, hσ, one_mul, abs_of_nonneg (by
      apply mul_nonneg hθ0; apply div_nonneg <;> linarith)]
    have h1 : (Real.pi - kPi) / kPi ≤ 4e-15 := by
      rw [div_le_iff₀ p3]; linarith
    have h2 : θ ≤ 2 := by linarith [Real.pi_lt_d2]
    have h3 : 0 ≤ (Real.pi - kPi) / kPi := div_nonneg (by linarith) p3.le
    nlinarith
  have hcos : |Real.cos (t * Real.pi / 180) - Real.cos θ| ≤ 1e-6 := by
    have : Real.cos (sense k.direction * θ) = Real.cos θ := by
      unfold sense; split <;> simp
    rw [← this]
    exact (Real.abs_cos_sub_cos_le _ _).trans near
  have hsin : |Real.sin (t * Real.pi / 180) - sense k.direction * Real.sin θ| ≤ 1e-6 := by
    have : Real.sin (sense k.direction * θ) = sense k.direction * Real.sin θ := by
      unfold sense; split <;> simp
    rw [← this]
    exact (Real.abs_sin_sub_sin_le _ _).trans near
  have ec : k.weightUnit.z / k.weightUnit.magnitude = Real.cos θ := by
    rw [div_eq_iff hw.ne', mul_comm]; exact c1
  have es : k.weightUnit.y / k.weightUnit.magnitude = Real.sin θ := by
    rw [div_eq_iff hw.ne', mul_comm]; exact s1
  rw [ec, es]
  simp only [exactRotation, zero_mul, zero_sub, zero_add] at a1 a2
  have hv := abs_nonneg v
  constructor
  · have : ((V2.mk 0 v).rotate t).x + sense k.direction * v * Real.sin θ =
      (((V2.mk 0 v).rotate t).x - -(v * Real.sin (t * Real.pi / 180))) -
        v * (Real.sin (t * Real.pi / 180) - sense k.direction * Real.sin θ) := by ring
    rw [this]
    refine (abs_sub _ _).trans ?_
    rw [abs_mul]
    have := mul_le_mul_of_nonneg_left hsin hv
    linarith
  · have : ((V2.mk 0 v).rotate t).y - v * Real.cos θ =
      (((V2.mk 0 v).rotate t).y - (v * Real.cos (t * Real.pi / 180))) +
        v * (Real.cos (t * Real.pi / 180) - Real.cos θ) := by ring
    rw [this]
    refine (abs_add_le _ _).trans ?_
    rw [abs_mul]
    have := mul_le_mul_of_nonneg_left hcos hv
    linarith

omit R P in
theorem rotate_yz (v : V3) (t : ℝ) :
    v.rotate .yz t = ⟨v.x, ((V2.mk v.y v.z).rotate t).x, ((V2.mk v.y v.z).rotate t).y⟩ := by
  unfold V3.rotate
  split
  · rename_i h
    unfold V2.rotate
    rw [if_pos h]
  · rfl

omit R P in
theorem rotate_xz (v : V3) (t : ℝ) :
    v.rotate .xz t = ⟨((V2.mk v.x v.z).rotate t).x, v.y, ((V2.mk v.x v.z).rotate t).y⟩ := by
  unfold V3.rotate
  split
  · rename_i h
    unfold V2.rotate
    rw [if_pos h]
  · rfl

/-- The offset of the curve from the chord before the swing. -/
theorem coordinate_eq (p : ℝ) :
    k.coordinate p =
      let c := k.coordinateChord p
      let u := (V2.mk 0 (-k.sagAt p)).rotate (k.spacing.angle .xz - k.spacing2d.angle)
      let u' := (V2.mk 0 u.y).rotate (sense k.direction *
        toDegrees (Real.arctan (k.weightUnit.y / k.weightUnit.z)))
      ⟨c.x + u.x, c.y + u'.x, c.z + u'.y⟩ := by
  obtain ⟨r1, s1, w1⟩ := R.inner
  obtain ⟨d1, sp1, wt1, h1⟩ := Catenary3d.refresh_params k
  have ex : (k.refresh.catenary2d.coordinate p true).x - (k.refresh.catenary2d.coordinateChord p true).x = 0 := by
    simp [Catenary2d.coordinate, Catenary2d.coordinateChord, Catenary2d.coordinateBody,
      Catenary2d.coordinateChordBody]
  have ey : (k.refresh.catenary2d.coordinate p true).y - (k.refresh.catenary2d.coordinateChord p true).y =
      -k.sagAt p := by
    simp only [Catenary3d.sagAt, Catenary2d.sagAt, Catenary2d.sagBody, Catenary2d.coordinateBody,
      Catenary2d.coordinateChordBody, Bool.false_eq_true, if_false, Catenary2d.coordinate,
      Catenary2d.coordinateChord, if_true]
    ring
  have ea : (if k.direction = .negative then k.weightUnit.angle .zy * -1 else k.weightUnit.angle .zy) =
      sense k.direction * toDegrees (Real.arctan (k.weightUnit.y / k.weightUnit.z)) := by
    have : k.weightUnit.angle .zy = toDegrees (Real.arctan (k.weightUnit.y / k.weightUnit.z)) := by
      show V2.angle ⟨k.weightUnit.z, k.weightUnit.y⟩ = _
      rw [V2.angle_of_pos _ P.wz]
      simp [not_lt.2 P.wy]
    rw [this]
    unfold sense
    split <;> ring
  unfold Catenary3d.coordinate
  simp only [coordinateBody, ex, ey, s1, sp1, wt1, d1, ea, rotate_xz, rotate_yz]
  rfl

omit R in
/-- On a level span the chord needs no rotation. -/
theorem level_angle (hz : k.spacing.z = 0) : k.spacing.angle .xz - k.spacing2d.angle = 0 := by
  rw [P.angle_diff.1]
  have : k.spacing2d.y = 0 := by
    show k.spacing.z * _ = 0
    rw [hz, zero_mul]
  simp [hz, this, toDegrees_eq]

/-- C84 (level spans): the curve hangs from the chord in the direction of the load, by the sag, up to
`2e-6` of the sag.  Missing: inclined spans under a transverse load, for which `C84_witness` shows the
statement to be false. -/
theorem C84_sag_direction_partial (hz : k.spacing.z = 0) (p : ℝ) (h0 : 0 ≤ p) (h1 : p ≤ 1) :
    (k.coordinate p).x = (k.coordinateChord p).x ∧
    |(k.coordinate p).y - (k.coordinateChord p).y -
      sense k.direction * k.sagAt p * (k.weightUnit.y / k.weightUnit.magnitude)| ≤ 2e-6 * k.sagAt p ∧
    |(k.coordinate p).z - (k.coordinateChord p).z +
      k.sagAt p * (k.weightUnit.z / k.weightUnit.magnitude)| ≤ 2e-6 * k.sagAt p := by
  have hs : 0 ≤ k.sagAt p := C47_sag_nonneg R.inner.1 (P.inner_positive R) h0 h1
  have e := coordinate_eq R P p
  have r0 : ∀ v : V2, v.rotate 0 = v := by
    intro v; unfold V2.rotate; rw [if_pos (by rw [abs_zero]; norm_num)]
  rw [level_angle P hz, r0] at e
  simp only at e
  obtain ⟨a1, a2⟩ := swing_rotation P (-k.sagAt p) _ rfl
  rw [abs_neg, abs_of_nonneg hs] at a1 a2
  rw [e]
  simp only
  refine ⟨by ring, ?_, ?_⟩
  · convert a1 using 2; ring
  · convert a2 using 2; ring

/-- C85 (level spans or vertical load): the longitudinal component of the tension is the horizontal
tension everywhere.  Missing: inclined spans under a transverse load, for which `C85_witness` shows the
statement to be false. -/
theorem C85_longitudinal_partial (hz : k.spacing.z = 0 ∨ k.weightUnit.y = 0) (p : ℝ) :
    (k.tensionVector p .positive).x = k.tensionHorizontal ∧
      (k.tensionVector p .negative).x = -k.tensionHorizontal := by
  obtain ⟨d1, sp1, wt1, h1⟩ := Catenary3d.refresh_params k
  have hno : ¬ (k.spacing.z ≠ 0 ∧ k.weightUnit.y ≠ 0) := by
    rcases hz with h | h <;> simp [h]
  have e : ∀ d, (k.tensionVector p d).x = (k.refresh.catenary2d.tensionVector p d).x := by
    intro d
    unfold Catenary3d.tensionVector Catenary3d.tangentVector
    simp only [tangentVectorBody, sp1, wt1, d1, if_neg hno]
    split
    · rw [rotate_yz]; rfl
    · rfl
  have h := C49_horizontal R.inner.1 (P.inner_positive R) p
  rw [h1] at h
  rw [e, e]
  exact h

/-- C85 (level spans): the pulls of the supports on the two ends of any piece of the cable balance the
load on it, up to `2e-6` of the tensions. -/
theorem C85_equilibrium_partial (hz : k.spacing.z = 0) (hy : k.weightUnit.y ≠ 0) (p q : ℝ) :
    let s := (q - p) * k.length
    (k.tensionVector q .positive).x + (k.tensionVector p .negative).x = 0 ∧
    |(k.tensionVector q .positive).y + (k.tensionVector p .negative).y +
      sense k.direction * k.weightUnit.y * s| ≤ 2e-6 * (k.tension q + k.tension p) ∧
    |(k.tensionVector q .positive).z + (k.tensionVector p .negative).z - k.weightUnit.z * s| ≤
      2e-6 * (k.tension q + k.tension p) := by
  intro s
  obtain ⟨r1, s1, w1⟩ := R.inner
  have P2 := P.inner_positive R
  obtain ⟨d1, sp1, wt1, h1⟩ := Catenary3d.refresh_params k
  have hw := P.w_pos
  have hx := C85_longitudinal_partial R P (Or.inl hz)
  have heq := C49_equilibrium r1 P2 p q
  rw [w1] at heq
  set c2 := k.refresh.catenary2d with hc2
  have ht : ∀ r, 0 ≤ k.tension r := fun r => le_trans P2.h.le (C44_tension_ge r1 P2 r)
  have key : ∀ r d, d ≠ .null →
      |(k.tensionVector r d).y + sense k.direction * (c2.tensionVector r d).y *
        (k.weightUnit.y / k.weightUnit.magnitude)| ≤ 2e-6 * k.tension r ∧
      |(k.tensionVector r d).z - (c2.tensionVector r d).y *
        (k.weightUnit.z / k.weightUnit.magnitude)| ≤ 2e-6 * k.tension r := by
    intro r d hd
    have ea : (if k.direction = .negative then k.refresh.swingAngleBody * -1 else k.refresh.swingAngleBody) =
        sense k.direction * toDegrees (Real.arctan (k.weightUnit.y / k.weightUnit.z)) := by
      unfold swingAngleBody sense
      rw [wt1]
      split <;> ring
    have ev : k.tensionVector r d = V3.scale (V3.rotate ⟨(c2.tangentVector r d).x, 0,
        (c2.tangentVector r d).y⟩ .yz (sense k.direction *
          toDegrees (Real.arctan (k.weightUnit.y / k.weightUnit.z)))) (k.tension r) := by
      unfold Catenary3d.tensionVector Catenary3d.tangentVector
      have hno : ¬ (k.spacing.z ≠ 0 ∧ k.weightUnit.y ≠ 0) := by simp [hz]
      simp only [tangentVectorBody, sp1, wt1, d1, if_neg hno, if_pos hy, ea]
      rfl
    have e2 : (c2.tensionVector r d).y = (c2.tangentVector r d).y * k.tension r := rfl
    obtain ⟨a1, a2⟩ := swing_rotation P (c2.tangentVector r d).y _ rfl
    have hle : |(c2.tangentVector r d).y| ≤ 1 := by
      cases d with
      | null => exact absurd rfl hd
      | positive => exact Real.abs_sin_le_one _
      | negative => exact Real.abs_sin_le_one _
    rw [ev, rotate_yz, e2]
    simp only [V3.scale]
    have hT := ht r
    constructor
    · rw [show ∀ A B C D E : ℝ, A * D + B * (C * D) * E = (A + B * C * E) * D by intros; ring,
        abs_mul, abs_of_nonneg hT]
      exact mul_le_mul_of_nonneg_right (a1.trans (by linarith)) hT
    · rw [show ∀ A C D E : ℝ, A * D - (C * D) * E = (A - C * E) * D by intros; ring,
        abs_mul, abs_of_nonneg hT]
      exact mul_le_mul_of_nonneg_right (a2.trans (by linarith)) hT
  obtain ⟨a1, a2⟩ := key q .positive (by simp)
  obtain ⟨b1, b2⟩ := key p .negative (by simp)
  have hs : c2.lengthQ = k.length := rfl
  rw [hs] at heq
  refine ⟨by rw [(hx q).1, (hx p).2]; ring, ?_, ?_⟩
  · have : (k.tensionVector q .positive).y + (k.tensionVector p .negative).y +
        sense k.direction * k.weightUnit.y * s =
        ((k.tensionVector q .positive).y + sense k.direction * (c2.tensionVector q .positive).y *
          (k.weightUnit.y / k.weightUnit.magnitude)) +
        ((k.tensionVector p .negative).y + sense k.direction * (c2.tensionVector p .negative).y *
          (k.weightUnit.y / k.weightUnit.magnitude)) := by
      have : sense k.direction * k.weightUnit.y * s = sense k.direction *
          ((c2.tensionVector q .positive).y + (c2.tensionVector p .negative).y) *
          (k.weightUnit.y / k.weightUnit.magnitude) := by
        rw [heq]; show _ * ((q - p) * k.length) = _; field_simp
      rw [this]; ring
    rw [this]
    exact (abs_add_le _ _).trans (by linarith)
  · have : (k.tensionVector q .positive).z + (k.tensionVector p .negative).z - k.weightUnit.z * s =
        ((k.tensionVector q .positive).z - (c2.tensionVector q .positive).y *
          (k.weightUnit.z / k.weightUnit.magnitude)) +
        ((k.tensionVector p .negative).z - (c2.tensionVector p .negative).y *
          (k.weightUnit.z / k.weightUnit.magnitude)) := by
      have : k.weightUnit.z * s =
          ((c2.tensionVector q .positive).y + (c2.tensionVector p .negative).y) *
          (k.weightUnit.z / k.weightUnit.magnitude) := by
        rw [heq]; show _ * ((q - p) * k.length) = _; field_simp
      rw [this]; ring
    rw [this]
    exact (abs_add_le _ _).trans (by linarith)

end

/-- The chord of the example is rotated by the angle `δ` with `sin δ = 0.28`. -/
theorem exCat3_delta : ∃ δ : ℝ, Real.sin δ = 0.28 ∧ 0.28 ≤ δ ∧ δ < Real.pi / 2 ∧
    exCat3.spacing.angle .xz - exCat3.spacing2d.angle = toDegrees δ ∧
    exCat3.spacing.angle .xz true - exCat3.spacing2d.angle true = toDegrees δ := by
  obtain ⟨h1, h2⟩ := exCat3_physical.angle_diff
  have e3 : exCat3.spacing.z / exCat3.spacing.x = 4 / 3 := by
    show (400:ℝ) / 300 = 4 / 3
    norm_num
  have e4 : exCat3.spacing2d.y / exCat3.spacing2d.x = 3 / 4 := by
    rw [exCat3_spacing2d]; norm_num
  have s1 : √(1 + (4 / 3 : ℝ) ^ 2) = 5 / 3 := by
    rw [show (1 + (4 / 3 : ℝ) ^ 2) = (5 / 3) ^ 2 by norm_num, Real.sqrt_sq (by norm_num)]
  have s2 : √(1 + (3 / 4 : ℝ) ^ 2) = 5 / 4 := by
    rw [show (1 + (3 / 4 : ℝ) ^ 2) = (5 / 4) ^ 2 by norm_num, Real.sqrt_sq (by norm_num)]
  have hs : Real.sin (Real.arctan (4 / 3) - Real.arctan (3 / 4)) = 0.28 := by
    rw [Real.sin_sub, Real.sin_arctan, Real.sin_arctan, Real.cos_arctan, Real.cos_arctan, s1, s2]
    norm_num
  have hp : 0 < Real.arctan (3 / 4) := Real.arctan_pos.2 (by norm_num)
  have hl : Real.arctan (3 / 4) < Real.arctan (4 / 3) := Real.arctan_strictMono (by norm_num)
  rw [e3, e4] at h1 h2
  refine ⟨_, hs, ?_, ?_, h1, h2⟩
  · rw [← hs]
    exact Real.sin_le (by linarith)
  · linarith [Real.arctan_lt_pi_div_two (4 / 3)]

/-- C84: on an inclined span under a transverse load the sag has a longitudinal component, though the
load has none. -/
theorem C84_witness : ∃ k : Catenary3d, k.Reachable ∧ k.validate.1 = true ∧
    ∃ p, 0 < p ∧ p < 1 ∧ (k.coordinate p).x ≠ (k.coordinateChord p).x := by
  refine ⟨exCat3, exCat3_reachable, ?_, exCat3.positionFractionSagPoint, ?_⟩
  · rw [(C54_validate_3d exCat3_reachable).1]
    have P := exCat3_physical
    refine ⟨P.h, P.sx, P.sy, ?_, P.wx, P.wy, P.wz, ?_⟩
    · show |(400:ℝ)| < 2000
      rw [abs_of_pos] <;> norm_num
    · have h7 : √7 ^ 2 = (7:ℝ) := Real.sq_sqrt (by norm_num)
      show √((300:ℝ) ^ 2 + 0 ^ 2 + 400 ^ 2) / 2 ≤ 100000 / √(0 ^ 2 + √7 ^ 2 + 3 ^ 2)
      rw [h7, show ((0:ℝ) ^ 2 + 7 + 3 ^ 2) = 4 ^ 2 by norm_num,
        show ((300:ℝ) ^ 2 + 0 ^ 2 + 400 ^ 2) = 500 ^ 2 by norm_num, Real.sqrt_sq (by norm_num),
        Real.sqrt_sq (by norm_num)]
      norm_num
  · have R := exCat3_reachable
    have P := exCat3_physical
    have P2 := P.inner_positive R
    obtain ⟨hsag, g0, g1, _⟩ := C47_sag_point R.inner.1 P2
    have hpos := C47_sag_pos R.inner.1 P2
    refine ⟨g0, g1, ?_⟩
    rw [coordinate_eq R P]
    simp only
    have hs : 0 < exCat3.sagAt exCat3.positionFractionSagPoint := by
      rw [hsag] at hpos; exact hpos
    set s := exCat3.sagAt exCat3.positionFractionSagPoint
    obtain ⟨δ, _, d1, d2, hδ, _⟩ := exCat3_delta
    rw [hδ]
    have p1 := kPi_lt_pi
    have p2 := pi_sub_kPi
    have p3 := kPi_pos
    have p4 : kPi < 4 := by norm_num [kPi]
    have hdead : ¬ |toDegrees δ| < 0.00005 := by
      rw [not_lt, toDegrees_eq, abs_of_nonneg (by positivity)]
      have : (45:ℝ) ≤ 180 / kPi := by rw [le_div_iff₀ p3]; linarith
      nlinarith
    have hang : (V2.mk 0 (-s)).angle = toDegrees (3 * (kPi / 2)) := by
      unfold V2.angle
      simp [hs.ne', not_lt.2 hs.le]
    have hmag : (V2.mk 0 (-s)).magnitude = s := by
      unfold V2.magnitude; simp [Real.sqrt_sq hs.le]
    have hx : ((V2.mk 0 (-s)).rotate (toDegrees δ)).x = s * Real.cos (3 * (kPi / 2) + δ) := by
      unfold V2.rotate
      rw [if_neg hdead]
      simp only
      rw [hang, hmag, toRadians_add, toRadians_toDegrees, toRadians_toDegrees]
    rw [hx]
    have hcos : Real.cos (3 * (kPi / 2) + δ) = Real.sin (δ - 3 / 2 * (Real.pi - kPi)) := by
      have : 3 * (kPi / 2) + δ = (δ - 3 / 2 * (Real.pi - kPi)) - Real.pi / 2 + 2 * Real.pi := by ring
      rw [this, Real.cos_add_two_pi, Real.cos_sub_pi_div_two]
    rw [hcos]
    have : 0 < Real.sin (δ - 3 / 2 * (Real.pi - kPi)) := by
      apply Real.sin_pos_of_pos_of_lt_pi <;> linarith
    have : 0 < s * Real.sin (δ - 3 / 2 * (Real.pi - kPi)) := by positivity
    intro h
    linarith

/-- C85: on an inclined span under a transverse load the longitudinal component of the tension changes
along the cable, though the load has none. -/
theorem C85_witness : ∃ k : Catenary3d, k.Reachable ∧ k.Physical ∧
    ∃ p q, 0 < p ∧ p < 1 ∧ q = 1 ∧
      (k.tensionVector q .positive).x < (k.tensionVector p .positive).x := by
  have R := exCat3_reachable
  have P := exCat3_physical
  have P2 := P.inner_positive R
  obtain ⟨r1, s1, w1⟩ := R.inner
  obtain ⟨hsag, g0, g1, hslope⟩ := C47_sag_point R.inner.1 P2
  refine ⟨exCat3, R, P, exCat3.positionFractionSagPoint, 1, g0, g1, rfl, ?_⟩
  obtain ⟨δ, hsin, d1, d2, _, hδ⟩ := exCat3_delta
  obtain ⟨e1, sp1, wt1, h1⟩ := Catenary3d.refresh_params exCat3
  have h7 : (0:ℝ) < √7 := Real.sqrt_pos.2 (by norm_num)
  have hno : exCat3.spacing.z ≠ 0 ∧ exCat3.weightUnit.y ≠ 0 :=
    ⟨by show (400:ℝ) ≠ 0; norm_num, by show √7 ≠ 0; exact h7.ne'⟩
  set c2 := exCat3.refresh.catenary2d with hc2
  have p3 := kPi_pos
  have p4 : kPi < 4 := by norm_num [kPi]
  have hdead : ¬ |toDegrees δ| < 0.00005 := by
    rw [not_lt, toDegrees_eq, abs_of_nonneg (by positivity)]
    have : (45:ℝ) ≤ 180 / kPi := by rw [le_div_iff₀ p3]; linarith
    nlinarith
  have key : ∀ r, 0 ≤ Real.sinh (c2.update.coordinateX r / (c2.tensionHorizontal / c2.weightUnit)) →
      (exCat3.tensionVector r .positive).x = exCat3.tensionHorizontal *
        (Real.cos δ - Real.sinh (c2.update.coordinateX r / (c2.tensionHorizontal / c2.weightUnit)) *
          Real.sin δ) := by
    intro r hr
    have ev : (exCat3.tensionVector r .positive).x =
        ((c2.tangentVector r .positive).rotate (toDegrees δ)).x * exCat3.tension r := by
      unfold Catenary3d.tensionVector Catenary3d.tangentVector
      simp only [tangentVectorBody, sp1, wt1, e1, if_pos hno, if_pos hno.2, ← hc2, s1, hδ, rotate_xz, rotate_yz]
      rfl
    have et : exCat3.tension r = exCat3.tensionHorizontal *
        Real.cosh (c2.update.coordinateX r / (c2.tensionHorizontal / c2.weightUnit)) := by
      show c2.tension r = _
      unfold Catenary2d.tension
      rw [r1.refresh_eq, ← h1]; rfl
    have hunit := (C49_tangent_unit r1 P2 r).1
    have htv := tangentVector_pos r1 P2 r
    set S := Real.sinh (c2.update.coordinateX r / (c2.tensionHorizontal / c2.weightUnit)) with hS
    set C := Real.cosh (c2.update.coordinateX r / (c2.tensionHorizontal / c2.weightUnit)) with hC
    have hCp : 0 < C := Real.cosh_pos _
    rw [ev, et]
    unfold V2.rotate
    rw [if_neg hdead]
    simp only
    rw [hunit, htv, V2.angle_of_pos _ (by simp only; positivity)]
    simp only
    rw [if_neg (not_lt.2 (by positivity)), add_zero, toRadians_add, toRadians_toDegrees, toRadians_toDegrees]
    have hq : S / C / (1 / C) = S := by field_simp
    have hsq : √(1 + S ^ 2) = C := by
      rw [add_comm, ← Real.cosh_sq, Real.sqrt_sq hCp.le]
    rw [hq, Real.cos_add, Real.cos_arctan, Real.sin_arctan, hsq]
    field_simp
  have hc : 0 < c2.tensionHorizontal / c2.weightUnit := P2.c
  have hsl : Real.sinh (c2.update.coordinateX exCat3.positionFractionSagPoint /
      (c2.tensionHorizontal / c2.weightUnit)) = 300 / 400 := by
    have h := sagPoint_slope r1 P2
    rw [s1, exCat3_spacing2d] at h
    exact h
  have hlt : Real.sinh (c2.update.coordinateX exCat3.positionFractionSagPoint /
      (c2.tensionHorizontal / c2.weightUnit)) <
      Real.sinh (c2.update.coordinateX 1 / (c2.tensionHorizontal / c2.weightUnit)) := by
    rw [Real.sinh_lt_sinh]
    exact div_lt_div_of_pos_right (Catenary2d.coordinateX_strictMono P2 g1) hc
  rw [key 1 (by rw [hsl] at hlt; linarith), key exCat3.positionFractionSagPoint (by rw [hsl]; norm_num), hsin]
  have hH : 0 < exCat3.tensionHorizontal := P.h
  apply mul_lt_mul_of_pos_left _ hH
  linarith

example : exCat3.Reachable ∧ exCat3.Physical := ⟨exCat3_reachable, exCat3_physical⟩

end Verif.Props
