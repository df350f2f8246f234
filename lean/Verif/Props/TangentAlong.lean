import Verif.Props.Catenary3d

/-! # Tangent vectors and tangent angles follow the curve (C167) -/

set_option linter.unusedSectionVars false

namespace Verif.Props

open Verif.Units

section
open Catenary2d
variable {k : Catenary2d} (R : k.Reachable) (P : k.Positive)
include R P

/-- The abscissa along the cable. -/
theorem abscissa_deriv (p : ℝ) : HasDerivAt (fun p => k.update.coordinateX p)
    (k.lengthQ * (k.tangentVector p .positive).x) p := by
  have hc := P.c
  have hL : k.lengthQ = k.update.length := by unfold lengthQ; rw [R.refresh_eq]
  rw [hL, tangentVector_pos R P]
  simp only
  set c := k.tensionHorizontal / k.weightUnit with hcdef
  have e : (fun p => k.update.coordinateX p) =
      fun p => c * Real.arsinh ((p * k.update.length + k.update.lengthLeft) / c) := by
    funext p
    rw [← coordinateX_div P, mul_div_cancel₀ _ hc.ne']
  have h1 : HasDerivAt (fun p : ℝ => (p * k.update.length + k.update.lengthLeft) / c) (k.update.length / c) p := by
    have := (((hasDerivAt_id p).mul_const k.update.length).add_const k.update.lengthLeft).div_const c
    simpa using this
  have h2 := h1.arsinh.const_mul c
  rw [e]
  refine h2.congr_deriv ?_
  rw [smul_eq_mul, ← Real.cosh_arsinh, ← coordinateX_div P]
  rw [← hcdef]
  have := Real.cosh_pos (k.update.coordinateX p / c)
  clear_value c
  field_simp

/-- The ordinate along the cable. -/
theorem ordinate_deriv (p : ℝ) : HasDerivAt (fun p => k.coordinateY (k.update.coordinateX p))
    (k.lengthQ * (k.tangentVector p .positive).y) p := by
  have h := abscissa_deriv R P p
  have hc := P.c
  have hd : ∀ x, HasDerivAt k.coordinateY (Real.sinh (x / (k.tensionHorizontal / k.weightUnit))) x := by
    intro x
    have e : k.coordinateY = fun x : ℝ => (k.tensionHorizontal / k.weightUnit) *
        (Real.cosh (x / (k.tensionHorizontal / k.weightUnit)) - 1) := by
      funext x; rfl
    rw [e]
    set c := k.tensionHorizontal / k.weightUnit
    have h1 : HasDerivAt (fun x : ℝ => x / c) (1 / c) x := (hasDerivAt_id x).div_const c
    have := ((h1.cosh).sub_const 1).const_mul c
    refine this.congr_deriv ?_
    clear_value c
    field_simp
  refine ((hd _).comp p h).congr_deriv ?_
  rw [tangentVector_pos R P]
  simp only
  ring

/-- The curve in the plane moves along its tangent, by the length of the cable. -/
theorem plane_deriv (b : Bool) (p : ℝ) :
    HasDerivAt (fun p => (k.coordinate p b).x) (k.lengthQ * (k.tangentVector p .positive).x) p ∧
    HasDerivAt (fun p => (k.coordinate p b).y) (k.lengthQ * (k.tangentVector p .positive).y) p := by
  have h1 := abscissa_deriv R P p
  have h2 := ordinate_deriv R P p
  unfold coordinate
  rw [R.refresh_eq]
  cases b
  · simp only [coordinateBody, Bool.false_eq_true, if_false]
    exact ⟨h1, h2⟩
  · simp only [coordinateBody, if_true]
    exact ⟨h1.sub_const _, h2.sub_const _⟩

/-- The sag along the cable. -/
theorem sag_deriv (p : ℝ) : HasDerivAt (fun p => k.sagAt p)
    (k.lengthQ * ((k.tangentVector p .positive).x * (k.spacing.y / k.spacing.x) -
      (k.tangentVector p .positive).y)) p := by
  have h1 := abscissa_deriv R P p
  have h2 := ordinate_deriv R P p
  have e : (fun p => k.sagAt p) = fun p => k.coordinateY k.update.left.x +
      (k.update.coordinateX p - k.update.left.x) * (k.spacing.y / k.spacing.x) -
      k.coordinateY (k.update.coordinateX p) := by
    funext p; exact sagAt_eq R P p
  rw [e]
  refine ((((h1.sub_const _).mul_const _).const_add _).sub h2).congr_deriv ?_
  ring

end

open Catenary3d

section
variable {k : Catenary3d} (R : k.Reachable) (P : k.Physical)
include R P

/-- C167 (vertical load): the tangent vector is the direction in which the curve runs: moving along the cable changes the
coordinates by the length of the cable times the tangent vector.  Missing: see
`C167_level_partial` and `C167_inclined`. -/
theorem C167_still_partial (hy : k.weightUnit.y = 0) (p : ℝ) :
    HasDerivAt (fun p => (k.coordinate p).x) (k.length * (k.tangentVector p .positive).x) p ∧
    HasDerivAt (fun p => (k.coordinate p).y) (k.length * (k.tangentVector p .positive).y) p ∧
    HasDerivAt (fun p => (k.coordinate p).z) (k.length * (k.tangentVector p .positive).z) p := by
  obtain ⟨c1, -, c2, c3, -⟩ := C51_vertical R P hy
  set k2 := ((Catenary2d.new.setSpacing ⟨k.spacing.x, k.spacing.z⟩).setTension
      k.tensionHorizontal).setWeight k.weightUnit.z with hk2
  have R2 : k2.Reachable := ⟨[.setSpacing ⟨k.spacing.x, k.spacing.z⟩, .setTension k.tensionHorizontal,
    .setWeight k.weightUnit.z], rfl, rfl⟩
  have P2 : k2.Positive := ⟨P.h, P.wz, P.sx⟩
  obtain ⟨h1, h2⟩ := plane_deriv R2 P2 true p
  simp only [c1, c2, c3, mul_zero]
  exact ⟨h1, hasDerivAt_const p 0, h2⟩

/-- The curve hangs from the chord by the sag, in a fixed direction. -/
theorem hanging : ∃ K : V3, (∀ p, 0 ≤ p → p ≤ 1 → k.coordinate p =
      ⟨(k.coordinateChord p).x + k.sagAt p * K.x, k.sagAt p * K.y, (k.coordinateChord p).z + k.sagAt p * K.z⟩) ∧
    (k.spacing.z = 0 → K.x = 0 ∧
      |K.y - sense k.direction * (k.weightUnit.y / k.weightUnit.magnitude)| ≤ 2e-6 ∧
      |K.z + k.weightUnit.z / k.weightUnit.magnitude| ≤ 2e-6) := by
  set t := k.spacing.angle .xz - k.spacing2d.angle with ht
  set u := (V2.mk 0 (-1)).rotate t with hu
  set s := sense k.direction * toDegrees (Real.arctan (k.weightUnit.y / k.weightUnit.z)) with hs
  set w := (V2.mk 0 u.y).rotate s with hw
  refine ⟨⟨u.x, w.x, w.y⟩, ?_, ?_⟩
  · intro p h0 h1
    have hsag : 0 ≤ k.sagAt p := C47_sag_nonneg R.inner.1 (P.inner_positive R) h0 h1
    obtain ⟨-, -, -, -, -, cy, -, -⟩ := C52_chord R P p h0 h1
    rw [coordinate_eq R P]
    simp only
    rw [cy, zero_add]
    rcases hsag.eq_or_lt with h | h
    · rw [← h, neg_zero, ← ht, C30_rotate_zero]
      simp only
      rw [C30_rotate_zero]
      simp
    · have e1 : (V2.mk 0 (-k.sagAt p)) = (V2.mk 0 (-1)).scale (k.sagAt p) := by
        ext <;> simp [V2.scale]
      have e2 : ((V2.mk 0 (-k.sagAt p)).rotate t) = u.scale (k.sagAt p) := by
        rw [e1, V2.rotate_scale _ h]
      have e3 : (V2.mk 0 (u.scale (k.sagAt p)).y).rotate s = w.scale (k.sagAt p) := by
        have : (V2.mk 0 (u.scale (k.sagAt p)).y) = (V2.mk 0 u.y).scale (k.sagAt p) := by
          ext <;> simp [V2.scale]
        rw [this, V2.rotate_scale _ h]
      rw [← ht, e2, e3]
      ext <;> simp only [V2.scale] <;> ring
  · intro hz
    have ht0 : t = 0 := level_angle P hz
    have hu' : u = ⟨0, -1⟩ := by
      rw [hu, ht0]
      unfold V2.rotate
      rw [if_pos (by rw [abs_zero]; norm_num)]
    obtain ⟨a1, a2⟩ := swing_rotation P (-1) _ rfl
    simp only [abs_neg, abs_one, mul_one] at a1 a2
    rw [hw, hu']
    simp only
    refine ⟨trivial, ?_, ?_⟩
    · convert a1 using 2; ring
    · convert a2 using 2; ring

/-- The tangent vector on a level span: the one in the plane, swung. -/
theorem level_tangent (hz : k.spacing.z = 0) (p : ℝ) (d : Direction) :
    k.tangentVector p d = V3.rotate ⟨(k.refresh.catenary2d.tangentVector p d).x, 0,
      (k.refresh.catenary2d.tangentVector p d).y⟩ .yz
        (sense k.direction * toDegrees (Real.arctan (k.weightUnit.y / k.weightUnit.z))) := by
  obtain ⟨d1, sp1, wt1, h1⟩ := Catenary3d.refresh_params k
  have hno : ¬ (k.spacing.z ≠ 0 ∧ k.weightUnit.y ≠ 0) := by simp [hz]
  have ea : (if k.direction = .negative then k.refresh.swingAngleBody * -1 else k.refresh.swingAngleBody) =
      sense k.direction * toDegrees (Real.arctan (k.weightUnit.y / k.weightUnit.z)) := by
    unfold swingAngleBody sense
    rw [wt1]
    split <;> ring
  unfold Catenary3d.tangentVector
  simp only [tangentVectorBody, sp1, wt1, d1, if_neg hno, ea]
  split
  · rfl
  · rename_i hy
    rw [not_not] at hy
    rw [hy, zero_div, Real.arctan_zero, toDegrees_eq, zero_mul, mul_zero]
    unfold V3.rotate
    rw [if_pos (by rw [abs_zero]; norm_num)]

/-- Its components. -/
theorem level_tangent_near (hz : k.spacing.z = 0) (p : ℝ) (d : Direction) :
    (k.tangentVector p d).x = (k.refresh.catenary2d.tangentVector p d).x ∧
    |(k.tangentVector p d).y + sense k.direction * (k.refresh.catenary2d.tangentVector p d).y *
      (k.weightUnit.y / k.weightUnit.magnitude)| ≤ 2e-6 * |(k.refresh.catenary2d.tangentVector p d).y| ∧
    |(k.tangentVector p d).z - (k.refresh.catenary2d.tangentVector p d).y *
      (k.weightUnit.z / k.weightUnit.magnitude)| ≤ 2e-6 * |(k.refresh.catenary2d.tangentVector p d).y| := by
  rw [level_tangent R P hz, rotate_yz]
  obtain ⟨a1, a2⟩ := swing_rotation P (k.refresh.catenary2d.tangentVector p d).y _ rfl
  exact ⟨rfl, a1, a2⟩

/-- C167 (level spans): moving along the cable changes the coordinates by the length of the cable times the tangent vector,
up to 4 millionths of the length.  Missing: inclined spans under a transverse load, for which `C167_inclined` shows the
statement to be false. -/
theorem C167_level_partial (hz : k.spacing.z = 0) {p : ℝ} (h0 : 0 < p) (h1 : p < 1) : ∃ dy dz,
    HasDerivAt (fun p => (k.coordinate p).x) (k.length * (k.tangentVector p .positive).x) p ∧
    HasDerivAt (fun p => (k.coordinate p).y) dy p ∧ HasDerivAt (fun p => (k.coordinate p).z) dz p ∧
    |dy - k.length * (k.tangentVector p .positive).y| ≤ 4e-6 * k.length ∧
    |dz - k.length * (k.tangentVector p .positive).z| ≤ 4e-6 * k.length := by
  obtain ⟨K, hK, hl⟩ := hanging R P
  obtain ⟨kx, ky, kz⟩ := hl hz
  obtain ⟨r1, s1, w1⟩ := R.inner
  have P2 := P.inner_positive R
  obtain ⟨d1, sp1, wt1, g1⟩ := Catenary3d.refresh_params k
  obtain ⟨t1, t2, t3⟩ := level_tangent_near R P hz p .positive
  have hflat : k.spacing2d.y = 0 := by
    show k.spacing.z * _ = 0
    rw [hz, zero_mul]
  have hchord : ∀ q, (k.coordinateChord q).x = (k.refresh.catenary2d.coordinate q true).x ∧
      (k.coordinateChord q).z = 0 := by
    intro q
    have e : k.coordinateChord q = ⟨(k.refresh.catenary2d.coordinateChord q true).x - 0, 0,
        (k.refresh.catenary2d.coordinateChord q true).y - 0⟩ := by
      unfold Catenary3d.coordinateChord
      simp only [coordinateChordBody, s1, sp1, level_angle P hz]
      unfold V3.rotate
      rw [if_pos (by rw [abs_zero]; norm_num)]
    rw [e]
    simp only [Catenary2d.coordinateChord, Catenary2d.coordinate, r1.refresh_eq, Catenary2d.coordinateChordBody,
      Catenary2d.coordinateBody, if_true, Bool.false_eq_true, if_false, sub_zero, true_and]
    have : k.refresh.catenary2d.update.spacing = k.spacing2d := s1
    rw [this, hflat]
    simp
  have near : ∀ᶠ q in nhds p, k.coordinate q = ⟨(k.refresh.catenary2d.coordinate q true).x,
      k.sagAt q * K.y, k.sagAt q * K.z⟩ := by
    filter_upwards [Ioo_mem_nhds h0 h1] with q hq
    rw [hK q hq.1.le hq.2.le, (hchord q).1, (hchord q).2, kx]
    simp
  set c2 := k.refresh.catenary2d with hc2
  have hL : c2.lengthQ = k.length := rfl
  have hLp : 0 ≤ k.length := by
    rw [← hL]
    unfold Catenary2d.lengthQ
    rw [r1.refresh_eq]
    exact (Catenary2d.length_pos P2).le
  have hx := (plane_deriv r1 P2 true p).1
  have hs : HasDerivAt (fun q => k.sagAt q) (c2.lengthQ * ((c2.tangentVector p .positive).x * (c2.spacing.y / c2.spacing.x) -
      (c2.tangentVector p .positive).y)) p := sag_deriv r1 P2 p
  rw [s1, hflat, zero_div, mul_zero, zero_sub, hL] at hs
  rw [hL] at hx
  have hty : |(c2.tangentVector p .positive).y| ≤ 1 := Real.abs_sin_le_one _
  set ty := (c2.tangentVector p .positive).y with htyd
  refine ⟨k.length * -ty * K.y, k.length * -ty * K.z, ?_, ?_, ?_, ?_, ?_⟩
  · rw [t1]
    exact hx.congr_of_eventuallyEq (near.mono fun q hq => by simp only [hq])
  · exact (hs.mul_const K.y).congr_of_eventuallyEq (near.mono fun q hq => by simp only [hq])
  · exact (hs.mul_const K.z).congr_of_eventuallyEq (near.mono fun q hq => by simp only [hq])
  · have e : k.length * -ty * K.y - k.length * (k.tangentVector p .positive).y =
        k.length * (-ty * (K.y - sense k.direction * (k.weightUnit.y / k.weightUnit.magnitude)) -
          ((k.tangentVector p .positive).y + sense k.direction * ty * (k.weightUnit.y / k.weightUnit.magnitude))) := by ring
    rw [e, abs_mul, abs_of_nonneg hLp, mul_comm]
    apply mul_le_mul_of_nonneg_right _ hLp
    refine (abs_sub _ _).trans ?_
    rw [abs_mul, abs_neg]
    have := mul_le_mul hty ky (abs_nonneg _) zero_le_one
    linarith
  · have e : k.length * -ty * K.z - k.length * (k.tangentVector p .positive).z =
        k.length * (-ty * (K.z + k.weightUnit.z / k.weightUnit.magnitude) -
          ((k.tangentVector p .positive).z - ty * (k.weightUnit.z / k.weightUnit.magnitude))) := by ring
    rw [e, abs_mul, abs_of_nonneg hLp, mul_comm]
    apply mul_le_mul_of_nonneg_right _ hLp
    refine (abs_sub _ _).trans ?_
    rw [abs_mul, abs_neg]
    have := mul_le_mul hty kz (abs_nonneg _) zero_le_one
    linarith

/-- C167 (inclined spans under a transverse load): the tangent vector does not follow the curve.  At the sag point the
curve runs parallel to the chord and has no transverse slope; the tangent vector has one, as large as the inclination of the
chord and the swing make it. -/
theorem C167_inclined (hz : k.spacing.z ≠ 0) (hy : k.weightUnit.y ≠ 0) :
    HasDerivAt (fun p => (k.coordinate p).y) 0 k.positionFractionSagPoint ∧
    |(k.tangentVector k.positionFractionSagPoint .positive).y + sense k.direction *
      (k.spacing.z / k.spacing.magnitude) * (k.weightUnit.y / k.weightUnit.magnitude)| ≤ 4e-6 := by
  obtain ⟨K, hK, -⟩ := hanging R P
  obtain ⟨r1, s1, w1⟩ := R.inner
  have P2 := P.inner_positive R
  obtain ⟨d1, sp1, wt1, g1⟩ := Catenary3d.refresh_params k
  set c2 := k.refresh.catenary2d with hc2
  set p := k.positionFractionSagPoint with hp
  obtain ⟨hsag, h0, h1, -⟩ := C47_sag_point r1 P2
  have hslope := sagPoint_slope r1 P2
  change 0 < p at h0
  change p < 1 at h1
  change Real.sinh (c2.update.coordinateX p / (c2.tensionHorizontal / c2.weightUnit)) = _ at hslope
  have ht := tangentVector_pos r1 P2 p
  rw [hslope] at ht
  have hC : Real.cosh (c2.update.coordinateX p / (c2.tensionHorizontal / c2.weightUnit)) =
      √(1 + (c2.spacing.y / c2.spacing.x) ^ 2) := by
    rw [← hslope, add_comm, ← Real.cosh_sq, Real.sqrt_sq (Real.cosh_pos _).le]
  have hx2 : 0 < k.spacing2d.x := lt_of_lt_of_le P.sx P.s2x
  have hm : 0 < k.spacing.magnitude := by
    rw [← P.chord]
    unfold V2.magnitude
    positivity
  have hC' : Real.cosh (c2.update.coordinateX p / (c2.tensionHorizontal / c2.weightUnit)) =
      k.spacing.magnitude / k.spacing2d.x := by
    rw [hC, s1, ← P.chord]
    unfold V2.magnitude
    rw [show k.spacing2d.x ^ 2 + k.spacing2d.y ^ 2 = (1 + (k.spacing2d.y / k.spacing2d.x) ^ 2) * k.spacing2d.x ^ 2 by
      field_simp, Real.sqrt_mul (by positivity), Real.sqrt_sq hx2.le, mul_div_assoc, div_self hx2.ne', mul_one]
  rw [hC', s1] at ht
  have ht' : c2.tangentVector p .positive = k.spacing2d.scale (1 / k.spacing.magnitude) := by
    rw [ht]
    ext <;> simp only [V2.scale] <;> field_simp
  constructor
  · have hs : HasDerivAt (fun q => k.sagAt q) (c2.lengthQ * ((c2.tangentVector p .positive).x *
        (c2.spacing.y / c2.spacing.x) - (c2.tangentVector p .positive).y)) p := sag_deriv r1 P2 p
    have e0 : (c2.tangentVector p .positive).x * (c2.spacing.y / c2.spacing.x) - (c2.tangentVector p .positive).y = 0 := by
      rw [ht', s1]
      simp only [V2.scale]
      field_simp
      ring
    rw [e0, mul_zero] at hs
    have hd := (hs.mul_const K.y).congr_of_eventuallyEq (f₁ := fun q => (k.coordinate q).y) (by
      filter_upwards [Ioo_mem_nhds h0 h1] with q hq
      rw [hK q hq.1.le hq.2.le])
    rwa [zero_mul] at hd
  · have ea : (if k.direction = .negative then k.refresh.swingAngleBody * -1 else k.refresh.swingAngleBody) =
        sense k.direction * toDegrees (Real.arctan (k.weightUnit.y / k.weightUnit.z)) := by
      unfold swingAngleBody sense
      rw [wt1]
      split <;> ring
    have hangle : k.spacing.angle .xz true - k.spacing2d.angle true = k.spacing.angle .xz - k.spacing2d.angle :=
      P.angle_diff.2.trans P.angle_diff.1.symm
    set u := (k.spacing2d.scale (1 / k.spacing.magnitude)).rotate (k.spacing.angle .xz - k.spacing2d.angle) with hu
    have ev : (k.tangentVector p .positive).y = ((V2.mk 0 u.y).rotate
        (sense k.direction * toDegrees (Real.arctan (k.weightUnit.y / k.weightUnit.z)))).x := by
      unfold Catenary3d.tangentVector
      simp only [tangentVectorBody, sp1, wt1, d1, if_pos (And.intro hz hy), if_pos hy, ea, ← hc2, s1, hangle, rotate_xz,
        rotate_yz, ht']
      rfl
    obtain ⟨n1, n2⟩ := rotated_spacing R P _ rfl
    have hu2 : |u.y - k.spacing.z / k.spacing.magnitude| ≤ 1e-6 := by
      rw [hu, V2.rotate_scale _ (by positivity)]
      simp only [V2.scale]
      rw [mul_one_div, div_sub_div_same, abs_div, abs_of_pos hm, div_le_iff₀ hm]
      exact n2
    obtain ⟨a1, -⟩ := swing_rotation P u.y _ rfl
    have hzm : |k.spacing.z / k.spacing.magnitude| ≤ 1 := by
      rw [abs_div, abs_of_pos hm, div_le_one hm]
      apply Real.abs_le_sqrt
      nlinarith [sq_nonneg k.spacing.x, sq_nonneg k.spacing.y]
    have hwy : |k.weightUnit.y / k.weightUnit.magnitude| ≤ 1 := by
      rw [abs_div, abs_of_pos P.w_pos, div_le_one P.w_pos]
      apply Real.abs_le_sqrt
      nlinarith [sq_nonneg k.weightUnit.x, sq_nonneg k.weightUnit.z]
    have hub : |u.y| ≤ 1.5 := by
      have := abs_add_le (u.y - k.spacing.z / k.spacing.magnitude) (k.spacing.z / k.spacing.magnitude)
      rw [sub_add_cancel] at this
      linarith
    have hσ : |sense k.direction| = 1 := by unfold sense; split <;> simp
    rw [ev]
    have e : ((V2.mk 0 u.y).rotate (sense k.direction * toDegrees (Real.arctan (k.weightUnit.y / k.weightUnit.z)))).x +
        sense k.direction * (k.spacing.z / k.spacing.magnitude) * (k.weightUnit.y / k.weightUnit.magnitude) =
        (((V2.mk 0 u.y).rotate (sense k.direction * toDegrees (Real.arctan (k.weightUnit.y / k.weightUnit.z)))).x +
          sense k.direction * u.y * (k.weightUnit.y / k.weightUnit.magnitude)) -
        sense k.direction * ((u.y - k.spacing.z / k.spacing.magnitude) * (k.weightUnit.y / k.weightUnit.magnitude)) := by ring
    rw [e]
    refine (abs_sub _ _).trans ?_
    rw [abs_mul, hσ, one_mul, abs_mul]
    have := mul_le_mul hu2 hwy (abs_nonneg _) (by norm_num)
    linarith

end

/-! ## Tangent angles -/

/-- The signed angle of a vector that does not point to the left. -/
theorem right_angle (v : V2) (hx : 0 ≤ v.x) (hv : ¬ (v.x = 0 ∧ v.y = 0)) :
    -(90 + 1e-9) ≤ v.angle true ∧ v.angle true ≤ 90 + 1e-9 ∧ (0 ≤ v.y → 0 ≤ v.angle true) := by
  have hk := kPi_pos
  rcases hx.eq_or_lt with h | h
  · have hy : v.y ≠ 0 := fun e => hv ⟨h.symm, e⟩
    have e90 : toDegrees (kPi / 2) = 90 := by rw [toDegrees_eq]; field_simp; norm_num
    have e270 : toDegrees (3 * (kPi / 2)) = 270 := by rw [toDegrees_eq]; field_simp; norm_num
    unfold V2.angle
    rw [if_neg hv]
    simp only [← h, true_or, if_true]
    rcases lt_or_gt_of_ne hy with g | g
    · rw [if_neg (not_lt.2 g.le), e270, if_pos (by norm_num)]
      exact ⟨by norm_num, by norm_num, fun h => absurd h (not_le.2 g)⟩
    · rw [if_pos g, e90, if_neg (by norm_num)]
      norm_num
  · rw [V2.angle_true_of_pos _ h]
    have h1 := Real.arctan_lt_pi_div_two (v.y / v.x)
    have h2 := Real.neg_pi_div_two_lt_arctan (v.y / v.x)
    have p1 := kPi_lt_pi
    have p2 := pi_sub_kPi
    have p4 : (3:ℝ) < kPi := by norm_num [kPi]
    have hb : ∀ r : ℝ, r < Real.pi / 2 → toDegrees r ≤ 90 + 1e-9 := by
      intro r hr
      rw [toDegrees_eq, mul_div_assoc', div_le_iff₀ hk]
      norm_num at p2 ⊢
      linarith
    refine ⟨?_, hb _ h1, ?_⟩
    · have := hb (-Real.arctan (v.y / v.x)) (by linarith)
      rw [toDegrees_eq] at this ⊢
      linarith
    · intro hy
      exact toDegrees_nonneg (Real.arctan_nonneg.2 (div_nonneg hy h.le))

/-- The low point of a curve in the plane. -/
theorem origin_abscissa {k : Catenary2d} (R : k.Reachable) (P : k.Positive) :
    k.update.coordinateX k.positionFractionOrigin = 0 := by
  unfold Catenary2d.positionFractionOrigin
  rw [R.refresh_eq]
  simp only [Catenary2d.positionFractionBody]
  rw [Catenary2d.coordinateX_convert P, toRadians_eq, zero_mul, Real.tan_zero, Real.arsinh_zero, mul_zero]

/-- Two angles between 0 and a right angle with close sines and cosines are close. -/
theorem close_angles {A θ : ℝ} (h0 : 0 ≤ A) (h1 : A ≤ Real.pi / 2 + 1e-9) (g0 : 0 ≤ θ) (g1 : θ ≤ Real.pi / 2)
    (hc : |Real.cos A - Real.cos θ| ≤ 2.1e-6) (hs : |Real.sin A - Real.sin θ| ≤ 2.1e-6) : |A - θ| ≤ 7e-6 := by
  have hsin : |Real.sin (A - θ)| ≤ 4.2e-6 := by
    have e : Real.sin (A - θ) = (Real.sin A - Real.sin θ) * Real.cos θ - (Real.cos A - Real.cos θ) * Real.sin θ := by
      rw [Real.sin_sub]; ring
    rw [e]
    refine (abs_sub _ _).trans ?_
    rw [abs_mul, abs_mul]
    have a1 := mul_le_mul hs (Real.abs_cos_le_one θ) (abs_nonneg _) (by norm_num)
    have a2 := mul_le_mul hc (Real.abs_sin_le_one θ) (abs_nonneg _) (by norm_num)
    linarith
  have key : ∀ x : ℝ, 0 ≤ x → x ≤ Real.pi / 2 + 1e-9 → Real.sin x ≤ 4.2e-6 → x ≤ 7e-6 := by
    intro x x0 x1 hx
    have hpi := Real.pi_lt_d2
    have hpi' := Real.pi_gt_three
    rcases le_or_gt x (Real.pi / 2) with h | h
    · have := Real.mul_le_sin x0 h
      have h2 : 2 / Real.pi * x ≤ 4.2e-6 := this.trans hx
      rw [div_mul_eq_mul_div, div_le_iff₀ (by linarith)] at h2
      nlinarith
    · exfalso
      have e : Real.sin x = Real.cos (x - Real.pi / 2) := by rw [Real.cos_sub_pi_div_two]
      have := Real.one_sub_sq_div_two_le_cos (x := x - Real.pi / 2)
      have h3 : (x - Real.pi / 2) ^ 2 ≤ 1 := by
        have : x - Real.pi / 2 ≤ 1e-9 := by linarith
        have : 0 ≤ x - Real.pi / 2 := by linarith
        nlinarith
      rw [e] at hx
      norm_num at hx
      linarith
  rcases le_total θ A with h | h
  · rw [abs_of_nonneg (by linarith)]
    exact key _ (by linarith) (by linarith) ((le_abs_self _).trans hsin)
  · rw [abs_sub_comm, abs_of_nonneg (by linarith)]
    refine key _ (by linarith) (by linarith) ?_
    rw [show θ - A = -(A - θ) by ring, Real.sin_neg]
    exact (neg_le_abs _).trans hsin

section
variable {k : Catenary3d} (R : k.Reachable) (P : k.Physical)
include R P

omit R P in
/-- C167: the vertical tangent angle is the elevation of the tangent vector above the span direction, between -90 and 90
degrees (up to the digits of pi in use). -/
theorem C167_angle_vertical (p : ℝ) (d : Direction)
    (hv : ¬ ((k.tangentVector p d).x = 0 ∧ (k.tangentVector p d).z = 0)) :
    let v := k.tangentVector p d
    let a := k.tangentAngleVertical p d
    let ρ := √(v.x ^ 2 + v.z ^ 2)
    a ≤ 90 + 1e-9 ∧ -(90 + 1e-9) ≤ a ∧ |ρ * Real.cos (a * Real.pi / 180) - abs v.x| ≤ 1e-13 * ρ ∧
      |ρ * Real.sin (a * Real.pi / 180) - v.z| ≤ 1e-13 * ρ := by
  intro v a ρ
  have hv' : ¬ ((V2.mk |v.x| v.z).x = 0 ∧ (V2.mk |v.x| v.z).y = 0) := by
    simpa using hv
  obtain ⟨r1, r2, -⟩ := right_angle ⟨|v.x|, v.z⟩ (abs_nonneg _) hv'
  obtain ⟨c1, c2⟩ := C29_angle_reproduces ⟨|v.x|, v.z⟩ hv' true
  simp only [sq_abs] at c1 c2
  exact ⟨r2, r1, c1, c2⟩

omit R P in
/-- C167: the transverse tangent angle is the angle of the tangent vector from the vertical in the plane across the span,
between 0 and 90 degrees (up to the digits of pi in use). -/
theorem C167_angle_transverse (p : ℝ) (d : Direction)
    (hv : ¬ ((k.tangentVector p d).z = 0 ∧ (k.tangentVector p d).y = 0)) :
    let v := k.tangentVector p d
    let a := k.tangentAngleTransverse p d
    let ρ := √(v.z ^ 2 + v.y ^ 2)
    0 ≤ a ∧ a ≤ 90 + 1e-9 ∧ |ρ * Real.cos (a * Real.pi / 180) - abs v.z| ≤ 1e-13 * ρ ∧
      |ρ * Real.sin (a * Real.pi / 180) - abs v.y| ≤ 1e-13 * ρ := by
  intro v a ρ
  have hv' : ¬ ((V2.mk |v.z| |v.y|).x = 0 ∧ (V2.mk |v.z| |v.y|).y = 0) := by
    simpa using hv
  obtain ⟨-, r2, r3⟩ := right_angle ⟨|v.z|, |v.y|⟩ (abs_nonneg _) hv'
  obtain ⟨c1, c2⟩ := C29_angle_reproduces ⟨|v.z|, |v.y|⟩ hv' true
  simp only [sq_abs] at c1 c2
  exact ⟨r3 (abs_nonneg _), r2, c1, c2⟩

/-- C167: on a level span the transverse tangent angle is the swing angle, at every position but the low point. -/
theorem C167_angle_swing (hz : k.spacing.z = 0) (p : ℝ) (d : Direction) (hd : d ≠ .null)
    (hp : p ≠ k.positionFractionOrigin) : |k.tangentAngleTransverse p d - k.swingAngle| ≤ 0.001 := by
  obtain ⟨r1, s1, w1⟩ := R.inner
  have P2 := P.inner_positive R
  obtain ⟨d1, sp1, wt1, g1⟩ := Catenary3d.refresh_params k
  set c2 := k.refresh.catenary2d with hc2
  have ty0 : (c2.tangentVector p d).y ≠ 0 := by
    intro h
    have hpos : (c2.tangentVector p .positive).y = 0 := by
      cases d with
      | null => exact absurd rfl hd
      | positive => exact h
      | negative => rw [(C49_tangent_unit r1 P2 p).2.2] at h; simpa using h
    rw [tangentVector_pos r1 P2] at hpos
    simp only [div_eq_zero_iff, (Real.cosh_pos _).ne', or_false] at hpos
    apply hp
    have hx : c2.update.coordinateX p = 0 := by
      rw [Real.sinh_eq_zero, div_eq_zero_iff] at hpos
      rcases hpos with h | h
      · exact h
      · exact absurd h P2.c.ne'
    have ho := origin_abscissa r1 P2
    have := (Catenary2d.coordinateX_strictMono P2).injective (hx.trans ho.symm)
    exact this
  obtain ⟨t1, t2, t3⟩ := level_tangent_near R P hz p d
  set ty := (c2.tangentVector p d).y with hty
  have hmag : (k.tangentVector p d).z ^ 2 + (k.tangentVector p d).y ^ 2 = ty ^ 2 := by
    rw [level_tangent R P hz, rotate_yz]
    simp only
    rw [add_comm, ← V2.magnitude_sq, V2.rotate_magnitude, V2.magnitude_sq]
    simp only
    rw [← hty]
    ring
  have hv : ¬ ((k.tangentVector p d).z = 0 ∧ (k.tangentVector p d).y = 0) := by
    rintro ⟨h1, h2⟩
    rw [h1, h2] at hmag
    have : ty ^ 2 = 0 := by rw [← hmag]; ring
    exact ty0 (pow_eq_zero_iff (two_ne_zero) |>.1 this)
  obtain ⟨a0, a1, a2, a3⟩ := C167_angle_transverse p d hv
  simp only [hmag, Real.sqrt_sq_eq_abs] at a2 a3
  have hty0 : 0 < |ty| := abs_pos.2 ty0
  obtain ⟨e1, e2⟩ := V2.polar_of_pos (y := k.weightUnit.y) P.wz
  have em : √(k.weightUnit.z ^ 2 + k.weightUnit.y ^ 2) = k.weightUnit.magnitude := by
    unfold V3.magnitude; rw [P.wx]; congr 1; ring
  rw [em] at e1 e2
  have hw := P.w_pos
  set θ := Real.arctan (k.weightUnit.y / k.weightUnit.z) with hθ
  have ec : k.weightUnit.z / k.weightUnit.magnitude = Real.cos θ := by
    rw [div_eq_iff hw.ne', mul_comm]; exact e1
  have es : k.weightUnit.y / k.weightUnit.magnitude = Real.sin θ := by
    rw [div_eq_iff hw.ne', mul_comm]; exact e2
  rw [es] at t2
  rw [ec] at t3
  have hθ0 : 0 ≤ θ := Real.arctan_nonneg.2 (div_nonneg P.wy P.wz.le)
  have hθ1 := Real.arctan_lt_pi_div_two (k.weightUnit.y / k.weightUnit.z)
  rw [← hθ] at hθ1
  have hs0 : 0 ≤ Real.sin θ := Real.sin_nonneg_of_nonneg_of_le_pi hθ0 (by linarith [Real.pi_pos])
  have hc0 : 0 ≤ Real.cos θ := Real.cos_nonneg_of_neg_pi_div_two_le_of_le (by linarith [Real.pi_pos]) hθ1.le
  have hσ : |sense k.direction| = 1 := by unfold sense; split <;> simp
  have b2 : |abs (k.tangentVector p d).y - |ty| * Real.sin θ| ≤ 2e-6 * |ty| := by
    have : |ty| * Real.sin θ = |-(sense k.direction * ty * Real.sin θ)| := by
      rw [abs_neg, abs_mul, abs_mul, hσ, one_mul, abs_of_nonneg hs0]
    rw [this]
    refine (abs_abs_sub_abs_le _ _).trans ?_
    rw [sub_neg_eq_add]
    exact t2
  have b3 : |abs (k.tangentVector p d).z - |ty| * Real.cos θ| ≤ 2e-6 * |ty| := by
    have : |ty| * Real.cos θ = |ty * Real.cos θ| := by rw [abs_mul, abs_of_nonneg hc0]
    rw [this]
    exact (abs_abs_sub_abs_le _ _).trans t3
  set A := k.tangentAngleTransverse p d * Real.pi / 180 with hA
  have near : ∀ {x y z : ℝ}, |(|ty|) * x - y| ≤ 1e-13 * |ty| → |y - |ty| * z| ≤ 2e-6 * |ty| → |x - z| ≤ 2.1e-6 := by
    intro x y z h1 h2
    have e : |ty| * (x - z) = (|ty| * x - y) + (y - |ty| * z) := by ring
    have : |ty| * |x - z| ≤ |ty| * 2.1e-6 := by
      rw [← abs_of_pos hty0, ← abs_mul, abs_of_pos hty0, e]
      refine (abs_add_le _ _).trans ?_
      norm_num at h1 h2 ⊢
      linarith
    exact le_of_mul_le_mul_left this hty0
  have p1 := kPi_lt_pi
  have p2 := pi_sub_kPi
  have p3 := kPi_pos
  have p4 : (3:ℝ) < kPi := by norm_num [kPi]
  have hpi := Real.pi_lt_d2
  have hAθ := close_angles (A := A) (θ := θ) (by positivity) (by
      rw [hA]
      norm_num at a1 ⊢
      nlinarith) hθ0 hθ1.le (near a2 b3) (near a3 b2)
  have esw : k.swingAngle = θ * (180 / kPi) := by
    show toDegrees (Real.arctan (k.refresh.weightUnit.y / k.refresh.weightUnit.z)) = _
    rw [wt1, toDegrees_eq]
  have ea : k.tangentAngleTransverse p d = A * (180 / Real.pi) := by
    rw [hA]; field_simp
  have e : k.tangentAngleTransverse p d - k.swingAngle =
      (A - θ) * (180 / Real.pi) - θ * (180 / kPi - 180 / Real.pi) := by rw [ea, esw]; ring
  rw [e]
  refine (abs_sub _ _).trans ?_
  have f1 : 180 / Real.pi ≤ 60 := by
    rw [div_le_iff₀ Real.pi_pos]; linarith
  have f2 : 0 ≤ 180 / kPi - 180 / Real.pi := by
    rw [sub_nonneg]
    exact div_le_div_of_nonneg_left (by norm_num) p3 p1.le
  have f3 : 180 / kPi - 180 / Real.pi ≤ 1e-6 := by
    rw [div_sub_div _ _ p3.ne' Real.pi_pos.ne', div_le_iff₀ (mul_pos p3 Real.pi_pos)]
    have : 9 ≤ kPi * Real.pi := by nlinarith
    norm_num at p2 ⊢
    linarith
  have g1 : |(A - θ) * (180 / Real.pi)| ≤ 7e-6 * 60 := by
    rw [abs_mul, abs_of_pos (by positivity : (0:ℝ) < 180 / Real.pi)]
    exact mul_le_mul hAθ f1 (by positivity) (by norm_num)
  have g2 : |θ * (180 / kPi - 180 / Real.pi)| ≤ 2 * 1e-6 := by
    rw [abs_mul, abs_of_nonneg hθ0, abs_of_nonneg f2]
    exact mul_le_mul (by linarith) f3 f2 (by norm_num)
  norm_num at g1 g2 ⊢
  linarith

/-- C167: at the low point of a level span, where the tangent vector is along the span, the transverse tangent angle is
not an angle but the number -999999. -/
theorem C167_low_point (hz : k.spacing.z = 0) (d : Direction) (hd : d ≠ .null) :
    k.tangentAngleTransverse k.positionFractionOrigin d = -999999 := by
  obtain ⟨r1, s1, w1⟩ := R.inner
  have P2 := P.inner_positive R
  set c2 := k.refresh.catenary2d with hc2
  have ty0 : (c2.tangentVector k.positionFractionOrigin d).y = 0 := by
    have ho : c2.update.coordinateX k.positionFractionOrigin = 0 := origin_abscissa r1 P2
    have hp : (c2.tangentVector k.positionFractionOrigin .positive).y = 0 := by
      rw [tangentVector_pos r1 P2]
      simp only
      rw [ho, zero_div, Real.sinh_zero, zero_div]
    cases d with
    | null => exact absurd rfl hd
    | positive => exact hp
    | negative => rw [(C49_tangent_unit r1 P2 _).2.2]; simp [hp]
  have h := level_tangent R P hz k.positionFractionOrigin d
  rw [rotate_yz, ← hc2, ty0, C30_rotate_zero] at h
  unfold tangentAngleTransverse
  rw [h]
  simp [V3.angle, V3.planar, V2.angle]

end

/-! ## Examples -/

/-- A level span of 1000 under a transverse load. -/
noncomputable def exLevel3 : Catenary3d :=
  ((Catenary3d.new.setSpacing ⟨1000, 0, 0⟩).setTension 5000).setWeight ⟨0, 1, 1⟩

theorem exLevel3_reachable : exLevel3.Reachable :=
  ⟨[.setSpacing ⟨1000, 0, 0⟩, .setTension 5000, .setWeight ⟨0, 1, 1⟩], rfl⟩

theorem exLevel3_physical : exLevel3.Physical := by
  refine ⟨?_, ?_, rfl, rfl, ?_, ?_⟩
  · show (0:ℝ) < 5000; norm_num
  · show (0:ℝ) < 1000; norm_num
  · show (0:ℝ) ≤ 1; norm_num
  · show (0:ℝ) < 1; norm_num

/-- Away from the low point the transverse tangent angle of the example is 45 degrees. -/
example (p : ℝ) (hp : p ≠ exLevel3.positionFractionOrigin) :
    |exLevel3.tangentAngleTransverse p .positive - 45| ≤ 0.002 := by
  have h := C167_angle_swing exLevel3_reachable exLevel3_physical rfl p .positive (by simp) hp
  have e : exLevel3.swingAngle = Real.pi / 4 * (180 / kPi) := by
    show toDegrees (Real.arctan (1 / 1)) = _
    rw [div_one, Real.arctan_one, toDegrees_eq]
  have p1 := kPi_lt_pi
  have p2 := pi_sub_kPi
  have p3 := kPi_pos
  have p4 : (3:ℝ) < kPi := by norm_num [kPi]
  have g : |Real.pi / 4 * (180 / kPi) - 45| ≤ 0.001 := by
    have : Real.pi / 4 * (180 / kPi) - 45 = 45 * ((Real.pi - kPi) / kPi) := by field_simp; ring
    rw [this, abs_of_nonneg (by
      have : 0 ≤ (Real.pi - kPi) / kPi := div_nonneg (by linarith) p3.le
      linarith), mul_div_assoc', div_le_iff₀ p3]
    norm_num at p2 ⊢
    linarith
  rw [e] at h
  have := abs_add_le (exLevel3.tangentAngleTransverse p .positive - Real.pi / 4 * (180 / kPi))
    (Real.pi / 4 * (180 / kPi) - 45)
  rw [sub_add_sub_cancel] at this
  norm_num at h g ⊢
  linarith

/-- C167: on the inclined span of `exCat3` the tangent vector at the sag point has a transverse component of more than a
half, though the curve does not move sideways there. -/
theorem C167_witness : ∃ k : Catenary3d, k.Reachable ∧ k.Physical ∧ ∃ p, 0 < p ∧ p < 1 ∧
    HasDerivAt (fun p => (k.coordinate p).y) 0 p ∧ (k.tangentVector p .positive).y < -0.5 := by
  have R := exCat3_reachable
  have P := exCat3_physical
  have h7 : (2.6:ℝ) < √7 := by
    rw [Real.lt_sqrt (by norm_num)]; norm_num
  obtain ⟨h1, h2⟩ := C167_inclined R P (by show (400:ℝ) ≠ 0; norm_num) (by show √7 ≠ 0; linarith)
  obtain ⟨-, g0, g1, -⟩ := C47_sag_point R.inner.1 (P.inner_positive R)
  refine ⟨exCat3, R, P, exCat3.positionFractionSagPoint, g0, g1, h1, ?_⟩
  have hw : exCat3.weightUnit.magnitude = 4 := by
    show √(0 ^ 2 + √7 ^ 2 + 3 ^ 2) = 4
    rw [Real.sq_sqrt (by norm_num), show ((0:ℝ) ^ 2 + 7 + 3 ^ 2) = 4 ^ 2 by norm_num, Real.sqrt_sq (by norm_num)]
  have hs : exCat3.spacing.magnitude = 500 := by
    show √((300:ℝ) ^ 2 + 0 ^ 2 + 400 ^ 2) = 500
    rw [show ((300:ℝ) ^ 2 + 0 ^ 2 + 400 ^ 2) = 500 ^ 2 by norm_num, Real.sqrt_sq (by norm_num)]
  have e1 : sense exCat3.direction = 1 := if_neg (by decide)
  have e2 : exCat3.spacing.z = 400 := rfl
  have e3 : exCat3.weightUnit.y = √7 := rfl
  rw [hw, hs, e1, e2, e3] at h2
  have := (abs_le.1 h2).2
  norm_num at this ⊢
  linarith

example : exLevel3.Reachable ∧ exLevel3.Physical ∧ exLevel3.spacing.z = 0 ∧ exLevel3.weightUnit.y ≠ 0 :=
  ⟨exLevel3_reachable, exLevel3_physical, rfl, by show (1:ℝ) ≠ 0; norm_num⟩

/-- At the low point of the example the vertical tangent angle is reported, the transverse one is not. -/
example : ¬ ((exLevel3.tangentVector exLevel3.positionFractionOrigin .positive).x = 0 ∧
      (exLevel3.tangentVector exLevel3.positionFractionOrigin .positive).z = 0) ∧
    exLevel3.tangentAngleTransverse exLevel3.positionFractionOrigin .positive = -999999 := by
  have R := exLevel3_reachable
  have P := exLevel3_physical
  refine ⟨fun h => ?_, C167_low_point R P rfl .positive (by simp)⟩
  have hx := (C85_longitudinal_partial R P (Or.inl rfl) exLevel3.positionFractionOrigin).1
  have e : (exLevel3.tensionVector exLevel3.positionFractionOrigin .positive).x =
    (exLevel3.tangentVector exLevel3.positionFractionOrigin .positive).x *
      exLevel3.tension exLevel3.positionFractionOrigin := rfl
  rw [e, h.1, zero_mul] at hx
  exact P.h.ne hx

end Verif.Props
