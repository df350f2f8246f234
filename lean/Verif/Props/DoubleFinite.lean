import Verif.DoubleFiniteLemmas

/-!
# C184: accepted catenaries give finite answers
-/

set_option linter.unusedSectionVars false

namespace Verif.Props
open Verif Verif.Double

/-- A catenary of `double`s that `Validate` accepts, over a span of at least one unit of length, with a tension of at
most about 10^10 times the weight of the cable. -/
structure Ordinary (L : CurveLibrary) (k : Catenary2d) : Prop where
  doubles : IsDouble k.tensionHorizontal ∧ IsDouble k.weightUnit ∧ IsDouble k.spacing.x ∧ IsDouble k.spacing.y
  accepted : Curve.Accepted L k
  span : 1 ≤ k.spacing.x ∧ k.spacing.x ≤ 2 ^ (100 : ℤ)
  taut : k.tensionHorizontal ≤ 2 ^ 36 * (k.weightUnit * k.spacing.x)

variable {L : CurveLibrary} {k : Catenary2d}

theorem Ordinary.magnitude_ge (h : Ordinary L k) {e : ℤ} (he : -500 ≤ e) (hx : (2 : ℝ) ^ e ≤ k.spacing.x) :
    (2 : ℝ) ^ e ≤ Double.magnitude L.toLibrary k.spacing := by
  have h2 : (2 : ℝ) ^ (2 * e) ≤ L.pow k.spacing.x 2 := by
    refine (L.pow_faithful k.spacing.x 2 h.doubles.2.2.1 (Or.inr (by norm_num))).2.1 _
      (isDouble_two_zpow (by omega)) ?_
    rw [mul_comm, zpow_mul]
    exact zpow_le_zpow_left₀ (by norm_num) (two_zpow_pos _).le hx
  have h3 : 0 ≤ L.pow k.spacing.y 2 :=
    (L.pow_faithful k.spacing.y 2 h.doubles.2.2.2 (Or.inr (by norm_num))).nonneg (by positivity)
  unfold Double.magnitude
  refine le_rnd (isDouble_two_zpow (by omega)) ?_
  apply Real.le_sqrt_of_sq_le
  have e2 : ((2 : ℝ) ^ e) ^ 2 = 2 ^ (2 * e) := by rw [mul_comm, zpow_mul]; norm_cast
  rw [e2]
  exact le_rnd (isDouble_two_zpow (by omega)) (by linarith)

/-- The sizes of the constant. -/
theorem Ordinary.constant (h : Ordinary L k) :
    1 / 2 ≤ Curve.constant k ∧ k.spacing.x ≤ 4 * Curve.constant k ∧ Curve.constant k ≤ k.spacing.x * 2 ^ 36 ∧
    Curve.constant k ≤ 2 ^ (136 : ℤ) ∧ Finite.constant k = some (Curve.constant k) := by
  obtain ⟨hH, hw, hx, hy, hc⟩ := h.accepted
  obtain ⟨s1, s2⟩ := h.span
  have hq : k.tensionHorizontal / k.weightUnit ≤ k.spacing.x * 2 ^ 36 := by
    rw [div_le_iff₀ hw]; have := h.taut; linarith
  have hq2 : k.spacing.x * 2 ^ 36 ≤ 2 ^ (136 : ℤ) := by
    calc k.spacing.x * 2 ^ 36 ≤ 2 ^ (100 : ℤ) * 2 ^ 36 := by linarith
      _ = 2 ^ (136 : ℤ) := by norm_num
  have hcu : Curve.constant k ≤ k.spacing.x * 2 ^ 36 := rnd_le (h.doubles.2.2.1.mul_two_pow 36) hq
  refine ⟨?_, ?_, hcu, hcu.trans hq2, ?_⟩
  · have := h.magnitude_ge (e := 0) (by norm_num) (by simpa using s1)
    refine le_trans ?_ hc
    exact le_rnd isDouble_half (by simp at this; linarith)
  · have l1 := Int.zpow_log_le_self (b := 2) (by norm_num) hx
    have l2 := Int.lt_zpow_succ_log_self (b := 2) (by norm_num) k.spacing.x
    have l0 : 0 ≤ Int.log 2 k.spacing.x := by
      rw [← Int.zpow_le_iff_le_log (by norm_num) hx]; simpa using s1
    push_cast at l1 l2
    generalize Int.log 2 k.spacing.x = e at *
    have := h.magnitude_ge (e := e) (by omega) l1
    have h2 : (2 : ℝ) ^ e / 2 ≤ rnd (Double.magnitude L.toLibrary k.spacing / 2) := by
      have e1 : (2 : ℝ) ^ e / 2 = 2 ^ (e - 1) := by rw [zpow_sub_one₀ (by norm_num)]; ring
      rw [e1]
      exact le_rnd (isDouble_two_zpow (by omega)) (by rw [← e1]; linarith)
    rw [zpow_add_one₀ (by norm_num)] at l2
    linarith
  · unfold Finite.constant Curve.constant
    refine chkDiv_ok hw.ne' (e := 136) ?_ (by norm_num)
    rw [abs_of_pos (by positivity)]
    exact hq.trans hq2

theorem Ordinary.pos (h : Ordinary L k) : 0 < Curve.constant k := by have := h.constant.1; linarith

/-- A number of up to `2 ^ 800` constants is finite. -/
theorem Ordinary.chk (h : Ordinary L k) {x : ℝ} {n : ℕ} (hx : |x| ≤ Curve.constant k * 2 ^ n) (hn : n ≤ 800) :
    Double.chk x = some (rnd x) := by
  refine chk_ok (e := 136 + n) (hx.trans ?_) (by omega)
  rw [zpow_add₀ (by norm_num), zpow_natCast]
  exact mul_le_mul_of_nonneg_right h.constant.2.2.2.1 (by positivity)

theorem Ordinary.rnd_le (_ : Ordinary L k) {x : ℝ} {n : ℕ} (hx : |x| ≤ Curve.constant k * 2 ^ n) :
    |rnd x| ≤ Curve.constant k * 2 ^ n := rnd_abs_le ((rnd_isDouble _).mul_two_pow n) hx

theorem Ordinary.arg (h : Ordinary L k) {x : ℝ} {j : ℕ} (hx : |x| ≤ Curve.constant k * 2 ^ j) (hj : j ≤ 1000) :
    chkDiv x (Curve.constant k) = some (rnd (x / Curve.constant k)) ∧ |rnd (x / Curve.constant k)| ≤ 2 ^ j := by
  have hb := abs_div_le h.pos hx
  exact ⟨chkDiv_ok h.pos.ne' (e := j) (by rwa [zpow_natCast]) (by omega), rnd_abs_le (isDouble_two_pow j) hb⟩

theorem isDouble_nat (n : ℕ) (h : n ≤ 2 ^ 53) : IsDouble (n : ℝ) := by
  have := isDouble_int (n := n) (by rw [abs_of_nonneg (by positivity)]; exact_mod_cast h)
  exact_mod_cast this

theorem eight_pow (m : ℕ) : (8 : ℝ) ^ m = 2 ^ (3 * m) := by rw [pow_mul]; norm_num

theorem lib_cosh {t : ℝ} {m : ℕ} (ht : IsDouble t) (h : |t| ≤ 2 * m) (hm : m ≤ 300) :
    chkLib (Real.cosh t) (L.cosh t) = some (L.cosh t) ∧ |L.cosh t| ≤ 2 ^ (3 * m) := by
  have hb := cosh_le_eight m h
  rw [eight_pow] at hb
  exact ⟨chkLib_ok (e := (3 * m : ℕ)) (by rwa [zpow_natCast]) (by omega),
    (L.cosh_faithful t ht).abs_le (isDouble_two_pow _) hb⟩

theorem lib_sinh {t : ℝ} {m : ℕ} (ht : IsDouble t) (h : |t| ≤ 2 * m) (hm : m ≤ 300) :
    chkLib (Real.sinh t) (L.sinh t) = some (L.sinh t) ∧ |L.sinh t| ≤ 2 ^ (3 * m) := by
  have hb := sinh_le_eight m h
  rw [eight_pow] at hb
  exact ⟨chkLib_ok (e := (3 * m : ℕ)) (by rwa [zpow_natCast]) (by omega),
    (L.sinh_faithful t ht).abs_le (isDouble_two_pow _) hb⟩

theorem lib_asinh {t : ℝ} {n j : ℕ} (ht : IsDouble t) (h : |t| ≤ 2 ^ n) (hj : (n : ℝ) + 2 ≤ 2 ^ j) (hj' : j ≤ 1000) :
    chkLib (Real.arsinh t) (L.asinh t) = some (L.asinh t) ∧ |L.asinh t| ≤ 2 ^ j := by
  have hb := (arsinh_le n h).trans hj
  exact ⟨chkLib_ok (e := j) (by rwa [zpow_natCast]) (by omega), (L.asinh_faithful t ht).abs_le (isDouble_two_pow _) hb⟩

theorem Ordinary.coordinateY (h : Ordinary L k) {x : ℝ} {j m : ℕ} (hx : |x| ≤ Curve.constant k * 2 ^ j)
    (hj : (2 : ℝ) ^ j ≤ 2 * m) (hj' : j ≤ 1000) (hm : m ≤ 200) :
    Finite.coordinateY L k x = some (Curve.coordinateY L k x) ∧
    |Curve.coordinateY L k x| ≤ Curve.constant k * 2 ^ (3 * m) := by
  obtain ⟨a1, a2⟩ := h.arg hx hj'
  have ht : IsDouble (rnd (x / Curve.constant k)) := rnd_isDouble _
  obtain ⟨c1, c2⟩ := lib_cosh (L := L) ht (a2.trans hj) (by omega)
  have hy : |L.cosh (rnd (x / Curve.constant k)) - 1| ≤ 2 ^ (3 * m) := by
    have := one_le_cosh_lib L ht
    rw [abs_of_nonneg (by linarith)] at c2 ⊢
    linarith
  have hy2 := rnd_abs_le (isDouble_two_pow (3 * m)) hy
  have hz : |Curve.constant k * rnd (L.cosh (rnd (x / Curve.constant k)) - 1)| ≤ Curve.constant k * 2 ^ (3 * m) :=
    abs_mul_le (abs_of_pos h.pos).le hy2
  refine ⟨?_, h.rnd_le hz⟩
  unfold Finite.coordinateY Curve.coordinateY
  rw [h.constant.2.2.2.2]
  simp only [Option.bind_some]
  rw [a1]
  simp only [Option.bind_some]
  rw [c1]
  simp only [Option.bind_some]
  rw [chk_ok (e := (3 * m : ℕ)) (by rwa [zpow_natCast]) (by omega)]
  simp only [Option.bind_some]
  exact h.chk hz (by omega)

theorem Ordinary.lengthFromOrigin (h : Ordinary L k) {x : ℝ} {j m : ℕ} (hx : |x| ≤ Curve.constant k * 2 ^ j)
    (hj : (2 : ℝ) ^ j ≤ 2 * m) (hj' : j ≤ 1000) (hm : m ≤ 200) :
    Finite.lengthFromOrigin L k x = some (Curve.lengthFromOrigin L k x) ∧
    |Curve.lengthFromOrigin L k x| ≤ Curve.constant k * 2 ^ (3 * m) := by
  obtain ⟨a1, a2⟩ := h.arg hx hj'
  have ht : IsDouble (rnd (x / Curve.constant k)) := rnd_isDouble _
  obtain ⟨c1, c2⟩ := lib_sinh (L := L) ht (a2.trans hj) (by omega)
  have hz : |Curve.constant k * L.sinh (rnd (x / Curve.constant k))| ≤ Curve.constant k * 2 ^ (3 * m) :=
    abs_mul_le (abs_of_pos h.pos).le c2
  refine ⟨?_, h.rnd_le hz⟩
  unfold Finite.lengthFromOrigin Curve.lengthFromOrigin
  rw [h.constant.2.2.2.2]
  simp only [Option.bind_some]
  rw [a1]
  simp only [Option.bind_some]
  rw [c1]
  simp only [Option.bind_some]
  exact h.chk hz (by omega)

/-- The tilt of the span: the argument of the middle between the supports. -/
noncomputable def tilt (L : CurveLibrary) (k : Catenary2d) : ℝ :=
  L.asinh (rnd (rnd (k.spacing.y * halfAngle k) / rnd (k.spacing.x * L.sinh (halfAngle k))))

theorem Ordinary.halfAngle (h : Ordinary L k) :
    (2 : ℝ) ^ (-38 : ℤ) ≤ halfAngle k ∧ halfAngle k ≤ 2 ∧ Double.chk (k.spacing.x / 2) = some (rnd (k.spacing.x / 2)) ∧
    chkDiv (rnd (k.spacing.x / 2)) (Curve.constant k) = some (Props.halfAngle k) := by
  obtain ⟨c1, c2, c3, c4, -⟩ := h.constant
  have hc := h.pos
  obtain ⟨s1, s2⟩ := h.span
  have r1 : k.spacing.x / 4 ≤ rnd (k.spacing.x / 2) := by
    have := rnd_relative (x := k.spacing.x / 2) (by
      rw [abs_of_pos (by linarith)]
      exact (two_zpow_le (by norm_num : (-1022 : ℤ) ≤ -1)).trans (by norm_num; linarith))
    rw [abs_of_pos (by linarith : 0 < k.spacing.x / 2), abs_le] at this
    have hu := u_small
    nlinarith [this.1]
  have r2 : rnd (k.spacing.x / 2) ≤ Curve.constant k * 2 ^ 1 :=
    Double.rnd_le ((rnd_isDouble _).mul_two_pow 1) (by linarith)
  have r0 : 0 ≤ rnd (k.spacing.x / 2) := by linarith
  obtain ⟨a1, a2⟩ := h.arg (x := rnd (k.spacing.x / 2)) (j := 1) (by rwa [abs_of_nonneg r0]) (by norm_num)
  refine ⟨?_, ?_, ?_, a1⟩
  · refine le_rnd (isDouble_two_zpow (by norm_num)) ?_
    rw [le_div_iff₀ hc]
    calc (2 : ℝ) ^ (-38 : ℤ) * Curve.constant k ≤ 2 ^ (-38 : ℤ) * (k.spacing.x * 2 ^ 36) :=
          mul_le_mul_of_nonneg_left c3 (two_zpow_pos _).le
      _ = k.spacing.x / 4 := by norm_num; ring
      _ ≤ _ := r1
  · have := (le_abs_self _).trans a2
    rw [pow_one] at this
    exact this
  · exact chk_ok (e := 100) (by rw [abs_of_pos (by linarith)]; linarith) (by norm_num)

theorem Ordinary.tilt (h : Ordinary L k) :
    |Props.tilt L k| ≤ 2 ^ 4 ∧
    chkLib (Real.sinh (Props.halfAngle k)) (L.sinh (Props.halfAngle k)) = some (L.sinh (Props.halfAngle k)) ∧
    Double.chk (k.spacing.x * L.sinh (Props.halfAngle k)) = some (rnd (k.spacing.x * L.sinh (Props.halfAngle k))) ∧
    Double.chk (k.spacing.y * Props.halfAngle k) = some (rnd (k.spacing.y * Props.halfAngle k)) ∧
    chkDiv (rnd (k.spacing.y * Props.halfAngle k)) (rnd (k.spacing.x * L.sinh (Props.halfAngle k))) =
      some (rnd (rnd (k.spacing.y * Props.halfAngle k) / rnd (k.spacing.x * L.sinh (Props.halfAngle k)))) ∧
    chkLib (Real.arsinh (rnd (rnd (k.spacing.y * Props.halfAngle k) / rnd (k.spacing.x * L.sinh (Props.halfAngle k)))))
      (Props.tilt L k) = some (Props.tilt L k) := by
  obtain ⟨z1, z2, -, -⟩ := h.halfAngle
  have hz : IsDouble (Props.halfAngle k) := rnd_isDouble _
  have z0 : 0 < Props.halfAngle k := (two_zpow_pos _).trans_le z1
  obtain ⟨s1, s2⟩ := h.span
  obtain ⟨-, -, -, hy, -⟩ := h.accepted
  unfold Props.tilt
  generalize Props.halfAngle k = z at *
  obtain ⟨l1, l2⟩ := lib_sinh (L := L) (m := 1) hz (by rw [abs_of_pos z0]; simpa using z2) (by norm_num)
  have l3 : z ≤ L.sinh z := (L.sinh_faithful z hz).2.1 z hz (Real.self_le_sinh_iff.mpr z0.le)
  have l4 : |L.sinh z| = L.sinh z := abs_of_pos (z0.trans_le l3)
  rw [l4] at l2
  have D : z ≤ rnd (k.spacing.x * L.sinh z) := le_rnd hz (by nlinarith)
  have N1 : |k.spacing.y * z| ≤ z * 2 ^ 11 := by
    rw [abs_mul, abs_of_pos z0]; nlinarith
  have N := rnd_abs_le (hz.mul_two_pow 11) N1
  have Q : |rnd (k.spacing.y * z) / rnd (k.spacing.x * L.sinh z)| ≤ 2 ^ 11 :=
    abs_div_le (z0.trans_le D) (N.trans (mul_le_mul_of_nonneg_right D (by norm_num)))
  have hq := rnd_abs_le (isDouble_two_pow 11) Q
  obtain ⟨a1, a2⟩ := lib_asinh (L := L) (n := 11) (j := 4) (rnd_isDouble _) hq (by norm_num) (by norm_num)
  refine ⟨a2, l1, ?_, ?_, ?_, a1⟩
  · refine chk_ok (e := 103) ?_ (by norm_num)
    rw [abs_of_pos (by nlinarith)]
    calc k.spacing.x * L.sinh z ≤ 2 ^ (100 : ℤ) * 2 ^ (3 * 1) :=
          mul_le_mul s2 l2 (by linarith) (two_zpow_pos _).le
      _ = 2 ^ (103 : ℤ) := by norm_num
  · refine chk_ok (e := 12) (N1.trans ?_) (by norm_num)
    norm_num; linarith
  · exact chkDiv_ok (z0.trans_le D).ne' (e := 11) (by exact_mod_cast Q) (by norm_num)

/-- The arguments of the supports. -/
theorem Ordinary.ends (h : Ordinary L k) :
    |Props.tilt L k - Props.halfAngle k| ≤ 2 ^ 5 ∧ |Props.tilt L k + Props.halfAngle k| ≤ 2 ^ 5 := by
  have h1 := h.tilt.1
  obtain ⟨z1, z2, -, -⟩ := h.halfAngle
  have z0 : 0 < Props.halfAngle k := (two_zpow_pos _).trans_le z1
  rw [abs_le] at h1 ⊢
  rw [abs_le]
  norm_num at h1 ⊢
  constructor <;> constructor <;> linarith

theorem Ordinary.point (h : Ordinary L k) {v : ℝ} (hv : |v| ≤ 2 ^ 5) :
    Double.chk v = some (rnd v) ∧ |Curve.constant k * rnd v| ≤ Curve.constant k * 2 ^ 5 ∧
    Double.chk (Curve.constant k * rnd v) = some (rnd (Curve.constant k * rnd v)) := by
  have := abs_mul_le (abs_of_pos h.pos).le (rnd_abs_le (isDouble_two_pow 5) hv)
  exact ⟨chk_ok (e := 5) (by exact_mod_cast hv) (by norm_num), this, h.chk this (by norm_num)⟩

theorem Ordinary.updateEndPoints (h : Ordinary L k) :
    Finite.updateEndPoints L k = some (Curve.updateEndPoints L k) ∧
    |(Curve.updateEndPoints L k).left.x| ≤ Curve.constant k * 2 ^ 5 ∧
    |(Curve.updateEndPoints L k).right.x| ≤ Curve.constant k * 2 ^ 5 ∧
    |(Curve.updateEndPoints L k).left.y| ≤ Curve.constant k * 2 ^ 48 := by
  obtain ⟨-, -, z3, z4⟩ := h.halfAngle
  obtain ⟨-, t2, t3, t4, t5, t6⟩ := h.tilt
  obtain ⟨e1, e2⟩ := h.ends
  obtain ⟨l1, l2, l3⟩ := h.point e1
  obtain ⟨r1, r2, r3⟩ := h.point e2
  have l2' := h.rnd_le l2
  have r2' := h.rnd_le r2
  have yl := h.coordinateY (m := 16) l2' (by norm_num) (by norm_num) (by norm_num)
  have yr := h.coordinateY (m := 16) r2' (by norm_num) (by norm_num) (by norm_num)
  refine ⟨?_, l2', r2', yl.2⟩
  unfold Finite.updateEndPoints
  rw [h.constant.2.2.2.2]
  simp only [Option.bind_some]
  rw [z3]
  simp only [Option.bind_some]
  rw [z4]
  simp only [Option.bind_some]
  rw [t2]
  simp only [Option.bind_some]
  rw [t3]
  simp only [Option.bind_some]
  rw [t4]
  simp only [Option.bind_some]
  rw [t5]
  simp only [Option.bind_some]
  change (chkLib _ (Props.tilt L k)).bind _ = _
  rw [t6]
  simp only [Option.bind_some]
  rw [l1]
  simp only [Option.bind_some]
  rw [l3]
  simp only [Option.bind_some]
  rw [r1]
  simp only [Option.bind_some]
  rw [r3]
  simp only [Option.bind_some]
  rw [yl.1]
  simp only [Option.bind_some]
  rw [yr.1]
  simp only [Option.bind_some]
  rfl

/-- Only the caches change. -/
theorem Ordinary.same {k k' : Catenary2d} (h : Ordinary L k) (h1 : k'.tensionHorizontal = k.tensionHorizontal)
    (h2 : k'.weightUnit = k.weightUnit) (h3 : k'.spacing = k.spacing) : Ordinary L k' := by
  obtain ⟨a, ⟨b1, b2, b3, b4, b5⟩, c, d⟩ := h
  refine ⟨by rw [h1, h2, h3]; exact a, ⟨by rw [h1]; exact b1, by rw [h2]; exact b2, by rw [h3]; exact b3,
    by rw [h3]; exact b4, ?_⟩, by rw [h3]; exact c, by rw [h1, h2, h3]; exact d⟩
  unfold Curve.constant
  rw [h1, h2, h3]; exact b5

theorem Ordinary.updated (h : Ordinary L k) : Ordinary L (Curve.update L k) := h.same rfl rfl rfl

theorem Ordinary.update (h : Ordinary L k) :
    Finite.update L k = some (Curve.update L k) ∧
    |(Curve.update L k).left.x| ≤ Curve.constant k * 2 ^ 5 ∧
    |(Curve.update L k).left.y| ≤ Curve.constant k * 2 ^ 48 ∧
    |(Curve.update L k).lengthLeft| ≤ Curve.constant k * 2 ^ 48 ∧
    |(Curve.update L k).length| ≤ Curve.constant k * 2 ^ 49 := by
  obtain ⟨e1, e2, e3, e4⟩ := h.updateEndPoints
  have hE : Ordinary L (Curve.updateEndPoints L k) := h.same rfl rfl rfl
  have l := hE.lengthFromOrigin (m := 16) e2 (by norm_num) (by norm_num) (by norm_num)
  have r := hE.lengthFromOrigin (m := 16) e3 (by norm_num) (by norm_num) (by norm_num)
  have hd : |Curve.lengthFromOrigin L (Curve.updateEndPoints L k) (Curve.updateEndPoints L k).right.x -
      Curve.lengthFromOrigin L (Curve.updateEndPoints L k) (Curve.updateEndPoints L k).left.x| ≤
      Curve.constant k * 2 ^ 49 := by
    refine (abs_sub _ _).trans ?_
    have a := l.2
    have b := r.2
    change _ ≤ Curve.constant k * 2 ^ 48 at a
    change _ ≤ Curve.constant k * 2 ^ 48 at b
    rw [pow_succ]; linarith
  refine ⟨?_, e2, e4, l.2, h.rnd_le hd⟩
  unfold Finite.update
  rw [e1]
  simp only [Option.bind_some]
  unfold Finite.updateLengths
  rw [l.1]
  simp only [Option.bind_some]
  rw [r.1]
  simp only [Option.bind_some]
  rw [h.chk hd (by norm_num)]
  rfl

/-- The argument that the length of a support is computed from is near to that of the support. -/
theorem Ordinary.near (h : Ordinary L k) {v : ℝ} (hv : |v| ≤ 2 ^ 5) (hr : |rnd v - v| ≤ u * |v|) :
    |rnd (rnd (Curve.constant k * rnd v) / Curve.constant k) - v| ≤ 128 * u := by
  have hc := h.pos
  have hc1 := h.constant.1
  have hu := u_pos
  obtain ⟨-, p2, -⟩ := h.point hv
  have q2 := h.rnd_le p2
  have e1 := rnd_error_le (Curve.constant k * rnd v)
  have e2 := rnd_error_le (rnd (Curve.constant k * rnd v) / Curve.constant k)
  have q3 := abs_div_le hc q2
  have tiny : (2 : ℝ) ^ (-1075 : ℤ) ≤ u := by unfold u; exact two_zpow_le (by norm_num)
  generalize rnd (Curve.constant k * rnd v) = x at *
  generalize (2 : ℝ) ^ (-1075 : ℤ) = τ at *
  have e1' : |x / Curve.constant k - rnd v| ≤ 34 * u := by
    have : x / Curve.constant k - rnd v = (x - Curve.constant k * rnd v) / Curve.constant k := by field_simp
    rw [this]
    refine abs_div_le hc (e1.trans ?_)
    have p3 := mul_le_mul_of_nonneg_left p2 hu.le
    have p4 : u ≤ Curve.constant k * (2 * u) := by nlinarith
    norm_num at p3
    nlinarith
  have e2' : |rnd (x / Curve.constant k) - x / Curve.constant k| ≤ 33 * u := by
    norm_num at q3
    nlinarith
  have e3' : |rnd v - v| ≤ 32 * u := by norm_num at hv; nlinarith
  have := abs_sub_le (rnd (x / Curve.constant k)) (x / Curve.constant k) v
  have := abs_sub_le (x / Curve.constant k) (rnd v) v
  linarith

/-- The computed length from the low point is near to the exact one. -/
theorem Ordinary.length_near (h : Ordinary L k) {x t : ℝ} (ht : t = rnd (x / Curve.constant k)) :
    |Curve.lengthFromOrigin L k x - Curve.constant k * Real.sinh t| ≤
      Curve.constant k * (5 * u * |Real.sinh t| + 2 ^ (-1000 : ℤ)) := by
  have hc := h.pos
  have hc1 := h.constant.1
  have hu := u_pos
  have hu2 := u_small
  have hd : IsDouble t := ht ▸ rnd_isDouble _
  have e1 := (L.sinh_faithful t hd).error_le
  have e2 := rnd_error_le (Curve.constant k * L.sinh t)
  unfold Curve.lengthFromOrigin
  rw [← ht]
  rw [abs_mul, abs_of_pos hc] at e2
  have t1 : (2 : ℝ) ^ (-1074 : ℤ) ≤ 2 ^ (-1000 : ℤ) / 8 := by
    calc (2 : ℝ) ^ (-1074 : ℤ) ≤ 2 ^ (-1003 : ℤ) := two_zpow_le (by norm_num)
      _ = 2 ^ (-1000 : ℤ) / 8 := by
        rw [show (-1003 : ℤ) = -1000 + -3 by norm_num, zpow_add₀ (by norm_num)]; norm_num; ring
  have t2 : (2 : ℝ) ^ (-1075 : ℤ) ≤ 2 ^ (-1074 : ℤ) := two_zpow_le (by norm_num)
  have t3 := two_zpow_pos (-1000)
  have t4 := two_zpow_pos (-1074)
  generalize (2 : ℝ) ^ (-1075 : ℤ) = a at *
  generalize (2 : ℝ) ^ (-1074 : ℤ) = b at *
  generalize (2 : ℝ) ^ (-1000 : ℤ) = τ at *
  generalize Real.sinh t = S at *
  have e3 : |L.sinh t| ≤ |S| + (2 * u * |S| + b) := by
    have := abs_sub_abs_le_abs_sub (L.sinh t) S
    linarith
  have e4 : |Curve.constant k * L.sinh t - Curve.constant k * S| ≤ Curve.constant k * (2 * u * |S| + b) := by
    rw [← mul_sub, abs_mul, abs_of_pos hc]
    exact mul_le_mul_of_nonneg_left e1 hc.le
  have e5 := abs_sub_le (rnd (Curve.constant k * L.sinh t)) (Curve.constant k * L.sinh t) (Curve.constant k * S)
  generalize Curve.constant k = c at *
  have hS := abs_nonneg S
  generalize |S| = A at *
  generalize |L.sinh t| = B at *
  have e6 : u * (c * B) ≤ u * (c * (A + (2 * u * A + b))) := by gcongr
  have e7 : 2 * u * u * A ≤ u * A := by nlinarith [mul_nonneg hu.le hS]
  have e8 : u * b ≤ b := by nlinarith [mul_le_mul_of_nonneg_right hu2.le t4.le]
  have e9 : u * (c * (A + (2 * u * A + b))) = c * (u * A) + c * (2 * u * u * A) + c * (u * b) := by ring
  have e10 : c * (2 * u * A + b) = 2 * (c * (u * A)) + c * b := by ring
  have e11 : c * (5 * u * A + τ) = 5 * (c * (u * A)) + c * τ := by ring
  have e12 : b ≤ 2 * (c * b) := by nlinarith
  have e13 : c * b ≤ c * τ / 8 := by nlinarith
  have e14 := mul_le_mul_of_nonneg_left e7 hc.le
  have e15 := mul_le_mul_of_nonneg_left e8 hc.le
  have e16 : 0 ≤ c * (u * A) := by positivity
  have e17 : 0 ≤ c * τ := by positivity
  linarith

/-- Hyperbolic sines at some distance differ. -/
theorem sinh_gap {a b : ℝ} (hab : a ≤ b) (h : b - a ≤ 8) :
    ∃ M, 1 ≤ M ∧ (b - a) * M ≤ Real.sinh b - Real.sinh a ∧ |Real.sinh a| ≤ 64 * M ∧ |Real.sinh b| ≤ 64 * M := by
  refine ⟨Real.cosh ((a + b) / 2), Real.one_le_cosh _, ?_, ?_, ?_⟩
  · have e : Real.sinh b - Real.sinh a = 2 * Real.cosh ((a + b) / 2) * Real.sinh ((b - a) / 2) := by
      have h1 : b = (a + b) / 2 + (b - a) / 2 := by ring
      have h2 : a = (a + b) / 2 - (b - a) / 2 := by ring
      conv_lhs => rw [h1, h2]
      rw [Real.sinh_add, Real.sinh_sub]
      ring_nf
    rw [e]
    have h1 : (b - a) / 2 ≤ Real.sinh ((b - a) / 2) := Real.self_le_sinh_iff.mpr (by linarith)
    have h2 := Real.one_le_cosh ((a + b) / 2)
    nlinarith
  all_goals
    have key : ∀ m d : ℝ, |d| ≤ 4 → |Real.sinh (m + d)| ≤ 64 * Real.cosh m := by
      intro m d hd
      have h1 := exp_le_eight 2 (t := d) (by push_cast; linarith [le_abs_self d])
      have h2 := exp_le_eight 2 (t := -d) (by push_cast; linarith [neg_le_abs d])
      have p1 := Real.exp_pos m
      have p2 := Real.exp_pos (-m)
      have p3 := Real.exp_pos d
      have p4 := Real.exp_pos (-d)
      rw [Real.sinh_eq, Real.cosh_eq, neg_add, Real.exp_add, Real.exp_add]
      generalize Real.exp m = x at *
      generalize Real.exp (-m) = x' at *
      generalize Real.exp d = y at *
      generalize Real.exp (-d) = y' at *
      norm_num at h1 h2
      rw [abs_le]
      constructor <;> nlinarith [mul_le_mul_of_nonneg_left h1 p1.le, mul_le_mul_of_nonneg_left h2 p2.le,
        mul_pos p1 p3, mul_pos p2 p4]
  · have := key ((a + b) / 2) (-((b - a) / 2)) (by rw [abs_neg, abs_of_nonneg (by linarith)]; linarith)
    rwa [show (a + b) / 2 + -((b - a) / 2) = a by ring] at this
  · have := key ((a + b) / 2) ((b - a) / 2) (by rw [abs_of_nonneg (by linarith)]; linarith)
    rwa [show (a + b) / 2 + (b - a) / 2 = b by ring] at this

/-- The computed length of the cable is not zero. -/
theorem Ordinary.length_pos (h : Ordinary L k) : Curve.constant k * 2 ^ (-41 : ℤ) ≤ (Curve.update L k).length := by
  have hc := h.pos
  have hu := u_pos
  obtain ⟨z1, z2, -, -⟩ := h.halfAngle
  obtain ⟨e1, e2⟩ := h.ends
  have hs : IsDouble (Props.tilt L k) := (L.asinh_faithful _ (rnd_isDouble _)).1
  have hz : IsDouble (Props.halfAngle k) := rnd_isDouble _
  have nl := h.near e1 (rnd_sub_relative hs hz)
  have nr := h.near e2 (rnd_add_relative hs hz)
  have hE : Ordinary L (Curve.updateEndPoints L k) := h.same rfl rfl rfl
  have ll := hE.length_near (x := (Curve.updateEndPoints L k).left.x) rfl
  have lr := hE.length_near (x := (Curve.updateEndPoints L k).right.x) rfl
  change |_ - Curve.constant k * Real.sinh (rnd (rnd (Curve.constant k * rnd (Props.tilt L k - Props.halfAngle k)) /
    Curve.constant k))| ≤ _ at ll
  change |_ - Curve.constant k * Real.sinh (rnd (rnd (Curve.constant k * rnd (Props.tilt L k + Props.halfAngle k)) /
    Curve.constant k))| ≤ _ at lr
  change |_| ≤ Curve.constant k * (5 * u * |Real.sinh (rnd (rnd (Curve.constant k *
    rnd (Props.tilt L k - Props.halfAngle k)) / Curve.constant k))| + _) at ll
  change |_| ≤ Curve.constant k * (5 * u * |Real.sinh (rnd (rnd (Curve.constant k *
    rnd (Props.tilt L k + Props.halfAngle k)) / Curve.constant k))| + _) at lr
  have hd := rnd_sub_relative (rnd_isDouble (Curve.constant k * L.sinh (rnd ((Curve.updateEndPoints L k).right.x / Curve.constant k))))
    (rnd_isDouble (Curve.constant k * L.sinh (rnd ((Curve.updateEndPoints L k).left.x / Curve.constant k))))
  change |(Curve.update L k).length - (Curve.lengthFromOrigin L (Curve.updateEndPoints L k) (Curve.updateEndPoints L k).right.x -
    Curve.lengthFromOrigin L (Curve.updateEndPoints L k) (Curve.updateEndPoints L k).left.x)| ≤
    u * |Curve.lengthFromOrigin L (Curve.updateEndPoints L k) (Curve.updateEndPoints L k).right.x -
    Curve.lengthFromOrigin L (Curve.updateEndPoints L k) (Curve.updateEndPoints L k).left.x| at hd
  generalize rnd (rnd (Curve.constant k * rnd (Props.tilt L k - Props.halfAngle k)) / Curve.constant k) = a at *
  generalize rnd (rnd (Curve.constant k * rnd (Props.tilt L k + Props.halfAngle k)) / Curve.constant k) = b at *
  generalize Curve.lengthFromOrigin L (Curve.updateEndPoints L k) (Curve.updateEndPoints L k).right.x = R at *
  generalize Curve.lengthFromOrigin L (Curve.updateEndPoints L k) (Curve.updateEndPoints L k).left.x = l at *
  generalize (Curve.update L k).length = W at *
  generalize Props.halfAngle k = z at *
  generalize Props.tilt L k = s at *
  generalize Curve.constant k = c at *
  have eu : u = 2 ^ (-38 : ℤ) / 32768 := by unfold u; norm_num
  have t3 : (2 : ℝ) ^ (-1000 : ℤ) ≤ 2 ^ (-38 : ℤ) / 32768 := by rw [← eu]; unfold u; exact two_zpow_le (by norm_num)
  have e41 : (2 : ℝ) ^ (-41 : ℤ) = 2 ^ (-38 : ℤ) / 8 := by norm_num
  have hx0 : (2 : ℝ) ^ (-38 : ℤ) ≤ 1 / 1000000 := by norm_num
  rw [e41]
  have hx1 := two_zpow_pos (-38)
  generalize (2 : ℝ) ^ (-1000 : ℤ) = τ at *
  generalize (2 : ℝ) ^ (-38 : ℤ) = ε at *
  rw [abs_le] at nl nr
  obtain ⟨M, M1, g1, g2, g3⟩ := sinh_gap (a := a) (b := b) (by linarith) (by linarith)
  have hab : z ≤ b - a := by linarith
  have hM : ε * M ≤ Real.sinh b - Real.sinh a := by nlinarith
  generalize Real.sinh a = A at *
  generalize Real.sinh b = B at *
  have al : |l - c * A| ≤ c * (ε * M / 64) := ll.trans (mul_le_mul_of_nonneg_left (by nlinarith) hc.le)
  have ar : |R - c * B| ≤ c * (ε * M / 64) := lr.trans (mul_le_mul_of_nonneg_left (by nlinarith) hc.le)
  rw [abs_le] at al ar
  have hcM := mul_le_mul_of_nonneg_left hM hc.le
  have hce : c * ε ≤ c * (ε * M) := mul_le_mul_of_nonneg_left (by nlinarith) hc.le
  have hRl : c * ε / 2 ≤ R - l := by linarith
  have hp : 0 < R - l := by have : 0 < c * ε := mul_pos hc hx1; linarith
  rw [abs_of_pos hp, abs_le] at hd
  have : u ≤ 1 / 2 := by linarith
  nlinarith [hd.1]

/-- Positions along the cable. -/
theorem Ordinary.coordinateX (h : Ordinary L k) {p : ℝ} {n j : ℕ}
    (hp : |p * (Curve.update L k).length| ≤ Curve.constant k * 2 ^ n) (hn : 48 ≤ n) (hn' : n ≤ 700)
    (hj : ((n + 1 : ℕ) : ℝ) + 2 ≤ 2 ^ j) (hj' : j ≤ 700) :
    Finite.coordinateX L (Curve.update L k) p = some (Curve.coordinateX L (Curve.update L k) p) ∧
    |Curve.coordinateX L (Curve.update L k) p| ≤ Curve.constant k * 2 ^ j := by
  have hc := h.pos
  obtain ⟨-, -, -, u3, -⟩ := h.update
  have hl : |rnd (p * (Curve.update L k).length) + (Curve.update L k).lengthLeft| ≤ Curve.constant k * 2 ^ (n + 1) := by
    refine (abs_add_le _ _).trans ?_
    have a := h.rnd_le hp
    have b : Curve.constant k * 2 ^ 48 ≤ Curve.constant k * 2 ^ n :=
      mul_le_mul_of_nonneg_left (pow_le_pow_right₀ (by norm_num) hn) hc.le
    rw [pow_succ]; linarith
  obtain ⟨a1, a2⟩ := h.arg (h.rnd_le hl) (by omega)
  obtain ⟨b1, b2⟩ := lib_asinh (L := L) (rnd_isDouble _) a2 hj (by omega)
  have hx := abs_mul_le (abs_of_pos hc).le b2
  refine ⟨?_, h.rnd_le hx⟩
  unfold Finite.coordinateX
  rw [h.updated.constant.2.2.2.2]
  simp only [Option.bind_some]
  rw [h.chk hp (by omega)]
  simp only [Option.bind_some]
  rw [h.chk hl (by omega)]
  simp only [Option.bind_some]
  change (chkDiv _ (Curve.constant k)).bind _ = _
  rw [a1]
  simp only [Option.bind_some]
  rw [b1]
  simp only [Option.bind_some]
  exact h.chk hx (by omega)

theorem Ordinary.coordinate (h : Ordinary L k) {p : ℝ} {n j m : ℕ}
    (hp : |p * (Curve.update L k).length| ≤ Curve.constant k * 2 ^ n) (hn : 48 ≤ n) (hn' : n ≤ 700)
    (hj : ((n + 1 : ℕ) : ℝ) + 2 ≤ 2 ^ j) (hj' : j ≤ 700) (hm : (2 : ℝ) ^ j ≤ 2 * m) (hm' : m ≤ 200) :
    Finite.coordinate L (Curve.update L k) p = some (Curve.coordinate L (Curve.update L k) p) ∧
    |(Curve.coordinate L (Curve.update L k) p).x| ≤ Curve.constant k * 2 ^ j ∧
    |(Curve.coordinate L (Curve.update L k) p).y| ≤ Curve.constant k * 2 ^ (3 * m) := by
  obtain ⟨x1, x2⟩ := h.coordinateX hp hn hn' hj hj'
  obtain ⟨y1, y2⟩ := h.updated.coordinateY (j := j) (m := m) x2 hm (by omega) hm'
  refine ⟨?_, x2, y2⟩
  unfold Finite.coordinate
  rw [x1]
  simp only [Option.bind_some]
  rw [y1]
  rfl

theorem Ordinary.sagAt (h : Ordinary L k) {p : ℝ} {n j m : ℕ}
    (hp : |p * (Curve.update L k).length| ≤ Curve.constant k * 2 ^ n) (hn : 48 ≤ n) (hn' : n ≤ 700)
    (hj : ((n + 1 : ℕ) : ℝ) + 2 ≤ 2 ^ j) (hj5 : 5 ≤ j) (hj' : j ≤ 20) (hm : (2 : ℝ) ^ j ≤ 2 * m) (hm1 : 20 ≤ m)
    (hm' : m ≤ 200) :
    Finite.sagAt L (Curve.update L k) p = some (Curve.sagAt L (Curve.update L k) p) := by
  have hc := h.pos
  obtain ⟨s1, s2⟩ := h.span
  obtain ⟨-, -, -, hy, -⟩ := h.accepted
  obtain ⟨c1, c2, c3⟩ := h.coordinate hp hn hn' hj (by omega) hm hm'
  obtain ⟨-, u1, u2, -, -⟩ := h.update
  have hq : |k.spacing.y / k.spacing.x| ≤ 2 ^ 11 := abs_div_le (by linarith) (by norm_num; linarith)
  have hq' := rnd_abs_le (isDouble_two_pow 11) hq
  have pw : ∀ {a b : ℕ}, a ≤ b → Curve.constant k * 2 ^ a ≤ Curve.constant k * 2 ^ b := fun hab =>
    mul_le_mul_of_nonneg_left (pow_le_pow_right₀ (by norm_num) hab) hc.le
  have dx : |(Curve.coordinate L (Curve.update L k) p).x - (Curve.update L k).left.x| ≤ Curve.constant k * 2 ^ (j + 1) := by
    refine (abs_sub _ _).trans ?_
    have := pw hj5
    rw [pow_succ]; linarith
  have dx' := h.rnd_le dx
  have dy : |rnd ((Curve.coordinate L (Curve.update L k) p).x - (Curve.update L k).left.x) *
      rnd (k.spacing.y / k.spacing.x)| ≤ Curve.constant k * 2 ^ (j + 12) := by
    refine (abs_mul_le dx' hq').trans (le_of_eq ?_)
    rw [mul_assoc, ← pow_add]
  have dy' := h.rnd_le dy
  have cy : |(Curve.update L k).left.y + rnd (rnd ((Curve.coordinate L (Curve.update L k) p).x -
      (Curve.update L k).left.x) * rnd (k.spacing.y / k.spacing.x))| ≤ Curve.constant k * 2 ^ 49 := by
    refine (abs_add_le _ _).trans ?_
    have := pw (show j + 12 ≤ 48 by omega)
    rw [pow_succ]; linarith
  have cy' := h.rnd_le cy
  have sy : |(Curve.coordinateChord L (Curve.update L k) p).y - (Curve.coordinate L (Curve.update L k) p).y| ≤
      Curve.constant k * 2 ^ (3 * m + 1) := by
    refine (abs_sub _ _).trans ?_
    have a : |(Curve.coordinateChord L (Curve.update L k) p).y| ≤ Curve.constant k * 2 ^ 49 := cy'
    have := pw (show 49 ≤ 3 * m by omega)
    rw [pow_succ]; linarith
  unfold Finite.sagAt Finite.coordinateChord
  rw [c1]
  simp only [Option.bind_some]
  change ((chkDiv k.spacing.y k.spacing.x).bind _).bind _ = _
  rw [chkDiv_ok (by linarith) (e := 11) (by exact_mod_cast hq) (by norm_num)]
  simp only [Option.bind_some]
  rw [h.chk dx (by omega)]
  simp only [Option.bind_some]
  rw [h.chk dy (by omega)]
  simp only [Option.bind_some]
  rw [h.chk cy (by omega)]
  simp only [Option.bind_some]
  exact h.chk sy (by omega)

theorem Ordinary.fraction (h : Ordinary L k) {p : ℝ} (hp0 : 0 ≤ p) (hp1 : p ≤ 1) :
    |p * (Curve.update L k).length| ≤ Curve.constant k * 2 ^ 49 := by
  have := h.update.2.2.2.2
  rw [abs_mul, abs_of_nonneg hp0]
  nlinarith [abs_nonneg (Curve.update L k).length]

theorem toDegrees_ok (L : Library) {a : ℝ} (ha : |a| ≤ 2) :
    Finite.toDegrees L a = some (Double.toDegrees L a) ∧ |Double.toDegrees L a| ≤ 128 := by
  have p0 : (3 : ℝ) ≤ rnd 3.14159265358979 := le_rnd (isDouble_nat 3 (by norm_num)) (by norm_num)
  have f1 : |180 / rnd 3.14159265358979| ≤ (2 : ℝ) ^ 6 := by
    rw [abs_of_pos (by positivity), div_le_iff₀ (by linarith)]; linarith
  have f2 := rnd_abs_le (isDouble_two_pow 6) f1
  have hd : IsDouble (rnd (180 / rnd 3.14159265358979)) := rnd_isDouble _
  unfold Finite.toDegrees Double.toDegrees convertAngle Double.convert Finite.convert Finite.pow
  simp only
  generalize rnd (180 / rnd 3.14159265358979) = f at *
  have ab : |a * f| ≤ 2 ^ 7 := (abs_mul_le ha f2).trans (by norm_num)
  rw [Library.pow_one L hd, zpow_one, if_neg (by norm_num), chkLib_ok (e := 6) (by exact_mod_cast f2) (by norm_num)]
  simp only [Option.bind_some, if_neg (by decide : ¬ (true = false))]
  have r := rnd_abs_le (isDouble_two_pow 7) ab
  norm_num at r
  exact ⟨chk_ok (e := 7) (by exact_mod_cast ab) (by norm_num), r⟩

theorem toRadians_ok (L : Library) {a : ℝ} (ha : |a| ≤ 128) :
    Finite.toRadians L a = some (convertAngle L a .degreesToRadians) ∧ |convertAngle L a .degreesToRadians| ≤ 3 := by
  have p0 : (0 : ℝ) ≤ rnd 3.14159265358979 := rnd_nonneg (by norm_num)
  have p1 : rnd 3.14159265358979 ≤ (4 : ℝ) := rnd_le (isDouble_nat 4 (by norm_num)) (by norm_num)
  have d3 : IsDouble (3 / 128) := ⟨3, -7, by norm_num, by norm_num, by norm_num⟩
  have f1 : |rnd 3.14159265358979 / 180| ≤ (3 / 128 : ℝ) := by
    rw [abs_of_nonneg (by positivity), div_le_iff₀ (by linarith)]; linarith
  have f2 := rnd_abs_le d3 f1
  have hd : IsDouble (rnd (rnd 3.14159265358979 / 180)) := rnd_isDouble _
  unfold Finite.toRadians convertAngle Double.convert Finite.convert Finite.pow
  simp only
  generalize rnd (rnd 3.14159265358979 / 180) = f at *
  have ab : |a * f| ≤ 3 := (abs_mul_le ha f2).trans (by norm_num)
  rw [Library.pow_one L hd, zpow_one, if_neg (by norm_num), chkLib_ok (e := 0) (f2.trans (by norm_num)) (by norm_num)]
  simp only [Option.bind_some, if_neg (by decide : ¬ (true = false))]
  have r := rnd_abs_le (isDouble_nat 3 (by norm_num)) ab
  exact ⟨chk_ok (e := 2) (ab.trans (by norm_num)) (by norm_num), r⟩

theorem Ordinary.angle (h : Ordinary L k) :
    Finite.angleRight L.toLibrary k.spacing = some (Double.angle L.toLibrary k.spacing true) ∧
    |Double.angle L.toLibrary k.spacing true| ≤ 128 := by
  obtain ⟨s1, s2⟩ := h.span
  obtain ⟨-, -, hx, hy, -⟩ := h.accepted
  have hq : |k.spacing.y / k.spacing.x| ≤ 2 ^ 11 := abs_div_le (by linarith) (by norm_num; linarith)
  have hq1 := chkDiv_ok hx.ne' (e := 11) (by exact_mod_cast hq) (by norm_num)
  have at1 : |Real.arctan (rnd (k.spacing.y / k.spacing.x))| ≤ 2 ^ 1 := by
    have a := Real.arctan_lt_pi_div_two (rnd (k.spacing.y / k.spacing.x))
    have b := Real.neg_pi_div_two_lt_arctan (rnd (k.spacing.y / k.spacing.x))
    have := Real.pi_lt_d20
    rw [abs_le]; constructor <;> linarith
  have at2 := (L.atan_faithful _ (rnd_isDouble (k.spacing.y / k.spacing.x))).abs_le (isDouble_two_pow 1) at1
  rw [pow_one] at at2
  unfold Finite.angleRight Double.angle
  simp only
  rw [if_neg (show ¬ (k.spacing.x = 0 ∧ k.spacing.y = 0) from fun h1 => hx.ne' h1.1)]
  rcases eq_or_ne k.spacing.y 0 with h0 | h0
  · rw [if_pos h0, if_pos (Or.inr h0), if_neg hx.ne', if_pos hx, if_neg (by norm_num)]
    exact ⟨rfl, by norm_num⟩
  rw [if_neg h0, if_neg (show ¬ (k.spacing.x = 0 ∨ k.spacing.y = 0) from fun h1 => h1.elim hx.ne' h0), hq1]
  simp only [Option.bind_some]
  rw [chkLib_ok (e := 1) (by simpa using at1) (by norm_num)]
  simp only [Option.bind_some]
  rcases le_or_gt 0 k.spacing.y with h1 | h1
  · obtain ⟨d1, d2⟩ := toDegrees_ok L.toLibrary at2
    rw [if_pos h1, if_pos h1, if_pos hx.le, d1]
    simp only [Option.bind_some]
    have := (le_abs_self _).trans d2
    rw [if_neg (by linarith), if_neg (by rintro ⟨h2, -⟩; linarith)]
    exact ⟨rfl, d2⟩
  · have at3 : |(|L.atan (rnd (k.spacing.y / k.spacing.x))|)| ≤ 2 := by rwa [abs_abs]
    obtain ⟨d1, d2⟩ := toDegrees_ok L.toLibrary at3
    have d0 : 0 ≤ Double.toDegrees L.toLibrary |L.atan (rnd (k.spacing.y / k.spacing.x))| := by
      unfold Double.toDegrees convertAngle Double.convert
      simp only [if_neg (by decide : ¬ (true = false))]
      refine rnd_nonneg (mul_nonneg (abs_nonneg _) ?_)
      rw [Library.pow_one _ (rnd_isDouble _)]
      exact rnd_nonneg (div_nonneg (by norm_num) (rnd_nonneg (by norm_num)))
    rw [if_neg (not_le.mpr h1), if_neg (not_le.mpr h1), if_neg (not_le.mpr hx), d1]
    simp only [Option.bind_some]
    generalize Double.toDegrees L.toLibrary |L.atan (rnd (k.spacing.y / k.spacing.x))| = d at *
    rw [abs_of_nonneg d0] at d2
    have g1 : (232 : ℝ) ≤ rnd (360 - d) :=
      le_rnd (isDouble_nat 232 (by norm_num)) (by linarith)
    have g2 : rnd (360 - d) ≤ (360 : ℝ) :=
      Double.rnd_le (isDouble_nat 360 (by norm_num)) (by linarith)
    have g3 : |360 - d| ≤ (2 : ℝ) ^ (10 : ℤ) := by rw [abs_of_nonneg (by linarith)]; norm_num; linarith
    rw [chk_ok g3 (by norm_num)]
    simp only [Option.bind_some]
    rw [if_pos (by linarith), if_pos ⟨by linarith, trivial⟩]
    have g4 : |rnd (360 - d) - 360| ≤ 128 := by rw [abs_le]; constructor <;> linarith
    exact ⟨chk_ok (e := 7) (by norm_num; exact g4) (by norm_num),
      rnd_abs_le (by exact_mod_cast isDouble_nat 128 (by norm_num)) g4⟩

theorem Ordinary.sagPoint (h : Ordinary L k) :
    Finite.positionFractionSagPoint L (Curve.update L k) = some (Curve.positionFractionSagPoint L (Curve.update L k)) ∧
    |Curve.positionFractionSagPoint L (Curve.update L k) * (Curve.update L k).length| ≤ Curve.constant k * 2 ^ 98 := by
  have hc := h.pos
  obtain ⟨a1, a2⟩ := h.angle
  obtain ⟨-, -, -, u3, -⟩ := h.update
  obtain ⟨r1, r2⟩ := toRadians_ok L.toLibrary a2
  have rd : IsDouble (convertAngle L.toLibrary (Double.angle L.toLibrary k.spacing true) .degreesToRadians) :=
    rnd_isDouble _
  unfold Finite.positionFractionSagPoint Curve.positionFractionSagPoint Finite.positionFraction Curve.positionFraction
  change (((Finite.angleRight L.toLibrary k.spacing).bind _) = some (Curve.convertToPositionFraction L (Curve.update L k)
    (rnd (Curve.constant k * L.asinh (L.tan (convertAngle L.toLibrary (Double.angle L.toLibrary k.spacing true)
      .degreesToRadians)))))) ∧ |Curve.convertToPositionFraction L (Curve.update L k)
    (rnd (Curve.constant k * L.asinh (L.tan (convertAngle L.toLibrary (Double.angle L.toLibrary k.spacing true)
      .degreesToRadians)))) * _| ≤ _
  rw [a1]
  simp only [Option.bind_some]
  rw [r1]
  simp only [Option.bind_some]
  generalize convertAngle L.toLibrary (Double.angle L.toLibrary k.spacing true) .degreesToRadians = a at *
  have t1 := tan_le rd r2
  have t2 := (L.tan_faithful a rd).abs_le (isDouble_two_zpow (by norm_num)) t1
  rw [chkLib_ok t1 (by norm_num)]
  simp only [Option.bind_some]
  rw [h.updated.constant.2.2.2.2]
  simp only [Option.bind_some]
  obtain ⟨b1, b2⟩ := lib_asinh (L := L) (n := 55) (j := 6) (L.tan_faithful a rd).1 (by exact_mod_cast t2) (by norm_num)
    (by norm_num)
  rw [b1]
  simp only [Option.bind_some]
  have hx := abs_mul_le (abs_of_pos hc).le b2
  change ((Double.chk (Curve.constant k * _)).bind _) = _ ∧ _
  rw [h.chk hx (by norm_num)]
  simp only [Option.bind_some]
  have hx' := h.rnd_le hx
  generalize rnd (Curve.constant k * L.asinh (L.tan a)) = x at *
  obtain ⟨l1, l2⟩ := h.updated.lengthFromOrigin (j := 6) (m := 32) hx' (by norm_num) (by norm_num) (by norm_num)
  change _ ≤ Curve.constant k * 2 ^ 96 at l2
  unfold Finite.convertToPositionFraction Curve.convertToPositionFraction
  rw [l1]
  simp only [Option.bind_some]
  have hd : |Curve.lengthFromOrigin L (Curve.update L k) x - (Curve.update L k).lengthLeft| ≤
      Curve.constant k * 2 ^ 97 := by
    refine (abs_sub _ _).trans ?_
    have : Curve.constant k * 2 ^ 48 ≤ Curve.constant k * 2 ^ 96 :=
      mul_le_mul_of_nonneg_left (by norm_num) hc.le
    rw [pow_succ]; linarith
  rw [h.chk hd (by norm_num)]
  simp only [Option.bind_some]
  have hd' := h.rnd_le hd
  generalize rnd (Curve.lengthFromOrigin L (Curve.update L k) x - (Curve.update L k).lengthLeft) = l at *
  have lp := h.length_pos
  generalize (Curve.update L k).length = W at *
  have W0 : 0 < W := (mul_pos hc (two_zpow_pos _)).trans_le lp
  have hq : |l / W| ≤ 2 ^ (138 : ℤ) := by
    refine abs_div_le W0 (hd'.trans ?_)
    calc Curve.constant k * 2 ^ 97 = Curve.constant k * 2 ^ (-41 : ℤ) * 2 ^ (138 : ℤ) := by
          rw [mul_assoc, ← zpow_add₀ (by norm_num)]; norm_num
      _ ≤ _ := mul_le_mul_of_nonneg_right lp (two_zpow_pos _).le
  refine ⟨chkDiv_ok W0.ne' hq (by norm_num), ?_⟩
  rw [abs_mul, abs_of_pos W0]
  have := rnd_double_le (l / W)
  rw [abs_div, abs_of_pos W0] at this
  calc |rnd (l / W)| * W ≤ 2 * (|l| / W) * W := mul_le_mul_of_nonneg_right this W0.le
    _ = 2 * |l| := by field_simp
    _ ≤ Curve.constant k * 2 ^ 98 := by
      have : Curve.constant k * 2 ^ 98 = 2 * (Curve.constant k * 2 ^ 97) := by ring
      linarith

/-! ## The claim -/

/-- **C184** (update): for a catenary that `Validate` accepts, nothing overflows and nothing is divided by zero while
the end points and the length are computed; and the length is positive.

Partial: spans of at least one unit of length, and tensions up to about 10^10 times the weight of the cable; beyond that
it is false (C184_taut_fails). -/
theorem C184_length_partial (h : Ordinary L k) :
    Finite.update L k = some (Curve.update L k) ∧ 0 < (Curve.update L k).length :=
  ⟨h.update.1, (mul_pos h.pos (two_zpow_pos _)).trans_le h.length_pos⟩

/-- **C184** (sag): the sag at every position, and the greatest sag, are finite. -/
theorem C184_sag_partial (h : Ordinary L k) :
    Finite.sag L (Curve.update L k) = some (Curve.sag L (Curve.update L k)) ∧
    ∀ p, 0 ≤ p → p ≤ 1 → Finite.sagAt L (Curve.update L k) p = some (Curve.sagAt L (Curve.update L k) p) := by
  constructor
  · obtain ⟨p1, p2⟩ := h.sagPoint
    unfold Finite.sag
    rw [p1]
    simp only [Option.bind_some]
    exact h.sagAt (m := 64) (j := 7) p2 (by norm_num) (by norm_num) (by norm_num) (by norm_num) (by norm_num)
      (by norm_num) (by norm_num) (by norm_num)
  · intro p h0 h1
    exact h.sagAt (m := 32) (j := 6) (h.fraction h0 h1) (by norm_num) (by norm_num) (by norm_num) (by norm_num)
      (by norm_num) (by norm_num) (by norm_num) (by norm_num)

/-- **C184** (coordinates and tensions): the coordinates and the tension at every position are finite; for tensions the
horizontal tension may not be larger than `2 ^ 800`. -/
theorem C184_tension_partial (h : Ordinary L k) {p : ℝ} (h0 : 0 ≤ p) (h1 : p ≤ 1) :
    Finite.coordinate L (Curve.update L k) p = some (Curve.coordinate L (Curve.update L k) p) ∧
    (k.tensionHorizontal ≤ 2 ^ (800 : ℤ) →
      Finite.tension L (Curve.update L k) p = some (Curve.tension L (Curve.update L k) p)) := by
  have hp := h.fraction h0 h1
  refine ⟨(h.coordinate (m := 32) (j := 6) hp (by norm_num) (by norm_num) (by norm_num) (by norm_num) (by norm_num)
    (by norm_num)).1, fun hH => ?_⟩
  obtain ⟨x1, x2⟩ := h.coordinateX (j := 6) hp (by norm_num) (by norm_num) (by norm_num) (by norm_num)
  obtain ⟨a1, a2⟩ := h.arg x2 (by norm_num)
  obtain ⟨b1, b2⟩ := lib_cosh (L := L) (m := 32) (rnd_isDouble _) (a2.trans (by norm_num)) (by norm_num)
  have H0 := h.accepted.1
  unfold Finite.tension
  rw [x1]
  simp only [Option.bind_some]
  rw [h.updated.constant.2.2.2.2]
  simp only [Option.bind_some]
  change (chkDiv _ (Curve.constant k)).bind _ = _
  rw [a1]
  simp only [Option.bind_some]
  rw [b1]
  simp only [Option.bind_some]
  refine chk_ok (e := 896) ?_ (by norm_num)
  refine (abs_mul_le ((abs_of_pos H0).le.trans hH) b2).trans (le_of_eq ?_)
  rw [← zpow_natCast, ← zpow_add₀ (by norm_num)]; norm_num

/-- **C184** (slack): the slack is finite. -/
theorem C184_slack_partial (h : Ordinary L k) :
    Finite.lengthSlack L (Curve.update L k) = some (Curve.lengthSlack L (Curve.update L k)) := by
  obtain ⟨s1, s2⟩ := h.span
  obtain ⟨-, -, hx, hy, -⟩ := h.accepted
  obtain ⟨-, -, dx, dy⟩ := h.doubles
  obtain ⟨-, -, -, -, u4⟩ := h.update
  have x1 : |k.spacing.x ^ (2 : ℤ)| ≤ 2 ^ (200 : ℤ) := by
    rw [abs_of_pos (by positivity), show (200 : ℤ) = 100 * 2 by norm_num, zpow_mul]
    exact zpow_le_zpow_left₀ (by norm_num) hx.le s2
  have y1 : |k.spacing.y ^ (2 : ℤ)| ≤ 2 ^ (200 : ℤ) := by
    rw [abs_zpow]
    calc |k.spacing.y| ^ (2 : ℤ) ≤ 2000 ^ (2 : ℤ) := zpow_le_zpow_left₀ (by norm_num) (abs_nonneg _) hy.le
      _ ≤ _ := by norm_num
  have x2 := (L.pow_faithful k.spacing.x 2 dx (Or.inr (by norm_num))).abs_le (isDouble_two_zpow (by norm_num)) x1
  have y2 := (L.pow_faithful k.spacing.y 2 dy (Or.inr (by norm_num))).abs_le (isDouble_two_zpow (by norm_num)) y1
  have x0 := (L.pow_faithful k.spacing.x 2 dx (Or.inr (by norm_num))).nonneg (by positivity)
  have y0 := (L.pow_faithful k.spacing.y 2 dy (Or.inr (by norm_num))).nonneg (by positivity)
  have s0 : |L.pow k.spacing.x 2 + L.pow k.spacing.y 2| ≤ 2 ^ (202 : ℤ) := by
    refine (abs_add_le _ _).trans ?_
    calc _ ≤ (2 : ℝ) ^ (200 : ℤ) + 2 ^ (200 : ℤ) := add_le_add x2 y2
      _ ≤ _ := by norm_num
  have s0' := rnd_abs_le (isDouble_two_zpow (by norm_num)) s0
  have n0 : 0 ≤ rnd (L.pow k.spacing.x 2 + L.pow k.spacing.y 2) := rnd_nonneg (by linarith)
  have q : √(rnd (L.pow k.spacing.x 2 + L.pow k.spacing.y 2)) ≤ 2 ^ (101 : ℤ) := by
    rw [Real.sqrt_le_left (two_zpow_pos _).le]
    refine ((le_abs_self _).trans s0').trans (le_of_eq ?_)
    rw [← zpow_natCast, ← zpow_mul]; norm_num
  unfold Finite.lengthSlack Finite.magnitude Finite.pow
  change ((if _ then _ else chkLib (k.spacing.x ^ (2 : ℤ)) (L.pow k.spacing.x 2)).bind _).bind _ = _
  rw [if_neg (by norm_num), chkLib_ok x1 (by norm_num)]
  simp only [Option.bind_some]
  change ((if _ then _ else chkLib (k.spacing.y ^ (2 : ℤ)) (L.pow k.spacing.y 2)).bind _).bind _ = _
  rw [if_neg (by norm_num), chkLib_ok y1 (by norm_num)]
  simp only [Option.bind_some]
  rw [chk_ok s0 (by norm_num)]
  simp only [Option.bind_some]
  rw [chkSqrt_ok n0 q (by norm_num)]
  simp only [Option.bind_some]
  have m := rnd_abs_le (isDouble_two_zpow (by norm_num)) (show |√(rnd (L.pow k.spacing.x 2 + L.pow k.spacing.y 2))| ≤
    2 ^ (101 : ℤ) by rwa [abs_of_nonneg (Real.sqrt_nonneg _)])
  refine chk_ok (e := 187) ((abs_sub _ _).trans ?_) (by norm_num)
  have hc := h.constant.2.2.2.1
  calc _ ≤ (2 : ℝ) ^ (136 : ℤ) * 2 ^ 49 + 2 ^ (101 : ℤ) :=
        add_le_add (u4.trans (mul_le_mul_of_nonneg_right hc (by norm_num))) m
    _ ≤ _ := by norm_num

/-- A span of 1000 with a rise of 100. -/
noncomputable def usualSpan : Catenary2d := (Catenary2d.new.setSpacing ⟨1000, 100⟩).setTension 2000 |>.setWeight 1

theorem usualSpan_ordinary (L : CurveLibrary) : Ordinary L usualSpan := by
  have d2000 : IsDouble (2000 : ℝ) := by exact_mod_cast isDouble_nat 2000 (by norm_num)
  have d1000 : IsDouble (1000 : ℝ) := by exact_mod_cast isDouble_nat 1000 (by norm_num)
  have d100 : IsDouble (100 : ℝ) := by exact_mod_cast isDouble_nat 100 (by norm_num)
  have p1 : L.pow 1000 2 = 1000000 := by
    have := L.pow_faithful 1000 2 d1000 (Or.inr (by norm_num))
    rw [show (1000 : ℝ) ^ (2 : ℤ) = 1000000 by norm_num] at this
    exact this.exact (by exact_mod_cast isDouble_nat 1000000 (by norm_num))
  have p2 : L.pow 100 2 = 10000 := by
    have := L.pow_faithful 100 2 d100 (Or.inr (by norm_num))
    rw [show (100 : ℝ) ^ (2 : ℤ) = 10000 by norm_num] at this
    exact this.exact (by exact_mod_cast isDouble_nat 10000 (by norm_num))
  refine ⟨⟨d2000, isDouble_one, d1000, d100⟩, ⟨?_, ?_, ?_, ?_, ?_⟩, ?_, ?_⟩
  · show (0 : ℝ) < 2000; norm_num
  · show (0 : ℝ) < 1; norm_num
  · show (0 : ℝ) < 1000; norm_num
  · show |(100 : ℝ)| < 2000; norm_num
  · show rnd (rnd √(rnd (L.pow 1000 2 + L.pow 100 2)) / 2) ≤ rnd (2000 / 1)
    rw [p1, p2, div_one]
    refine rnd_mono ?_
    have h1 : rnd (1000000 + 10000) ≤ (2000 : ℝ) ^ 2 :=
      Double.rnd_le (by have := isDouble_nat 4000000 (by norm_num); norm_num at this ⊢; exact this) (by norm_num)
    have h2 : √(rnd (1000000 + 10000)) ≤ 2000 := (Real.sqrt_le_left (by norm_num)).mpr h1
    have h3 := Double.rnd_le d2000 h2
    have h4 : ∀ r : ℝ, r ≤ 2000 → r / 2 ≤ 2000 := fun r h => by linarith
    exact h4 _ h3
  · show (1 : ℝ) ≤ 1000 ∧ (1000 : ℝ) ≤ 2 ^ (100 : ℤ); norm_num
  · show (2000 : ℝ) ≤ 2 ^ 36 * (1 * 1000); norm_num

example : Finite.update roundedCurveLibrary usualSpan = some (Curve.update roundedCurveLibrary usualSpan) ∧
    0 < (Curve.update roundedCurveLibrary usualSpan).length := C184_length_partial (usualSpan_ordinary _)

example : Finite.sag roundedCurveLibrary (Curve.update roundedCurveLibrary usualSpan) ≠ none := by
  rw [(C184_sag_partial (usualSpan_ordinary roundedCurveLibrary)).1]; exact Option.some_ne_none _

example : Finite.tension roundedCurveLibrary (Curve.update roundedCurveLibrary usualSpan) (1 / 4) ≠ none := by
  rw [(C184_tension_partial (usualSpan_ordinary roundedCurveLibrary) (by norm_num) (by norm_num)).2
    (by show (2000 : ℝ) ≤ _; exact le_trans (by norm_num) (two_zpow_le (show (11 : ℤ) ≤ 800 by norm_num)))]
  exact Option.some_ne_none _

example : Finite.lengthSlack roundedCurveLibrary (Curve.update roundedCurveLibrary usualSpan) ≠ none := by
  rw [C184_slack_partial (usualSpan_ordinary roundedCurveLibrary)]; exact Option.some_ne_none _

/-- A number that differs little from a `double` is rounded to it. -/
theorem rnd_absorbs {s d : ℝ} (hs : IsDouble s) (h1 : 1 / 4 ≤ s) (hd : |d| ≤ 2 ^ (-61 : ℤ)) : rnd (s + d) = s := by
  have n := rnd_nearest (s + d) hs
  rw [show s - (s + d) = -d by ring, abs_neg] at n
  have n2 : |rnd (s + d) - s| ≤ 2 ^ (-60 : ℤ) := by
    have := abs_sub_le (rnd (s + d)) (s + d) s
    rw [show s + d - s = d by ring] at this
    have e : (2 : ℝ) ^ (-60 : ℤ) = 2 ^ (-61 : ℤ) + 2 ^ (-61 : ℤ) := by norm_num
    rw [e]
    exact this.trans (add_le_add (n.trans hd) hd)
  have hr : (1 : ℝ) / 8 ≤ rnd (s + d) := by
    have : (2 : ℝ) ^ (-60 : ℤ) ≤ 1 / 8 := by norm_num
    have := (abs_le.mp (n2.trans this)).1
    linarith
  have mult : ∀ x : ℝ, IsDouble x → 1 / 8 ≤ x → ∃ n : ℤ, x = n * 2 ^ (-55 : ℤ) := by
    intro x hx hx8
    obtain ⟨n, hn⟩ := isDouble_multiple hx
    have : -55 ≤ lastPlace x := by
      have l : (-3 : ℤ) ≤ Int.log 2 |x| := by
        rw [← Int.zpow_le_iff_le_log (by norm_num) (by positivity), abs_of_pos (by linarith)]
        norm_num; linarith
      unfold lastPlace
      exact le_max_of_le_left (by omega)
    exact ⟨_, hn.trans (intCast_zpow this)⟩
  obtain ⟨a, ha⟩ := mult _ hs (by linarith)
  obtain ⟨b, hb⟩ := mult _ (rnd_isDouble _) hr
  rw [ha] at hb n2 ⊢
  rw [hb] at n2 ⊢
  have : |((b - a : ℤ) : ℝ)| < 1 := by
    have e : (b : ℝ) * 2 ^ (-55 : ℤ) - a * 2 ^ (-55 : ℤ) = ((b - a : ℤ) : ℝ) * 2 ^ (-55 : ℤ) := by push_cast; ring
    rw [e, abs_mul, abs_of_pos (two_zpow_pos _)] at n2
    by_contra hge
    have := mul_le_mul_of_nonneg_right (not_lt.mp hge) (two_zpow_pos (-55)).le
    have e2 : (2 : ℝ) ^ (-60 : ℤ) < 1 * 2 ^ (-55 : ℤ) := by norm_num
    exact absurd (e2.trans_le (this.trans n2)) (lt_irrefl _)
  have h0 : b - a = 0 := by
    have : |b - a| < 1 := by exact_mod_cast this
    exact Int.abs_lt_one_iff.mp this
  rw [show b = a by omega]

theorem sinh_le_double {x : ℝ} (h0 : 0 ≤ x) (h1 : x ≤ 1 / 4) : Real.sinh x ≤ 2 * x := by
  rw [Real.sinh_eq]
  have a := Real.exp_bound_div_one_sub_of_interval h0 (by linarith : x < 1)
  have b := Real.add_one_le_exp (-x)
  have c : 1 / (1 - x) ≤ 1 + 3 * x := by
    rw [div_le_iff₀ (by linarith)]; nlinarith
  linarith

/-- A span of length 1 and rise 1 under an absurd tension. -/
noncomputable def tautSpan : Catenary2d := (Catenary2d.new.setSpacing ⟨1, 1⟩).setTension (2 ^ (60 : ℤ)) |>.setWeight 1

theorem tautSpan_constant : Curve.constant tautSpan = 2 ^ (60 : ℤ) := by
  show rnd (2 ^ (60 : ℤ) / 1) = _
  rw [div_one, rnd_of_isDouble (isDouble_two_zpow (by norm_num))]

theorem tautSpan_halfAngle : halfAngle tautSpan = 2 ^ (-61 : ℤ) := by
  unfold halfAngle
  rw [tautSpan_constant]
  show rnd (rnd (1 / 2) / 2 ^ (60 : ℤ)) = _
  rw [rnd_of_isDouble isDouble_half, show (1 : ℝ) / 2 / 2 ^ (60 : ℤ) = 2 ^ (-61 : ℤ) by norm_num,
    rnd_of_isDouble (isDouble_two_zpow (by norm_num))]

theorem tautSpan_tilt (L : CurveLibrary) : IsDouble (tilt L tautSpan) ∧ 1 / 4 ≤ tilt L tautSpan := by
  have hz : IsDouble ((2 : ℝ) ^ (-61 : ℤ)) := isDouble_two_zpow (by norm_num)
  refine ⟨(L.asinh_faithful _ (rnd_isDouble _)).1, ?_⟩
  unfold tilt
  rw [tautSpan_halfAngle]
  show 1 / 4 ≤ L.asinh (rnd (rnd (1 * 2 ^ (-61 : ℤ)) / rnd (1 * L.sinh (2 ^ (-61 : ℤ)))))
  have f := L.sinh_faithful _ hz
  rw [one_mul, one_mul, rnd_of_isDouble hz, rnd_of_isDouble f.1]
  have s1 : (2 : ℝ) ^ (-61 : ℤ) ≤ L.sinh (2 ^ (-61 : ℤ)) := f.2.1 _ hz (Real.self_le_sinh_iff.mpr (two_zpow_pos _).le)
  have s2 : L.sinh (2 ^ (-61 : ℤ)) ≤ 2 ^ (-60 : ℤ) := by
    refine f.2.2 _ (isDouble_two_zpow (by norm_num)) ?_
    refine (sinh_le_double (two_zpow_pos _).le (by norm_num)).trans (le_of_eq ?_)
    norm_num
  have q : (1 : ℝ) / 2 ≤ rnd (2 ^ (-61 : ℤ) / L.sinh (2 ^ (-61 : ℤ))) := by
    refine le_rnd isDouble_half ?_
    rw [le_div_iff₀ ((two_zpow_pos _).trans_le s1)]
    have e : (2 : ℝ) ^ (-60 : ℤ) = 2 * 2 ^ (-61 : ℤ) := by norm_num
    have g : ∀ a b : ℝ, b ≤ 2 * a → 1 / 2 * b ≤ a := fun a b h => by linarith
    exact g _ _ (s2.trans e.le)
  refine (L.asinh_faithful _ (rnd_isDouble _)).2.1 _ ⟨1, -2, by norm_num, by norm_num, by norm_num⟩ ?_
  have h4 : Real.sinh (1 / 4) ≤ 1 / 2 :=
    (sinh_le_double (by norm_num) (by norm_num)).trans (le_of_eq (by norm_num))
  have := Real.arsinh_le_arsinh.mpr (h4.trans q)
  rwa [Real.arsinh_sinh] at this

/-- **C184** fails for absurd tensions: on a span of length 1 and rise 1, with a tension of `2 ^ 60` times the weight of
the cable, `Validate` accepts the catenary, its length comes out as 0, and asking for the sag divides by it.  This holds
for every library. -/
theorem C184_taut_fails (L : CurveLibrary) : ∃ k : Catenary2d,
    (IsDouble k.tensionHorizontal ∧ IsDouble k.weightUnit ∧ IsDouble k.spacing.x ∧ IsDouble k.spacing.y) ∧
    Curve.Accepted L k ∧ 1 ≤ k.spacing.x ∧ (Curve.update L k).length = 0 ∧ Finite.sag L (Curve.update L k) = none := by
  obtain ⟨t1, t2⟩ := tautSpan_tilt L
  have hl : (Curve.updateEndPoints L tautSpan).left.x = (Curve.updateEndPoints L tautSpan).right.x := by
    show rnd (Curve.constant tautSpan * rnd (tilt L tautSpan - halfAngle tautSpan)) =
      rnd (Curve.constant tautSpan * rnd (tilt L tautSpan + halfAngle tautSpan))
    rw [tautSpan_halfAngle, rnd_absorbs t1 t2 (abs_of_pos (two_zpow_pos _)).le, sub_eq_add_neg,
      rnd_absorbs t1 t2 (by rw [abs_neg, abs_of_pos (two_zpow_pos _)])]
  have h0 : (Curve.update L tautSpan).length = 0 := by
    show rnd (Curve.lengthFromOrigin L (Curve.updateEndPoints L tautSpan) _ -
      Curve.lengthFromOrigin L (Curve.updateEndPoints L tautSpan) _) = 0
    rw [hl, sub_self, rnd_zero]
  refine ⟨tautSpan, ⟨isDouble_two_zpow (by norm_num), isDouble_one, isDouble_one, isDouble_one⟩,
    ⟨two_zpow_pos _, one_pos, one_pos, by show |(1 : ℝ)| < 2000; norm_num, ?_⟩, le_refl _, h0, ?_⟩
  · rw [tautSpan_constant]
    show rnd (rnd √(rnd (L.pow 1 2 + L.pow 1 2)) / 2) ≤ _
    have p1 : L.pow 1 2 = 1 := by
      have := L.pow_faithful 1 2 isDouble_one (Or.inr (by norm_num))
      rw [one_zpow] at this
      exact this.exact isDouble_one
    rw [p1]
    have d2 : IsDouble (2 : ℝ) := by exact_mod_cast isDouble_nat 2 (by norm_num)
    have h1 : rnd (1 + 1) ≤ (2 : ℝ) := Double.rnd_le d2 (by norm_num)
    have h2 : √(rnd (1 + 1)) ≤ 2 := (Real.sqrt_le_left (by norm_num)).mpr (by linarith)
    have h3 := Double.rnd_le d2 h2
    refine Double.rnd_le (isDouble_two_zpow (by norm_num)) ?_
    have h4 : (1 : ℝ) ≤ 2 ^ (60 : ℤ) := by norm_num
    have g : ∀ r : ℝ, r ≤ 2 → r / 2 ≤ 1 := fun r h => by linarith
    exact (g _ h3).trans h4
  · have none : ∀ x, Finite.convertToPositionFraction L (Curve.update L tautSpan) x = none := by
      intro x
      unfold Finite.convertToPositionFraction chkDiv
      rw [h0]
      simp
    unfold Finite.sag Finite.positionFractionSagPoint Finite.positionFraction
    simp [none]

/-- A span that `Validate` rejects because the tension is too small. -/
noncomputable def slackSpan : Catenary2d := (Catenary2d.new.setSpacing ⟨4096, 0⟩).setTension 1 |>.setWeight 1

/-- **C184** (why acceptance matters): a catenary that is rejected can overflow: for a span of 4096 and a tension of
the weight of one unit of length, the end points are not finite.  This holds for every library. -/
theorem C184_rejected_fails (L : CurveLibrary) : ∃ k : Catenary2d, 0 < k.tensionHorizontal ∧ 0 < k.weightUnit ∧
    0 < k.spacing.x ∧ |k.spacing.y| < 2000 ∧ ¬ Curve.Accepted L k ∧ Finite.update L k = none := by
  have d4096 : IsDouble (4096 : ℝ) := by exact_mod_cast isDouble_nat 4096 (by norm_num)
  have d2048 : IsDouble (2048 : ℝ) := by exact_mod_cast isDouble_nat 2048 (by norm_num)
  refine ⟨slackSpan, one_pos, one_pos, by show (0 : ℝ) < 4096; norm_num, by show |(0 : ℝ)| < 2000; norm_num, ?_, ?_⟩
  · rintro ⟨-, -, -, -, h⟩
    change rnd (rnd √(rnd (L.pow 4096 2 + L.pow 0 2)) / 2) ≤ rnd (1 / 1) at h
    have d2 : IsDouble (16777216 : ℝ) := by exact_mod_cast isDouble_nat 16777216 (by norm_num)
    have p1 : L.pow 4096 2 = 16777216 := by
      have := L.pow_faithful 4096 2 d4096 (Or.inr (by norm_num))
      rw [show (4096 : ℝ) ^ (2 : ℤ) = 16777216 by norm_num] at this
      exact this.exact d2
    have p2 : L.pow 0 2 = 0 := by
      have := L.pow_faithful 0 2 isDouble_zero (Or.inr (by norm_num))
      rw [show (0 : ℝ) ^ (2 : ℤ) = 0 by norm_num] at this
      exact this.exact isDouble_zero
    rw [p1, p2, add_zero, rnd_of_isDouble d2,
      show √(16777216 : ℝ) = 4096 by
        rw [show (16777216 : ℝ) = 4096 ^ 2 by norm_num]; exact Real.sqrt_sq (by norm_num),
      rnd_of_isDouble d4096, show (4096 : ℝ) / 2 = 2048 by norm_num, rnd_of_isDouble d2048, div_one,
      rnd_of_isDouble isDouble_one] at h
    norm_num at h
  · have big : ¬ |Real.sinh 2048| ≤ largest := by
      rw [not_le]
      refine largest_lt.trans_le (le_trans ?_ (le_abs_self _))
      rw [Real.sinh_eq]
      have h1 := two_pow_le_exp 2048
      push_cast at h1
      have h2 : Real.exp (-2048) ≤ 1 := Real.exp_le_one_iff.mpr (by norm_num)
      have h3 : (2 : ℝ) ^ 2048 = 2 ^ (1024 : ℤ) * 2 ^ (1024 : ℤ) := by
        rw [← zpow_natCast, ← zpow_add₀ (by norm_num)]; norm_num
      have h4 : (2 : ℝ) ^ (2 : ℤ) ≤ 2 ^ (1024 : ℤ) := two_zpow_le (by norm_num)
      rw [show (2 : ℝ) ^ (2 : ℤ) = 4 by norm_num] at h4
      rw [h3] at h1
      clear h3
      generalize (2 : ℝ) ^ (1024 : ℤ) = t at *
      generalize Real.exp 2048 = a at *
      generalize Real.exp (-2048) = b at *
      nlinarith
    have c : Finite.constant slackSpan = some 1 := by
      show chkDiv 1 1 = _
      unfold chkDiv
      rw [if_neg one_ne_zero, div_one, chk_ok (e := 0) (by norm_num) (by norm_num), rnd_of_isDouble isDouble_one]
    unfold Finite.update Finite.updateEndPoints
    rw [c]
    simp only [Option.bind_some]
    change (((chk (4096 / 2)).bind _).bind _) = _
    rw [show (4096 : ℝ) / 2 = 2048 by norm_num, chk_ok (e := 11) (by norm_num) (by norm_num), rnd_of_isDouble d2048]
    simp only [Option.bind_some]
    have z : chkDiv 2048 1 = some 2048 := by
      unfold chkDiv
      rw [if_neg one_ne_zero, div_one, chk_ok (e := 11) (by norm_num) (by norm_num), rnd_of_isDouble d2048]
    rw [z]
    simp only [Option.bind_some]
    unfold chkLib
    rw [if_neg big]
    rfl

end Verif.Props
