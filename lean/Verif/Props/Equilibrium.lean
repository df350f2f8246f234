import Verif.Props.PointeeEdits
import Verif.Props.NeverGivenLoaders

/-!
# C158: the equilibrium angle of a suspension assembly

`CableAttachmentEquilibriumSolver`: its answers follow its inputs, and the equilibrium angle is the hardware angle with
the least tension imbalance.
-/

set_option linter.unusedSectionVars false

namespace Verif.Props

open Verif.EquilibriumSolver

/-! ## History -/

/-- The results belong to the inputs. -/
def EquilibriumSound (s : EquilibriumSolver) : Prop :=
  s.isUpdated = true → s.update = .ok s true

theorem equilibrium_update_again {s t : EquilibriumSolver} {u : Bool} (h : s.update = .ok t u) :
    t.update = .ok t true ∧ u = true := by
  obtain ⟨a1, a2, a3, a4, a5, a6, a7, a8⟩ := s
  cases a4 with
  | none => cases a5 <;> cases h
  | some a =>
    cases a5 with
    | none => cases h
    | some b => cases h; exact ⟨rfl, rfl⟩

theorem equilibrium_ask_sound {s t : EquilibriumSolver} {f : EquilibriumSolver → ℝ} (hs : EquilibriumSound s)
    (h : (s.ask f).state? = some t) : EquilibriumSound t := by
  unfold EquilibriumSolver.ask at h
  split_ifs at h
  · cases h; exact hs
  · cases hu : s.update with
    | ok q b =>
      obtain ⟨e, rfl⟩ := equilibrium_update_again hu
      rw [hu] at h
      cases h
      exact fun _ => e
    | throws q =>
      unfold EquilibriumSolver.update at hu
      split at hu <;> cases hu
    | ub => rw [hu] at h; cases h

theorem equilibrium_next_sound {s t : EquilibriumSolver} {c : EquilibriumCall} (hs : EquilibriumSound s)
    (h : c.next s = some t) : EquilibriumSound t := by
  cases c with
  | setAngleCatenaries x => cases h; intro e; cases e
  | setAngleHardware x => cases h; intro e; cases e
  | setAhead x => cases h; intro e; cases e
  | setBack x => cases h; intro e; cases e
  | setDirection x => cases h; intro e; cases e
  | angleEquilibrium => exact equilibrium_ask_sound hs h
  | tensionImbalance => exact equilibrium_ask_sound hs h
  | validate =>
    change s.validate.state? = some t at h
    unfold EquilibriumSolver.validate at h
    cases hu : s.update with
    | ok q b =>
      obtain ⟨e, rfl⟩ := equilibrium_update_again hu
      rw [hu] at h
      cases h
      exact fun _ => e
    | throws q =>
      unfold EquilibriumSolver.update at hu
      split at hu <;> cases hu
    | ub => rw [hu] at h; cases h

theorem equilibrium_run_sound : ∀ {calls : List EquilibriumCall} {s t : EquilibriumSolver}, EquilibriumSound s →
    equilibriumAfter s calls = some t → EquilibriumSound t
  | [], s, t, hs, h => by cases h; exact hs
  | c :: cs, s, t, hs, h => by
    unfold equilibriumAfter at h
    cases hn : c.next s with
    | none => rw [hn] at h; cases h
    | some q =>
      rw [hn] at h
      exact equilibrium_run_sound (equilibrium_next_sound hs hn) h

/-- A query after any calls. -/
theorem equilibrium_fresh {s : EquilibriumSolver} (hs : EquilibriumSound s) {f : EquilibriumSolver → ℝ}
    (hf : ∀ s t : EquilibriumSolver, s.imbalance = t.imbalance → s.angleEquilibrium = t.angleEquilibrium → f s = f t) :
    resultOf (s.ask f) = resultOf ((freshEquilibrium s).ask f) := by
  obtain ⟨a1, a2, a3, a4, a5, a6, a7, a8⟩ := s
  cases a8 with
  | true =>
    have h := hs rfl
    cases a4 with
    | none => cases a5 <;> cases h
    | some a =>
      cases a5 with
      | none => cases h
      | some b =>
        simp only [EquilibriumSolver.update, Outcome.ok.injEq, EquilibriumSolver.mk.injEq, and_true, true_and] at h
        show Res.val _ = Res.val _
        congr 1
        exact hf _ _ h.2.symm h.1.symm
  | false =>
    cases a4 with
    | none => cases a5 <;> rfl
    | some a =>
      cases a5 with
      | none => rfl
      | some b =>
        show Res.val _ = Res.val _
        congr 1

/-- **C158**: after any calls, the equilibrium angle, the tension imbalance and the verdict are those of a new solver
with the same angles, catenaries and direction. -/
theorem C158_history {calls : List EquilibriumCall} {s : EquilibriumSolver}
    (h : equilibriumAfter .new calls = some s) :
    resultOf s.angleEquilibriumQ = resultOf (freshEquilibrium s).angleEquilibriumQ ∧
    resultOf s.tensionImbalance = resultOf (freshEquilibrium s).tensionImbalance ∧
    resultOf s.validate = resultOf (freshEquilibrium s).validate := by
  have hs := equilibrium_run_sound (s := .new) (by intro e; cases e) h
  refine ⟨equilibrium_fresh hs fun _ _ _ h => h, equilibrium_fresh hs fun _ _ h _ => by simp only [h], ?_⟩
  obtain ⟨a1, a2, a3, a4, a5, a6, a7, a8⟩ := s
  cases a4 <;> cases a5 <;> rfl

/-! ## The least imbalance -/

theorem rotate_zy (v : V3) (t : ℝ) :
    v.rotate .zy t = ⟨v.x, ((V2.mk v.z v.y).rotate t).y, ((V2.mk v.z v.y).rotate t).x⟩ := by
  unfold V3.rotate
  split
  · rename_i h
    unfold V2.rotate
    rw [if_pos h]
  · rfl

/-- The hardware pulls as hard as the cable, across the line. -/
theorem hardware_pull (z : ℝ) (d : Direction) (t : V3) :
    (tensionHardware z d t).x = 0 ∧ (tensionHardware z d t).magnitude = t.magnitude := by
  constructor
  · unfold tensionHardware
    simp [rotate_zy, V3.scale]
  · unfold tensionHardware
    simp only
    rw [V3.rotate_magnitude, V3.magnitude_scale _ (V3.magnitude_nonneg _), V3.rotate_magnitude]
    have : (V3.mk 0 0 1).magnitude = 1 := by simp [V3.magnitude]
    rw [this, one_mul]

/-- Where it pulls. -/
theorem hardware_near {z : ℝ} {d : Direction} {t : V3} {q : ℝ} (hq : (if d = .positive then z else 360 - z) = q)
    (h : |q| ≤ 360) :
    |(tensionHardware z d t).y + t.magnitude * Real.sin (q * Real.pi / 180)| ≤ 2e-6 * t.magnitude ∧
    |(tensionHardware z d t).z + t.magnitude * Real.cos (q * Real.pi / 180)| ≤ 2e-6 * t.magnitude := by
  have hm := V3.magnitude_nonneg t
  unfold tensionHardware
  simp only [rotate_zy, V3.scale, hq]
  obtain ⟨u1, u2⟩ := C31_rotate_accurate ⟨1, 0⟩ q h
  obtain ⟨v1, v2⟩ := C31_rotate_accurate ⟨((V2.mk 1 0).rotate q).x * t.magnitude, ((V2.mk 1 0).rotate q).y * t.magnitude⟩
    180 (by norm_num)
  have e1 : (1:ℝ) ^ 2 + 0 ^ 2 = 1 := by norm_num
  have e2 : √((((V2.mk 1 0).rotate q).x * t.magnitude) ^ 2 + (((V2.mk 1 0).rotate q).y * t.magnitude) ^ 2) =
      t.magnitude := by
    rw [mul_pow, mul_pow, ← add_mul, rotate_sq]
    simp only
    rw [e1, one_mul, Real.sqrt_sq hm]
  have e3 : (180:ℝ) * Real.pi / 180 = Real.pi := by ring
  simp only [exactRotation, e1, Real.sqrt_one, mul_one, one_mul, zero_mul, sub_zero, add_zero] at u1 u2
  rw [e2] at v1 v2
  simp only [exactRotation, e3, Real.cos_pi, Real.sin_pi] at v1 v2
  have w1 := mul_le_mul_of_nonneg_right u1 hm
  have w2 := mul_le_mul_of_nonneg_right u2 hm
  rw [← abs_of_nonneg hm, ← abs_mul, abs_of_nonneg hm] at w1 w2
  obtain ⟨v1, v1'⟩ := abs_le.1 v1
  obtain ⟨v2, v2'⟩ := abs_le.1 v2
  obtain ⟨w1, w1'⟩ := abs_le.1 w1
  obtain ⟨w2, w2'⟩ := abs_le.1 w2
  exact ⟨abs_le.2 ⟨by linarith, by linarith⟩, abs_le.2 ⟨by linarith, by linarith⟩⟩

/-- The imbalance for a hardware pull. -/
noncomputable def unbalanced (h t : V3) : ℝ := (V3.mk (-1 * (h.x + t.x)) (-1 * (h.y + t.y)) (-1 * (h.z + t.z))).magnitude

theorem unbalanced_sq (h t : V3) : unbalanced h t ^ 2 = (h.x + t.x) ^ 2 + (h.y + t.y) ^ 2 + (h.z + t.z) ^ 2 := by
  unfold unbalanced V3.magnitude
  rw [Real.sq_sqrt (by positivity)]
  simp only
  ring

theorem unbalanced_nonneg (h t : V3) : 0 ≤ unbalanced h t := Real.sqrt_nonneg _

theorem V3_magnitude_sq (t : V3) : t.magnitude ^ 2 = t.x ^ 2 + t.y ^ 2 + t.z ^ 2 :=
  Real.sq_sqrt (by positivity)

/-- Among the pulls across the line, the one opposite to the cable leaves least. -/
theorem least_pull {t h g : V3} (hx : h.x = 0) (hm : h.magnitude = t.magnitude) {ρ : ℝ}
    (hρ : 0 < ρ) (hr : ρ ^ 2 = t.y ^ 2 + t.z ^ 2) (gx : g.x = 0) (gy : g.y = -(t.magnitude * (t.y / ρ)))
    (gz : g.z = -(t.magnitude * (t.z / ρ))) :
    unbalanced g t ≤ unbalanced h t ∧ unbalanced g t ≤ 2 * |t.x| := by
  have m0 := V3.magnitude_nonneg t
  have m2 := V3_magnitude_sq t
  have h2 := V3_magnitude_sq h
  rw [hm, hx] at h2
  have g2 : unbalanced g t ^ 2 = t.x ^ 2 + (t.magnitude - ρ) ^ 2 := by
    rw [unbalanced_sq, gx, gy, gz]
    have e : (-(t.magnitude * (t.y / ρ)) + t.y) ^ 2 + (-(t.magnitude * (t.z / ρ)) + t.z) ^ 2 =
        (1 - t.magnitude / ρ) ^ 2 * (t.y ^ 2 + t.z ^ 2) := by field_simp; ring
    rw [zero_add, add_assoc, e, ← hr]
    field_simp
    ring
  have hle : ρ ≤ t.magnitude := abs_le_of_sq_le_sq' (by nlinarith) m0 |>.2
  constructor
  · refine abs_le_of_sq_le_sq' ?_ (unbalanced_nonneg _ _) |>.2
    rw [g2, unbalanced_sq, hx]
    -- Cauchy and Schwarz
    have c : -(t.magnitude * ρ) ≤ h.y * t.y + h.z * t.z := by
      refine (abs_le_of_sq_le_sq' (a := h.y * t.y + h.z * t.z) (b := t.magnitude * ρ) ?_ (by positivity)).1
      have : (t.magnitude * ρ) ^ 2 = (h.y ^ 2 + h.z ^ 2) * (t.y ^ 2 + t.z ^ 2) := by
        rw [mul_pow, h2, hr]; ring
      rw [this]
      nlinarith [sq_nonneg (h.y * t.z - h.z * t.y)]
    nlinarith
  · refine abs_le_of_sq_le_sq' ?_ (by positivity) |>.2
    rw [g2, mul_pow, sq_abs]
    have : t.magnitude ^ 2 - ρ ^ 2 = t.x ^ 2 := by rw [m2, hr]; ring
    have d : (t.magnitude - ρ) ^ 2 ≤ t.x ^ 2 := by nlinarith
    nlinarith [sq_nonneg t.x]

/-- Nearly the same pull. -/
theorem near_pull {t p g : V3} (p1 : p.x = 0) (gx : g.x = 0) (dy : |p.y - g.y| ≤ 2.1e-6 * t.magnitude)
    (dz : |p.z - g.z| ≤ 2.1e-6 * t.magnitude) : unbalanced p t ≤ unbalanced g t + 5e-6 * t.magnitude := by
  have m0 := V3.magnitude_nonneg t
  have a := V3.add_magnitude ⟨0, -1 * (p.y - g.y), -1 * (p.z - g.z)⟩
    ⟨-1 * (g.x + t.x), -1 * (g.y + t.y), -1 * (g.z + t.z)⟩
  have e1 : (V3.mk (0 + -1 * (g.x + t.x)) (-1 * (p.y - g.y) + -1 * (g.y + t.y)) (-1 * (p.z - g.z) + -1 * (g.z + t.z))) =
      ⟨-1 * (p.x + t.x), -1 * (p.y + t.y), -1 * (p.z + t.z)⟩ := by
    ext
    · show 0 + -1 * (g.x + t.x) = -1 * (p.x + t.x); rw [p1, gx, zero_add]
    · simp only; ring
    · simp only; ring
  simp only [e1] at a
  have b : (V3.mk 0 (-1 * (p.y - g.y)) (-1 * (p.z - g.z))).magnitude ≤ 5e-6 * t.magnitude := by
    unfold V3.magnitude
    refine Real.sqrt_le_iff.2 ⟨by positivity, ?_⟩
    simp only
    change _ ≤ (5e-6 * t.magnitude) ^ 2
    have y2 := sq_le_sq' (abs_le.1 dy).1 (abs_le.1 dy).2
    have z2 := sq_le_sq' (abs_le.1 dz).1 (abs_le.1 dz).2
    have q := sq_nonneg t.magnitude
    have f1 : ∀ u v : ℝ, (0:ℝ) ^ 2 + (-1 * u) ^ 2 + (-1 * v) ^ 2 = u ^ 2 + v ^ 2 := fun u v => by ring
    rw [f1]
    rw [mul_pow] at y2 z2 ⊢
    generalize t.magnitude ^ 2 = M at y2 z2 q ⊢
    norm_num at y2 z2 ⊢
    linarith
  change (V3.mk (-1 * (p.x + t.x)) (-1 * (p.y + t.y)) (-1 * (p.z + t.z))).magnitude ≤
    (V3.mk (-1 * (g.x + t.x)) (-1 * (g.y + t.y)) (-1 * (g.z + t.z))).magnitude + _
  linarith

/-- The solver's angle for a cable pull. -/
theorem angle_pull {d : Direction} (t h : V3) (hx : h.x = 0) (hm : h.magnitude = t.magnitude) {z : ℝ}
    (hz : z = if d = .positive then t.angle .zy else 360 - t.angle .zy) :
    unbalanced (tensionHardware z d t) t ≤ unbalanced h t + 5e-6 * t.magnitude ∧
    unbalanced (tensionHardware z d t) t ≤ 2 * |t.x| + 5e-6 * t.magnitude := by
  have m0 := V3.magnitude_nonneg t
  obtain ⟨p1, p2⟩ := hardware_pull z d t
  set p := tensionHardware z d t with hp
  by_cases hn : t.z = 0 ∧ t.y = 0
  · -- the cable pulls along the line only
    have e : ∀ g : V3, g.x = 0 → g.magnitude = t.magnitude → unbalanced g t ^ 2 = 2 * t.x ^ 2 := by
      intro g gx gm
      have g2 := V3_magnitude_sq g
      rw [gm, V3_magnitude_sq t, gx, hn.1, hn.2] at g2
      rw [unbalanced_sq, gx, hn.1, hn.2]
      nlinarith
    have e1 := e p p1 p2
    have e2 := e h hx hm
    have : unbalanced p t = unbalanced h t :=
      (sq_eq_sq₀ (unbalanced_nonneg _ _) (unbalanced_nonneg _ _)).1 (e1.trans e2.symm)
    have b : unbalanced p t ≤ 2 * |t.x| := by
      refine abs_le_of_sq_le_sq' ?_ (by positivity) |>.2
      rw [e1, mul_pow, sq_abs]
      nlinarith [sq_nonneg t.x]
    exact ⟨by rw [this]; nlinarith, by nlinarith⟩
  · have hv : ¬ ((V2.mk t.z t.y).x = 0 ∧ (V2.mk t.z t.y).y = 0) := hn
    obtain ⟨r0, r1⟩ := C29_angle_range _ hv
    obtain ⟨s1, s2⟩ := C29_angle_reproduces _ hv false
    have ea : t.angle .zy = (V2.mk t.z t.y).angle := rfl
    have hq : (if d = .positive then z else 360 - z) = (V2.mk t.z t.y).angle := by
      rw [hz, ea]
      by_cases hd : d = .positive
      · rw [if_pos hd, if_pos hd]
      · rw [if_neg hd, if_neg hd]; ring
    obtain ⟨n1, n2⟩ := hardware_near (t := t) hq (by rw [abs_of_nonneg r0]; exact r1.le)
    rw [← hp] at n1 n2
    simp only at s1 s2
    set q := (V2.mk t.z t.y).angle * Real.pi / 180 with hqd
    set ρ := √(t.z ^ 2 + t.y ^ 2) with hρd
    have ρ2 : ρ ^ 2 = t.y ^ 2 + t.z ^ 2 := by rw [hρd, Real.sq_sqrt (by positivity)]; ring
    have ρ0 : 0 < ρ := by
      refine Real.sqrt_pos.2 ?_
      by_contra hc
      have : t.z ^ 2 + t.y ^ 2 = 0 := le_antisymm (not_lt.1 hc) (by positivity)
      exact hn ⟨by nlinarith [sq_nonneg t.z, sq_nonneg t.y], by nlinarith [sq_nonneg t.z, sq_nonneg t.y]⟩
    set g : V3 := ⟨0, -(t.magnitude * (t.y / ρ)), -(t.magnitude * (t.z / ρ))⟩ with hg
    obtain ⟨l1, l2⟩ := least_pull (g := g) hx hm ρ0 ρ2 rfl rfl rfl
    have c1 : |Real.cos q - t.z / ρ| ≤ 1e-13 := by
      have : Real.cos q - t.z / ρ = (ρ * Real.cos q - t.z) / ρ := by field_simp
      rw [this, abs_div, abs_of_pos ρ0, div_le_iff₀ ρ0]
      exact s1
    have c2 : |Real.sin q - t.y / ρ| ≤ 1e-13 := by
      have : Real.sin q - t.y / ρ = (ρ * Real.sin q - t.y) / ρ := by field_simp
      rw [this, abs_div, abs_of_pos ρ0, div_le_iff₀ ρ0]
      exact s2
    have dy : |p.y - g.y| ≤ 2.1e-6 * t.magnitude := by
      show |p.y - -(t.magnitude * (t.y / ρ))| ≤ _
      have : p.y - -(t.magnitude * (t.y / ρ)) = (p.y + t.magnitude * Real.sin q) - t.magnitude * (Real.sin q - t.y / ρ) := by
        ring
      rw [this]
      refine (abs_sub _ _).trans ?_
      rw [abs_mul, abs_of_nonneg m0]
      have := mul_le_mul_of_nonneg_left c2 m0
      nlinarith
    have dz : |p.z - g.z| ≤ 2.1e-6 * t.magnitude := by
      show |p.z - -(t.magnitude * (t.z / ρ))| ≤ _
      have : p.z - -(t.magnitude * (t.z / ρ)) = (p.z + t.magnitude * Real.cos q) - t.magnitude * (Real.cos q - t.z / ρ) := by
        ring
      rw [this]
      refine (abs_sub _ _).trans ?_
      rw [abs_mul, abs_of_nonneg m0]
      have := mul_le_mul_of_nonneg_left c1 m0
      nlinarith
    have tri := near_pull (t := t) p1 (show g.x = 0 from rfl) dy dz
    exact ⟨by linarith, by linarith⟩

/-- The cables pull at most as hard together as each. -/
theorem cable_pull {a b : Catenary3d} (Ra : a.Reachable) (Rb : b.Reachable) (Pa : a.Physical) (Pb : b.Physical)
    (t : ℝ) (d : Direction) : (tensionCable t d b a).magnitude ≤ b.tension 1 + a.tension 0 := by
  unfold tensionCable
  refine le_trans (V3.add_magnitude _ _) ?_
  rw [V3.rotate_magnitude, V3.rotate_magnitude, C53_tension_magnitude Ra Pa 0 .positive (by simp),
    C53_tension_magnitude Rb Pb 1 .negative (by simp)]

/-- The answers of a solver with catenaries. -/
theorem equilibrium_answers {s : EquilibriumSolver} (hs : EquilibriumSound s) {a b : Catenary3d} (ha : s.ahead = some a)
    (hb : s.back = some b) {s' : EquilibriumSolver} {z : ℝ} (hz : s.angleEquilibriumQ = .ok s' z) :
    z = (if s.direction = .positive then (tensionCable s.angleCatenaries s.direction b a).angle .zy
      else 360 - (tensionCable s.angleCatenaries s.direction b a).angle .zy) ∧
    ∀ x, ∃ s'', (s'.setAngleHardware x).tensionImbalance = .ok s''
      (unbalanced (tensionHardware x s.direction (tensionCable s.angleCatenaries s.direction b a))
        (tensionCable s.angleCatenaries s.direction b a)) := by
  obtain ⟨a1, a2, a3, a4, a5, a6, a7, a8⟩ := s
  simp only at ha hb
  subst ha hb
  cases a8 with
  | true =>
    have h := hs rfl
    simp only [EquilibriumSolver.update, Outcome.ok.injEq, EquilibriumSolver.mk.injEq, and_true, true_and] at h
    have hz' : Outcome.ok _ _ = Outcome.ok s' z := hz
    cases hz'
    exact ⟨h.1.symm, fun x => ⟨_, rfl⟩⟩
  | false =>
    have hz' : Outcome.ok _ _ = Outcome.ok s' z := hz
    cases hz'
    exact ⟨rfl, fun x => ⟨_, rfl⟩⟩

/-- **C158**: after any calls, give the assembly the reported equilibrium angle, and in another attempt any other angle.
The tension imbalance reported at the equilibrium angle is not larger, up to 5 millionths of the two cable tensions.
(The catenaries are accepted; the tolerance is that of the vector rotation.) -/
theorem C158_least {calls : List EquilibriumCall} {s s' : EquilibriumSolver} (h : equilibriumAfter .new calls = some s)
    {a b : Catenary3d} (ha : s.ahead = some a) (hb : s.back = some b) (Ra : a.Reachable) (Rb : b.Reachable)
    (Va : a.validate.1 = true) (Vb : b.validate.1 = true) {z : ℝ} (hz : s.angleEquilibriumQ = .ok s' z) (x : ℝ) :
    ∃ s1 s2 i j, (s'.setAngleHardware z).tensionImbalance = .ok s1 i ∧
      (s'.setAngleHardware x).tensionImbalance = .ok s2 j ∧ i ≤ j + 5e-6 * (b.tension 1 + a.tension 0) := by
  have hs := equilibrium_run_sound (s := .new) (by intro e; cases e) h
  obtain ⟨e, q⟩ := equilibrium_answers hs ha hb hz
  obtain ⟨s1, q1⟩ := q z
  obtain ⟨s2, q2⟩ := q x
  refine ⟨s1, s2, _, _, q1, q2, ?_⟩
  obtain ⟨h1, sx1, sy1, -, wx1, wy1, wz1, -⟩ := (C54_validate_3d Ra).1.1 Va
  obtain ⟨h2, sx2, sy2, -, wx2, wy2, wz2, -⟩ := (C54_validate_3d Rb).1.1 Vb
  have m := cable_pull Ra Rb ⟨h1, sx1, sy1, wx1, wy1, wz1⟩ ⟨h2, sx2, sy2, wx2, wy2, wz2⟩ s.angleCatenaries s.direction
  obtain ⟨p1, p2⟩ := hardware_pull x s.direction (tensionCable s.angleCatenaries s.direction b a)
  have := (angle_pull _ _ p1 p2 e).1
  linarith

/-- Equal and opposite horizontal pulls, turned by opposite angles, leave nothing along the line. -/
theorem longitudinal_balance {H : ℝ} (hH : 0 < H) (t : ℝ) :
    |((V2.mk (-H) 0).rotate t).x + ((V2.mk H 0).rotate (-t)).x| ≤ 1e-14 * H := by
  have a1 := (C29_axis_angles H hH).1
  have a2 := (C29_axis_angles H hH).2.2.1
  have m1 : (V2.mk H 0).magnitude = H := by unfold V2.magnitude; simp [Real.sqrt_sq hH.le]
  have m2 : (V2.mk (-H) 0).magnitude = H := by unfold V2.magnitude; simp [Real.sqrt_sq hH.le]
  unfold V2.rotate
  rw [abs_neg]
  split_ifs
  · simp; positivity
  · simp only [a1, a2, m1, m2, zero_add, toRadians_add, toRadians_180]
    have near := V2.polar_near H (Units.kPi + toRadians t) (Real.pi + toRadians t) hH.le
    have e : Real.cos (toRadians (-t)) = -Real.cos (Real.pi + toRadians t) := by
      rw [toRadians_eq, toRadians_eq, neg_mul, Real.cos_neg, add_comm, Real.cos_add_pi, neg_neg]
    rw [e]
    have k1 := kPi_lt_pi
    have k2 := pi_sub_kPi
    have n1 := near.1
    have : Units.kPi + toRadians t - (Real.pi + toRadians t) = -(Real.pi - Units.kPi) := by ring
    rw [this, abs_neg, abs_of_pos (sub_pos.2 k1)] at n1
    have : H * Real.cos (Units.kPi + toRadians t) + H * -Real.cos (Real.pi + toRadians t) =
        H * Real.cos (Units.kPi + toRadians t) - H * Real.cos (Real.pi + toRadians t) := by ring
    rw [this]
    refine n1.trans ?_
    nlinarith

/-- **C158**: in still air and with equal horizontal tensions the assembly is in balance at the reported angle: the
imbalance there is below 6 millionths of the two cable tensions. -/
theorem C158_balanced {calls : List EquilibriumCall} {s s' : EquilibriumSolver} (h : equilibriumAfter .new calls = some s)
    {a b : Catenary3d} (ha : s.ahead = some a) (hb : s.back = some b) (Ra : a.Reachable) (Rb : b.Reachable)
    (Va : a.validate.1 = true) (Vb : b.validate.1 = true) (ya : a.weightUnit.y = 0) (yb : b.weightUnit.y = 0)
    (hh : a.tensionHorizontal = b.tensionHorizontal) {z : ℝ} (hz : s.angleEquilibriumQ = .ok s' z) :
    ∃ s1 i, (s'.setAngleHardware z).tensionImbalance = .ok s1 i ∧ i ≤ 6e-6 * (b.tension 1 + a.tension 0) := by
  have hs := equilibrium_run_sound (s := .new) (by intro e; cases e) h
  obtain ⟨e, q⟩ := equilibrium_answers hs ha hb hz
  obtain ⟨s1, q1⟩ := q z
  refine ⟨s1, _, q1, ?_⟩
  obtain ⟨h1, sx1, sy1, -, wx1, wy1, wz1, -⟩ := (C54_validate_3d Ra).1.1 Va
  obtain ⟨h2, sx2, sy2, -, wx2, wy2, wz2, -⟩ := (C54_validate_3d Rb).1.1 Vb
  have Pa : a.Physical := ⟨h1, sx1, sy1, wx1, wy1, wz1⟩
  have Pb : b.Physical := ⟨h2, sx2, sy2, wx2, wy2, wz2⟩
  have m := cable_pull Ra Rb Pa Pb s.angleCatenaries s.direction
  obtain ⟨-, b1, b2⟩ := vertical_pull Rb Pb yb 1
  obtain ⟨⟨a1, a2⟩, -⟩ := vertical_pull Ra Pa ya 0
  set t := tensionCable s.angleCatenaries s.direction b a with ht
  have tx : |t.x| ≤ 1e-14 * b.tensionHorizontal := by
    rw [ht]
    unfold tensionCable
    simp only [rotate_xy, b1, b2, a1, a2, hh]
    by_cases hd : s.direction = .positive
    · simp only [hd, if_true]
      have := longitudinal_balance h2 ((180 - s.angleCatenaries) / 2 * -1)
      rwa [show -((180 - s.angleCatenaries) / 2 * -1) = (180 - s.angleCatenaries) / 2 by ring] at this
    · simp only [hd, if_false]
      have := longitudinal_balance h2 ((180 - s.angleCatenaries) / 2)
      rwa [mul_neg_one]
  have hT : b.tensionHorizontal ≤ b.tension 1 := by
    have P2 := Pb.inner_positive Rb
    have := C44_tension_ge Rb.inner.1 P2 1
    rw [(Catenary3d.refresh_params b).2.2.2] at this
    exact this
  have hT' : 0 ≤ a.tension 0 := by
    have P2 := Pa.inner_positive Ra
    exact le_trans P2.h.le (C44_tension_ge Ra.inner.1 P2 0)
  obtain ⟨p1, p2⟩ := hardware_pull z s.direction t
  have := (angle_pull _ _ p1 p2 e).2
  nlinarith

/-- All three apply: a line angle of 170 degrees between two level spans, with a validation and a change of the hardware
angle between the queries. -/
example : ∃ s s' z, equilibriumAfter .new [.setAngleCatenaries 170, .setAngleHardware 10,
      .setAhead (some (levelSpan 100 1 70)), .setBack (some (levelSpan 120 1 70)), .setDirection .positive, .validate,
      .setAngleHardware 20, .tensionImbalance, .setAngleHardware 30] = some s ∧ s.angleEquilibriumQ = .ok s' z ∧
    s.ahead = some (levelSpan 100 1 70) ∧ s.back = some (levelSpan 120 1 70) ∧
    (levelSpan 100 1 70).validate.1 = true ∧ (levelSpan 120 1 70).validate.1 = true ∧
    (levelSpan 100 1 70).weightUnit.y = 0 ∧ (levelSpan 120 1 70).weightUnit.y = 0 ∧
    (levelSpan 100 1 70).tensionHorizontal = (levelSpan 120 1 70).tensionHorizontal ∧
    (∃ s1 i, (s'.setAngleHardware z).tensionImbalance = .ok s1 i ∧
      i ≤ 6e-6 * ((levelSpan 120 1 70).tension 1 + (levelSpan 100 1 70).tension 0)) := by
  have Va := level_valid (s := 100) (w := 1) (h := 70) (by norm_num) (by norm_num) (by norm_num)
  have Vb := level_valid (s := 120) (w := 1) (h := 70) (by norm_num) (by norm_num) (by norm_num)
  refine ⟨_, _, _, rfl, rfl, rfl, rfl, Va, Vb, rfl, rfl, rfl, ?_⟩
  exact C158_balanced (calls := [.setAngleCatenaries 170, .setAngleHardware 10,
      .setAhead (some (levelSpan 100 1 70)), .setBack (some (levelSpan 120 1 70)), .setDirection .positive, .validate,
      .setAngleHardware 20, .tensionImbalance, .setAngleHardware 30]) rfl rfl rfl (levelSpan_reachable _ _ _)
    (levelSpan_reachable _ _ _) Va Vb rfl rfl rfl rfl

end Verif.Props
