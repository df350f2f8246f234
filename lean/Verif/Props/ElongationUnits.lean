import Verif.Props.ComponentElongation

/-!
# C161: elongation in other units

Forces are measured in a unit `b` times smaller: polynomial coefficients, load limits and moduli are `b` times as
large, strains are the same.
-/

set_option linter.unusedSectionVars false

namespace Verif.Props
open Verif.ComponentModel Verif.Poly

/-- A component in another unit of force. -/
structure OtherForce (b : ℝ) (c c' : CableComponent) : Prop where
  creep : c'.creep = c.creep.map (· * b)
  loadStrain : c'.loadStrain = c.loadStrain.map (· * b)
  limitCreep : c'.limitCreep = c.limitCreep * b
  limitLoadStrain : c'.limitLoadStrain = c.limitLoadStrain * b
  compression : c'.modulusCompression = c.modulusCompression * b
  tension : c'.modulusTension = c.modulusTension * b
  scaleX : c'.scaleX = c.scaleX
  scaleY : c'.scaleY = c.scaleY

/-- Region points in another unit of force. -/
structure OtherRegions (b : ℝ) (r r' : Regions) : Prop where
  unloaded : r'.unloaded = ⟨r.unloaded.x, r.unloaded.y * b⟩
  start : r'.start = ⟨r.start.x, r.start.y * b⟩
  stop : r'.stop = ⟨r.stop.x, r.stop.y * b⟩

variable {b : ℝ}

theorem yLoop_scale (x : ℝ) : ∀ (cs : List ℝ) (n : ℕ) (y : ℝ),
    yLoop x n (cs.map (· * b)) (y * b) = yLoop x n cs y * b
  | [], _, _ => rfl
  | c :: cs, n, y => by
    simp only [List.map_cons, yLoop]
    rw [← yLoop_scale x cs (n + 1)]
    congr 1
    ring

theorem evalY_scale (cs : List ℝ) (x : ℝ) : evalY (cs.map (· * b)) x = evalY cs x * b := by
  unfold evalY
  have := yLoop_scale (b := b) x cs 0 0
  rwa [zero_mul] at this

theorem derivLoop_scale : ∀ (cs : List ℝ) (n : ℕ), derivLoop n (cs.map (· * b)) = (derivLoop n cs).map (· * b)
  | [], _ => rfl
  | c :: cs, n => by
    simp only [List.map_cons, derivLoop]
    rw [derivLoop_scale cs (n + 1)]
    split_ifs
    · simp only [List.map_cons]
      congr 1
      ring
    · rfl

theorem deriv_scale (cs : List ℝ) (x : ℝ) :
    evalY (derivCoefficients (cs.map (· * b))) x = evalY (derivCoefficients cs) x * b := by
  unfold derivCoefficients
  rw [derivLoop_scale, evalY_scale]

section

variable {c c' : CableComponent} (U : OtherForce b c c')
include U

theorem coefficients_scale (t : PolynomialType) : c'.coefficients t = (c.coefficients t).map (List.map (· * b)) := by
  cases t
  · rfl
  · exact congrArg some U.creep
  · exact congrArg some U.loadStrain

theorem loadPolynomial_scale (cs : List ℝ) (th x : ℝ) :
    c'.loadPolynomial (cs.map (· * b)) th x = c.loadPolynomial cs th x * b := by
  unfold CableComponent.loadPolynomial
  rw [evalY_scale, U.scaleX, U.scaleY]
  ring

theorem slopePolynomial_scale (cs : List ℝ) (th x : ℝ) :
    c'.slopePolynomial (cs.map (· * b)) th x = c.slopePolynomial cs th x * b := by
  unfold CableComponent.slopePolynomial
  rw [deriv_scale, U.scaleX, U.scaleY]
  ring

/-- The moduli of extrapolation, as long as neither is raised to the least modulus. -/
theorem modulusOf_scale {cs : List ℝ} {limit : ℝ} (hcs : cs ≠ [])
    (hx : c'.strainPolynomial (cs.map (· * b)) 0 (limit * b) = c.strainPolynomial cs 0 limit)
    (h : 100000 < c.modulusOf cs limit) (h' : 100000 < c'.modulusOf (cs.map (· * b)) (limit * b)) :
    c'.modulusOf (cs.map (· * b)) (limit * b) = c.modulusOf cs limit * b := by
  unfold CableComponent.modulusOf at *
  have hcs' : cs.map (· * b) ≠ [] := by simpa using hcs
  rw [if_neg hcs] at h ⊢
  rw [if_neg hcs'] at h' ⊢
  rw [hx, slopePolynomial_scale U] at h' ⊢
  simp only at h h' ⊢
  have g : ¬ c.slopePolynomial cs 0 (c.strainPolynomial cs 0 limit) < 100000 := by
    intro g
    rw [if_pos g] at h
    exact lt_irrefl _ h
  have g' : ¬ c.slopePolynomial cs 0 (c.strainPolynomial cs 0 limit) * b < 100000 := by
    intro g'
    rw [if_pos g'] at h'
    exact lt_irrefl _ h'
  rw [if_neg g, if_neg g']

end

/-- **C161** (partial: as far as the region points agree, and where the slope beyond the polynomial is not raised to
100000; see `C161_least_slope`): load and slope at every strain are the same forces in all units, and outside the
polynomial region so are the strains at every load. -/
theorem C161_same_partial (hb : 0 < b) {m m' n n' : ComponentModel} {c d : CableComponent} {s : CableState}
    {r q : Regions} (O : Obtained m) (P : Obtained n) (hc : m.component = some c) (hd : n.component = some d)
    (hs : m.state = some s) (hs' : n.state = some s) (U : OtherForce b c d) (hr : m.pointsRegions = .ok m' r)
    (hq : n.pointsRegions = .ok n' q) (hne : r ≠ noRegions) (hne' : q ≠ noRegions) (V : OtherRegions b r q) {th : ℝ}
    (ht : m'.strainThermal = .ok m' th) (ht' : n'.strainThermal = .ok n' th) {e e' : ℝ} (ho : r.start.x < r.stop.x)
    (hu : r.unloaded.x ≤ r.start.x)
    (he : m'.slope r.stop.x = .ok m' e) (he' : n'.slope r.stop.x = .ok n' e') (g : 100000 < e) (g' : 100000 < e') :
    (∀ x, ∃ l, m'.load x = .ok m' l ∧ n'.load x = .ok n' (l * b)) ∧
    (∀ x, ∃ k, m'.slope x = .ok m' k ∧ n'.slope x = .ok n' (k * b)) ∧
    ∀ l, l ≤ r.start.y ∨ r.stop.y ≤ l → ∃ x, m'.strain l = .ok m' x ∧ n'.strain (l * b) = .ok n' x := by
  obtain ⟨f1, f2, f3, f4, f5, cs, limit, i1, i2, i3, i4⟩ := points_facts O hc hs hr hne
  obtain ⟨k1, k2, k3, k4, k5, ds, limit', j1, j2, j3, j4⟩ := points_facts P hd hs' hq hne'
  have t1 : m'.thermalState = th := by
    have := query_updated (fail := (-999999 : ℝ)) (body := fun _ _ m => m.thermalState) f1 f2 f3 f4
    rw [show m'.strainThermal = _ from this] at ht
    injection ht
  have t2 : n'.thermalState = th := by
    have := query_updated (fail := (-999999 : ℝ)) (body := fun _ _ m => m.thermalState) k1 k2 k3 k4
    rw [show n'.strainThermal = _ from this] at ht'
    injection ht'
  obtain ⟨-, hn⟩ := modulus_pos i1 i2
  rw [coefficients_scale U, i1] at j1
  obtain rfl : cs.map (· * b) = ds := Option.some.inj j1
  have hl : limit' = limit * b := by
    cases hτ : s.type with
    | null => exact absurd hτ hn
    | creep =>
      rw [hτ] at i3 j3
      rw [← Option.some.inj i3, ← Option.some.inj j3, U.limitCreep]
    | loadStrain =>
      rw [hτ] at i3 j3
      rw [← Option.some.inj i3, ← Option.some.inj j3, U.limitLoadStrain]
  subst hl
  have sx : q.stop.x = r.stop.x := by rw [V.stop]
  have hx : d.strainPolynomial (cs.map (· * b)) 0 (limit * b) = c.strainPolynomial cs 0 limit := by
    have e1 : r.stop.x = c.strainPolynomial cs th limit := by rw [i4, t1]; rfl
    have e2 : q.stop.x = d.strainPolynomial (cs.map (· * b)) th (limit * b) := by rw [j4, t2]; rfl
    rw [sx, e1] at e2
    unfold CableComponent.strainPolynomial at *
    linarith
  have M : ∀ (c : CableComponent) cs limit, c.coefficients s.type = some cs → c.limit s.type = some limit →
      c.modulusExtrapolate s.type = c.modulusOf cs limit := by
    intro c cs limit h1 h2
    cases hτ : s.type with
    | null => exact absurd hτ hn
    | creep => rw [hτ] at h1 h2; rw [← Option.some.inj h1, ← Option.some.inj h2]; rfl
    | loadStrain => rw [hτ] at h1 h2; rw [← Option.some.inj h1, ← Option.some.inj h2]; rfl
  have atStop : ∀ (c : CableComponent) (th : ℝ), c.slope s.type r th r.stop.x = c.modulusExtrapolate s.type := by
    intro c th
    unfold CableComponent.slope
    rw [if_neg (by linarith), if_neg (by rintro ⟨-, h⟩; linarith), if_neg (by rintro ⟨-, h⟩; linarith),
      if_pos le_rfl, if_neg hn]
  have ex : q.unloaded.x = r.unloaded.x ∧ q.start.x = r.start.x ∧ q.stop.x = r.stop.x := by
    rw [V.unloaded, V.start, V.stop]; exact ⟨rfl, rfl, rfl⟩
  have slopeQ : ∀ (c : CableComponent) (th x : ℝ), c.slope s.type q th x = c.slope s.type r th x := by
    intro c th x
    unfold CableComponent.slope
    rw [ex.1, ex.2.1, ex.2.2]
  have em : c.modulusExtrapolate s.type = e := by
    have := query_updated (fail := (-999999 : ℝ)) (body := fun c s m => c.slope s.type m.points m.thermalState r.stop.x)
      f1 f2 f3 f4
    rw [show m'.slope r.stop.x = _ from this, f5, atStop] at he
    injection he
  have en : d.modulusExtrapolate s.type = e' := by
    have := query_updated (fail := (-999999 : ℝ)) (body := fun c s m => c.slope s.type m.points m.thermalState r.stop.x)
      k1 k2 k3 k4
    rw [show n'.slope r.stop.x = _ from this, k5, slopeQ, atStop] at he'
    injection he'
  have hE : d.modulusExtrapolate s.type = c.modulusExtrapolate s.type * b := by
    rw [M c cs limit i1 i3, M d _ _ (by rw [coefficients_scale U, i1]; rfl) j3]
    exact modulusOf_scale U i2 hx (by rw [← M c cs limit i1 i3, em]; exact g)
      (by rw [← M d _ _ (by rw [coefficients_scale U, i1]; rfl) j3, en]; exact g')
  have dc : d.coefficients s.type = some (cs.map (· * b)) := by rw [coefficients_scale U, i1]; rfl
  refine ⟨fun x => ⟨_, query_updated f1 f2 f3 f4, (query_updated k1 k2 k3 k4).trans (congrArg _ ?_)⟩,
    fun x => ⟨_, query_updated f1 f2 f3 f4, (query_updated k1 k2 k3 k4).trans (congrArg _ ?_)⟩,
    fun l hl => ⟨_, query_updated f1 f2 f3 f4, (query_updated k1 k2 k3 k4).trans (congrArg _ ?_)⟩⟩
  · rw [f5, k5, t1, t2]
    unfold CableComponent.load CableComponent.loadLinear
    rw [V.unloaded, V.start, V.stop, dc, i1, hE, U.compression, U.tension, if_neg hn, if_neg hn]
    simp only [loadPolynomial_scale U]
    split_ifs with h1 h2 h3 h4
    · ring
    · ring
    · rfl
    · ring
    · exfalso
      push Not at h1 h2 h3 h4
      rcases lt_or_ge r.start.x x with h | h
      · linarith [h3 h]
      · linarith [h2 h1]
  · rw [f5, k5, t1, t2, slopeQ]
    unfold CableComponent.slope
    rw [dc, i1, hE, U.compression, U.tension, if_neg hn, if_neg hn]
    simp only [slopePolynomial_scale U]
    split_ifs with h1 h2 h3 h4
    · rfl
    · rfl
    · rfl
    · rfl
    · exfalso
      push Not at h1 h2 h3 h4
      rcases lt_or_ge r.start.x x with h | h
      · linarith [h3 h]
      · linarith [h2 h1]
  · rw [f5, k5, t1, t2]
    have hlin : ∀ (p : V2) (k l : ℝ), CableComponent.strainLinear ⟨p.x, p.y * b⟩ (k * b) (l * b) =
        CableComponent.strainLinear p k l := by
      intro p k l
      unfold CableComponent.strainLinear
      simp only
      rw [← sub_mul, mul_div_mul_right _ _ hb.ne']
    have lt' : ∀ x y : ℝ, x * b < y * b ↔ x < y := fun x y => mul_lt_mul_iff_left₀ hb
    have le' : ∀ x y : ℝ, x * b ≤ y * b ↔ x ≤ y := fun x y => mul_le_mul_iff_left₀ hb
    unfold CableComponent.strain
    rw [V.unloaded, V.start, V.stop, dc, i1, hE, U.compression, U.tension, if_neg hn, if_neg hn]
    simp only [lt', le', hlin]
    have e1 : ¬ (r.start.y < l ∧ l < r.stop.y) := by
      rintro ⟨h1, h2⟩
      rcases hl with h | h <;> linarith
    rw [if_neg e1, if_neg e1]

/-! ## The least slope -/

/-- A component with straight lines of slope `a` as polynomials, in a unit of force given by `b`. -/
noncomputable def exForce (a b : ℝ) : CableComponent :=
  ⟨1, 0, [0, a * b, 0, 0, 0], [0, a * b, 0, 0, 0], 100 * b, 100 * b, 1 * b, 3 * b, 1, 1⟩

theorem exForce_other (a b : ℝ) : OtherForce b (exForce a 1) (exForce a b) := by
  constructor <;> simp [exForce]

noncomputable def exForceModel (a b : ℝ) : ComponentModel :=
  { ComponentModel.new with
    component := some (exForce a b), reference := some 0, stretch := some ⟨0, .loadStrain, 0⟩,
    state := some ⟨0, .loadStrain⟩ }

theorem exForce_obtained (a b : ℝ) : Obtained (exForceModel a b) :=
  ⟨[.setComponent (some (exForce a b)), .setReference (some 0), .setStretch (some ⟨0, .loadStrain, 0⟩),
    .setState (some ⟨0, .loadStrain⟩)], rfl⟩

theorem exForce_clean (a b : ℝ) : Clean (exForceModel a b) := clean_flags_false rfl rfl

noncomputable def exForcePoints (a b : ℝ) : Regions := ⟨⟨0, 0 * b⟩, ⟨0, 0 * b⟩, ⟨100 / a, 100 * b⟩⟩

theorem exForce_spec {a b : ℝ} (ha : 0 < a) (hb : 0 < b) :
    spec (exForce a b) 0 ⟨0, .loadStrain⟩ ⟨0, .loadStrain, 0⟩ = .val (some (0, 0, exForcePoints a b)) := by
  have hd : a * b ≠ 0 := (mul_pos ha hb).ne'
  refine spec_eq (stretchOf_same (Or.inl rfl)) ?_
  have h3 : (exForce a b).thermal 0 0 = 0 := by unfold CableComponent.thermal; ring
  rw [regionsOf_eq (cs := [0, a * b, 0, 0, 0]) (limit := 100 * b) rfl (by simp) rfl]
  simp only [h3]
  unfold CableComponent.regions CableComponent.strainPolynomial
  rw [polynomialX_linear hd, polynomialX_linear hd]
  unfold exForcePoints
  have h1 : (exForce a b).scaleX = 1 := rfl
  have h2 : 100 * b / (a * b) = 100 / a := mul_div_mul_right _ _ hb.ne'
  simp [CableComponent.strainLinear, h1, h2]

/-- Its extrapolation modulus. -/
theorem exForce_modulus (a b : ℝ) :
    (exForce a b).modulusExtrapolate .loadStrain = if a * b < 100000 then 100000 else a * b := by
  show (exForce a b).modulusOf [0, a * b, 0, 0, 0] (100 * b) = _
  unfold CableComponent.modulusOf
  rw [if_neg (by simp)]
  have : ∀ x, (exForce a b).slopePolynomial [0, a * b, 0, 0, 0] 0 x = a * b := by
    intro x
    unfold CableComponent.slopePolynomial
    simp [derivCoefficients, derivLoop, evalY, yLoop, exForce]
  simp only [this]

/-- The slope at and beyond the last point of the polynomial. -/
theorem exForce_slope {a b : ℝ} (ha : 0 < a) {x : ℝ} (hx : 100 / a ≤ x) :
    (exForce a b).slope .loadStrain (exForcePoints a b) 0 x = (exForce a b).modulusExtrapolate .loadStrain := by
  have h0 : 0 < 100 / a := by positivity
  unfold CableComponent.slope exForcePoints
  simp only
  rw [if_neg (by linarith), if_neg (by rintro ⟨-, h⟩; linarith), if_neg (by rintro ⟨-, h⟩; linarith), if_pos hx,
    if_neg (by simp)]

theorem exForce_points_ne (a b : ℝ) : exForcePoints a b ≠ noRegions := by
  intro h
  have : (0 : ℝ) = -999999 := congrArg (fun r => r.unloaded.x) h
  norm_num at this

theorem exForce_points_other (a b : ℝ) : OtherRegions b (exForcePoints a 1) (exForcePoints a b) := by
  constructor <;> simp [exForcePoints]

theorem exForce_read {a b : ℝ} (ha : 0 < a) (hb : 0 < b) :
    ∃ m', (exForceModel a b).pointsRegions = .ok m' (exForcePoints a b) ∧ m'.strainThermal = .ok m' 0 ∧
      ∀ x, 100 / a ≤ x → m'.slope x = .ok m' (if a * b < 100000 then 100000 else a * b) := by
  obtain ⟨m', h, -, -, -, -, -, ht, hp⟩ := (exForce_clean a b).query rfl rfl rfl rfl (exForce_spec ha hb)
    (fail := noRegions) (body := fun _ _ m => m.points)
  have h' : (exForceModel a b).pointsRegions = .ok m' (exForcePoints a b) := by rw [← hp]; exact h
  have hne := exForce_points_ne a b
  obtain ⟨f1, f2, f3, f4, f5, -⟩ := points_facts (exForce_obtained a b) rfl rfl h' hne
  refine ⟨m', h', (query_updated f1 f2 f3 f4).trans (congrArg _ ht),
    fun x hx => (query_updated f1 f2 f3 f4).trans (congrArg _ ?_)⟩
  rw [f5, ht, exForce_slope ha hx, exForce_modulus]

/-- **C161 fails** beyond the load limit: the slope there is never less than 100000 in whatever unit forces have, so
a component of slope 400000 newtons is 100000 pounds (444800 newtons) when measured in pounds. -/
theorem C161_least_slope : ∃ (b : ℝ) (m n m' n' : ComponentModel) (c d : CableComponent) (s : CableState)
    (r q : Regions) (x e e' : ℝ), 0 < b ∧ Obtained m ∧ Obtained n ∧ m.component = some c ∧ n.component = some d ∧
    m.state = some s ∧ n.state = some s ∧ OtherForce b c d ∧ m.pointsRegions = .ok m' r ∧
    n.pointsRegions = .ok n' q ∧ r ≠ noRegions ∧ q ≠ noRegions ∧ OtherRegions b r q ∧
    m'.slope x = .ok m' e ∧ n'.slope x = .ok n' e' ∧ e * b < e' := by
  obtain ⟨m', h1, -, h3⟩ := exForce_read (a := 400000) (b := 1) (by norm_num) one_pos
  obtain ⟨n', k1, -, k3⟩ := exForce_read (a := 400000) (b := 1000 / 4448) (by norm_num) (by norm_num)
  refine ⟨1000 / 4448, exForceModel 400000 1, exForceModel 400000 (1000 / 4448), m', n', _, _, _, _, _, 1, _, _,
    by norm_num, exForce_obtained _ _, exForce_obtained _ _, rfl, rfl, rfl, rfl, exForce_other _ _, h1, k1,
    exForce_points_ne _ _, exForce_points_ne _ _, exForce_points_other _ _, h3 1 (by norm_num), k3 1 (by norm_num),
    ?_⟩
  norm_num

/-- `C161_same_partial` applies: a component of slope 1000000 newtons, in newtons and in pounds. -/
example : ∃ m' n', (∀ x, ∃ l, m'.load x = .ok m' l ∧ n'.load x = .ok n' (l * (1000 / 4448))) ∧
    (exForceModel 1000000 1).pointsRegions = .ok m' (exForcePoints 1000000 1) ∧
    (exForceModel 1000000 (1000 / 4448)).pointsRegions = .ok n' (exForcePoints 1000000 (1000 / 4448)) := by
  obtain ⟨m', h1, h2, h3⟩ := exForce_read (a := 1000000) (b := 1) (by norm_num) one_pos
  obtain ⟨n', k1, k2, k3⟩ := exForce_read (a := 1000000) (b := 1000 / 4448) (by norm_num) (by norm_num)
  refine ⟨m', n', (C161_same_partial (b := 1000 / 4448) (by norm_num) (exForce_obtained _ _) (exForce_obtained _ _) rfl
    rfl rfl rfl (exForce_other _ _) h1 k1 (exForce_points_ne _ _) (exForce_points_ne _ _) (exForce_points_other _ _)
    h2 k2 ?_ le_rfl (h3 _ le_rfl) (k3 _ le_rfl) ?_ ?_).1, h1, k1⟩
  · show (0 : ℝ) < 100 / 1000000
    norm_num
  · norm_num
  · norm_num

end Verif.Props
