import Verif.Props.StretchTransfer

/-! # More permanent stretch, never less strain (C203) -/

set_option linter.unusedSectionVars false

namespace Verif.Props
open Verif.Poly ElongationModel ComponentModel CableComponent

/-- The strain of a component with a stretch on the polynomial of the state. -/
theorem strain_same {c : CableComponent} {t T L limit : ℝ} {s : CableState} {cs : List ℝ}
    (hcs : c.coefficients s.type = some cs) (hne : cs ≠ []) (hlim : c.limit s.type = some limit) (l : ℝ) :
    valueOf id ((componentOf c t s ⟨T, s.type, L⟩).strain l) =
      .val (c.strain s.type (c.regions cs (c.thermal t s.temperature) limit L) (c.thermal t s.temperature) l) := by
  have hsp : spec c t s ⟨T, s.type, L⟩ = .val (some (L, c.thermal t s.temperature,
      c.regions cs (c.thermal t s.temperature) limit L)) :=
    spec_eq (stretchOf_same (Or.inl rfl)) (regionsOf_eq hcs hne hlim)
  obtain ⟨m', q1, -, -, -, -, -, q3, q2⟩ := (componentOf_clean c t s ⟨T, s.type, L⟩).query rfl rfl rfl rfl hsp
    (fail := (-999999 : ℝ)) (body := fun c s m => c.strain s.type m.points m.thermalState l)
  show valueOf id (ComponentModel.query (-999999 : ℝ) _ _) = _
  rw [q1, q2, q3]
  rfl

/-- The strains on the curve are at least as far apart as those on the elastic line, but for the error of the search. -/
theorem curve_gap {P : ℝ → ℝ} {E scale k lo hi ε a b x y : ℝ} (hE : 0 < E) (hs : 0 < scale) (hk : 0 < k) (hlo : lo < hi)
    (hP : ∀ x x', lo ≤ x → x ≤ x' → x' ≤ hi → k * (x' - x) ≤ P x' - P x ∧ P x' - P x ≤ E * scale * (x' - x))
    (ha : lo ≤ x ∧ x ≤ hi ∧ |P x - a| ≤ ε) (hb : lo ≤ y ∧ y ≤ hi ∧ |P y - b| ≤ ε) (hab : a ≤ b) :
    x * scale + (b - a) / E ≤ y * scale + 2 * ε * scale / k := by
  obtain ⟨a1, a2, a3⟩ := ha
  obtain ⟨b1, b2, b3⟩ := hb
  obtain ⟨a4, a5⟩ := abs_le.1 a3
  obtain ⟨b4, b5⟩ := abs_le.1 b3
  have hε : 0 ≤ ε := le_trans (abs_nonneg _) a3
  have hkE : k ≤ E * scale := by
    obtain ⟨h1, h2⟩ := hP lo hi le_rfl hlo.le le_rfl
    exact le_of_mul_le_mul_right (h1.trans h2) (by linarith)
  rcases le_total x y with h | h
  · obtain ⟨-, h2⟩ := hP _ _ a1 h b2
    have h4 : (b - a - 2 * ε) / E ≤ scale * (y - x) := by
      rw [div_le_iff₀ hE]; linarith
    have e : (b - a - 2 * ε) / E = (b - a) / E - 2 * ε / E := by ring
    have h5 : 2 * ε / E ≤ 2 * ε * scale / k := by
      rw [div_le_div_iff₀ hE hk]
      have := mul_le_mul_of_nonneg_left hkE (by linarith : (0:ℝ) ≤ 2 * ε)
      linarith
    linarith
  · obtain ⟨h1, -⟩ := hP _ _ b1 h a2
    have h4 : x - y ≤ (2 * ε - (b - a)) / k := by
      rw [le_div_iff₀ hk]; linarith
    have h5 := mul_le_mul_of_nonneg_left h4 hs.le
    have e : scale * ((2 * ε - (b - a)) / k) = 2 * ε * scale / k - (b - a) * scale / k := by ring
    have h6 : (b - a) / E ≤ (b - a) * scale / k := by
      rw [div_le_div_iff₀ hE hk]
      have := mul_le_mul_of_nonneg_left hkE (by linarith : (0:ℝ) ≤ b - a)
      linarith
    linarith

/-- **C203**. Two models of the same component in the same state, stretched by the loads `L₁ ≤ L₂` on the polynomial of
the state: the strain of every load, tension or compression, is with the larger stretch not smaller, but for the error
`ε` of the solutions of the polynomial, and the same above `L₂`.  The polynomial has slopes between `k` and the elastic
modulus of the component, which a validation with warnings is to ensure. -/
theorem C203_strain {c : CableComponent} {t T₁ T₂ L₁ L₂ limit ε k lo hi : ℝ} {s : CableState} {cs : List ℝ}
    (hcs : c.coefficients s.type = some cs) (hne : cs ≠ []) (hlim : c.limit s.type = some limit)
    (hE : 0 < c.modulusTension) (hsx : 0 < c.scaleX) (hk : 0 < k) (hlo : lo < hi)
    (h0 : 0 ≤ L₁) (h12 : L₁ ≤ L₂) (h2 : L₂ ≤ limit)
    (hX : ∀ l, 0 ≤ l → l ≤ limit → ∃ x, ((Obj.new cs).solveX l 2 0.1).1 = .val x ∧ lo ≤ x ∧ x ≤ hi ∧
      |evalY cs x - l| ≤ ε)
    (hP : ∀ x x', lo ≤ x → x ≤ x' → x' ≤ hi → k * (x' - x) ≤ evalY cs x' - evalY cs x ∧
      evalY cs x' - evalY cs x ≤ c.modulusTension * c.scaleX * (x' - x)) (l : ℝ) :
    ∃ e₁ e₂, valueOf id ((componentOf c t s ⟨T₁, s.type, L₁⟩).strain l) = .val e₁ ∧
      valueOf id ((componentOf c t s ⟨T₂, s.type, L₂⟩).strain l) = .val e₂ ∧
      e₁ ≤ e₂ + 2 * ε * c.scaleX / k ∧ (L₂ < l → e₁ = e₂) := by
  refine ⟨_, _, strain_same hcs hne hlim l, strain_same hcs hne hlim l, ?_⟩
  have hX' : ∀ l, 0 ≤ l → l ≤ limit → lo ≤ polynomialX cs l ∧ polynomialX cs l ≤ hi ∧
      |evalY cs (polynomialX cs l) - l| ≤ ε := by
    intro l hl hl'
    obtain ⟨x, e, h⟩ := hX l hl hl'
    have : polynomialX cs l = x := by unfold polynomialX; rw [e]
    rw [this]; exact h
  have gap : ∀ a b, 0 ≤ a → a ≤ b → b ≤ limit →
      polynomialX cs a * c.scaleX + (b - a) / c.modulusTension ≤ polynomialX cs b * c.scaleX + 2 * ε * c.scaleX / k :=
    fun a b ha hab hb => curve_gap hE hsx hk hlo hP (hX' a ha (hab.trans hb)) (hX' b (ha.trans hab) hb) hab
  have hδ : 0 ≤ 2 * ε * c.scaleX / k := by
    have := gap 0 0 le_rfl le_rfl (by linarith)
    have e : ((0:ℝ) - 0) / c.modulusTension = 0 := by simp
    linarith
  generalize c.thermal t s.temperature = th
  have ht := (modulus_pos hcs hne).2
  have sub : ∀ a b : ℝ, (a - b) / c.modulusTension = a / c.modulusTension - b / c.modulusTension := fun a b => sub_div _ _ _
  have g12 := gap L₁ L₂ h0 h12 h2
  rw [sub] at g12
  unfold CableComponent.strain
  simp only [CableComponent.regions, CableComponent.strainLinear, CableComponent.strainPolynomial, hcs, if_neg ht, sub,
    zero_div]
  by_cases n : l < 0
  · rw [if_pos n, if_pos n]
    exact ⟨by linarith, fun h => absurd h (by linarith)⟩
  have n' := not_lt.1 n
  rw [if_neg n, if_neg n]
  by_cases n1 : l ≤ L₁
  · rw [if_pos ⟨n', n1⟩, if_pos ⟨n', n1.trans h12⟩]
    exact ⟨by linarith, fun h => absurd h (by linarith)⟩
  have n1' := not_le.1 n1
  rw [if_neg (fun h => n1 h.2)]
  by_cases n2 : l ≤ L₂
  · rw [if_pos (show 0 ≤ l ∧ l ≤ L₂ from ⟨n', n2⟩)]
    refine ⟨?_, fun h => absurd h (by linarith)⟩
    have g := gap l L₂ n' n2 h2
    rw [sub] at g
    by_cases n3 : l < limit
    · rw [if_pos ⟨n1', n3⟩]
      linarith
    · have e1 : l = L₂ := by linarith [not_lt.1 n3]
      have e2 : L₂ = limit := by linarith [not_lt.1 n3]
      subst e1; subst e2
      rw [if_neg (fun h => n3 h.2), if_pos le_rfl, sub_self, zero_div]
      linarith
  · have n2' := not_le.1 n2
    rw [if_neg (show ¬ (0 ≤ l ∧ l ≤ L₂) from fun h => n2 h.2)]
    by_cases n3 : l < limit
    · rw [if_pos (show L₁ < l ∧ l < limit from ⟨n1', n3⟩), if_pos (show L₂ < l ∧ l < limit from ⟨n2', n3⟩)]
      exact ⟨by linarith, fun _ => rfl⟩
    · rw [if_neg (show ¬ (L₁ < l ∧ l < limit) from fun h => n3 h.2),
        if_neg (show ¬ (L₂ < l ∧ l < limit) from fun h => n3 h.2)]
      exact ⟨by linarith, fun _ => rfl⟩

/-- The load and the points of a component with a stretch on the polynomial of the state. -/
theorem load_same {c : CableComponent} {t T L limit : ℝ} {s : CableState} {cs : List ℝ}
    (hcs : c.coefficients s.type = some cs) (hne : cs ≠ []) (hlim : c.limit s.type = some limit) (x : ℝ) :
    valueOf id ((componentOf c t s ⟨T, s.type, L⟩).load x) =
      .val (c.load s.type (c.regions cs (c.thermal t s.temperature) limit L) (c.thermal t s.temperature) x) ∧
    valueOf id (componentOf c t s ⟨T, s.type, L⟩).pointsRegions =
      .val (c.regions cs (c.thermal t s.temperature) limit L) ∧
    valueOf id (componentOf c t s ⟨T, s.type, L⟩).strainThermal = .val (c.thermal t s.temperature) := by
  have hsp : spec c t s ⟨T, s.type, L⟩ = .val (some (L, c.thermal t s.temperature,
      c.regions cs (c.thermal t s.temperature) limit L)) :=
    spec_eq (stretchOf_same (Or.inl rfl)) (regionsOf_eq hcs hne hlim)
  refine ⟨?_, ?_, ?_⟩
  · obtain ⟨m', q1, -, -, -, -, -, q3, q2⟩ := (componentOf_clean c t s ⟨T, s.type, L⟩).query rfl rfl rfl rfl hsp
      (fail := (-999999 : ℝ)) (body := fun c s m => c.load s.type m.points m.thermalState x)
    show valueOf id (ComponentModel.query (-999999 : ℝ) _ _) = _
    rw [q1, q2, q3]
    rfl
  · obtain ⟨m', q1, -, -, -, -, -, q3, q2⟩ := (componentOf_clean c t s ⟨T, s.type, L⟩).query rfl rfl rfl rfl hsp
      (fail := noRegions) (body := fun _ _ m => m.points)
    show valueOf id (ComponentModel.query noRegions _ _) = _
    rw [q1, q2]
    rfl
  · obtain ⟨m', q1, -, -, -, -, -, q3, q2⟩ := (componentOf_clean c t s ⟨T, s.type, L⟩).query rfl rfl rfl rfl hsp
      (fail := (-999999 : ℝ)) (body := fun _ _ m => m.thermalState)
    show valueOf id (ComponentModel.query (-999999 : ℝ) _ _) = _
    rw [q1, q3]
    rfl

/-- **C203**. At the same strain the component with the larger stretch does not carry more load, but for the error `ε`
of the loads at the starts of the two curves, if the points of its regions are at no smaller strains.  The curve `f` is
the polynomial as a function of the strain; it rises and is nowhere steeper than the elastic modulus. -/
theorem C203_load {c : CableComponent} {t T₁ T₂ L₁ L₂ limit ε th : ℝ} {s : CableState} {cs : List ℝ} {f : ℝ → ℝ}
    {r₁ r₂ : Regions}
    (hcs : c.coefficients s.type = some cs) (hne : cs ≠ []) (hlim : c.limit s.type = some limit)
    (hE : 0 < c.modulusTension) (hC : 0 ≤ c.modulusCompression)
    (h0 : 0 ≤ L₁) (h12 : L₁ ≤ L₂) (h2 : L₂ ≤ limit)
    (hr₁ : valueOf id (componentOf c t s ⟨T₁, s.type, L₁⟩).pointsRegions = .val r₁)
    (hr₂ : valueOf id (componentOf c t s ⟨T₂, s.type, L₂⟩).pointsRegions = .val r₂)
    (hth : valueOf id (componentOf c t s ⟨T₁, s.type, L₁⟩).strainThermal = .val th)
    (hu : r₁.unloaded.x ≤ r₂.unloaded.x) (hs : r₁.start.x ≤ r₂.start.x) (hst : r₂.start.x ≤ r₂.stop.x)
    (hf : ∀ x, f x = evalY cs ((x - th) / c.scaleX) * c.scaleY)
    (hf₁ : |f r₁.start.x - L₁| ≤ ε) (hf₂ : |f r₂.start.x - L₂| ≤ ε)
    (hslope : ∀ x x', r₁.start.x ≤ x → x ≤ x' → x' ≤ r₂.stop.x → f x ≤ f x' ∧
      f x' - f x ≤ c.modulusTension * (x' - x)) (x : ℝ) :
    ∃ l₁ l₂, valueOf id ((componentOf c t s ⟨T₁, s.type, L₁⟩).load x) = .val l₁ ∧
      valueOf id ((componentOf c t s ⟨T₂, s.type, L₂⟩).load x) = .val l₂ ∧
      l₂ ≤ l₁ + ε ∧ (r₂.start.x < x → l₁ = l₂) := by
  obtain ⟨a1, a2, a3⟩ := load_same (t := t) (T := T₁) (L := L₁) hcs hne hlim x
  obtain ⟨b1, b2, -⟩ := load_same (t := t) (T := T₂) (L := L₂) hcs hne hlim x
  refine ⟨_, _, a1, b1, ?_⟩
  have e1 := Res.val.inj (hr₁.symm.trans a2)
  have e2 := Res.val.inj (hr₂.symm.trans b2)
  have e3 := Res.val.inj (hth.symm.trans a3)
  rw [← e1, ← e2, ← e3]
  have ht := (modulus_pos hcs hne).2
  have y1 : r₁.start.y = L₁ := by rw [e1]; rfl
  have y2 : r₂.start.y = L₂ := by rw [e2]; rfl
  have z1 : r₁.unloaded.y = 0 := by rw [e1]; rfl
  have z2 : r₂.unloaded.y = 0 := by rw [e2]; rfl
  have w1 : r₁.stop.x = r₂.stop.x := by rw [e1, e2]; rfl
  have w2 : r₁.stop.y = limit := by rw [e1]; rfl
  have w3 : r₂.stop.y = limit := by rw [e2]; rfl
  have u1 : L₁ = (r₁.start.x - r₁.unloaded.x) * c.modulusTension := by
    have : r₁.unloaded.x = r₁.start.x + (0 - L₁) / c.modulusTension := by rw [e1]; rfl
    rw [this]; field_simp; ring
  have u2 : L₂ = (r₂.start.x - r₂.unloaded.x) * c.modulusTension := by
    have : r₂.unloaded.x = r₂.start.x + (0 - L₂) / c.modulusTension := by rw [e2]; rfl
    rw [this]; field_simp; ring
  clear e1 e2 e3 a1 a2 a3 b1 b2 hr₁ hr₂ hth
  obtain ⟨k1, k2⟩ := abs_le.1 hf₁
  obtain ⟨k3, k4⟩ := abs_le.1 hf₂
  have hε : 0 ≤ ε := le_trans (abs_nonneg _) hf₁
  have hus : r₁.unloaded.x ≤ r₁.start.x := by
    by_contra h
    have := mul_pos_of_neg_of_neg (show r₁.start.x - r₁.unloaded.x < 0 by linarith) (show -c.modulusTension < 0 by linarith)
    linarith
  have hus₂ : r₂.unloaded.x ≤ r₂.start.x := by
    by_contra h
    have := mul_pos_of_neg_of_neg (show r₂.start.x - r₂.unloaded.x < 0 by linarith) (show -c.modulusTension < 0 by linarith)
    linarith
  unfold CableComponent.load
  simp only [CableComponent.loadLinear, CableComponent.loadPolynomial, hcs, if_neg ht, ← hf, y1, y2, z1, z2, w1, w2, w3,
    zero_add]
  -- the load of the second component below the end of its elastic line
  have second : x < r₂.start.x ∨ x = r₂.start.x → (if x < r₂.unloaded.x then (x - r₂.unloaded.x) * c.modulusCompression
      else if r₂.unloaded.x ≤ x ∧ x ≤ r₂.start.x then L₂ + (x - r₂.start.x) * c.modulusTension
      else if r₂.start.x < x ∧ x < r₂.stop.x then f x
      else if r₂.stop.x ≤ x then limit + (x - r₂.stop.x) * c.modulusExtrapolate s.type else -999999) =
      if x < r₂.unloaded.x then (x - r₂.unloaded.x) * c.modulusCompression else (x - r₂.unloaded.x) * c.modulusTension := by
    intro h
    by_cases hx : x < r₂.unloaded.x
    · rw [if_pos hx, if_pos hx]
    · rw [if_neg hx, if_neg hx, if_pos ⟨not_lt.1 hx, by rcases h with h | h <;> linarith⟩, u2]
      ring
  by_cases n : x < r₁.unloaded.x
  · rw [if_pos n, if_pos (show x < r₂.unloaded.x by linarith)]
    refine ⟨?_, fun h => absurd h (by linarith)⟩
    have := mul_le_mul_of_nonneg_right (show x - r₂.unloaded.x ≤ x - r₁.unloaded.x by linarith) hC
    linarith
  have n' := not_lt.1 n
  rw [if_neg (show ¬ x < r₁.unloaded.x from n)]
  by_cases n1 : x ≤ r₁.start.x
  · rw [if_pos (show r₁.unloaded.x ≤ x ∧ x ≤ r₁.start.x from ⟨n', n1⟩), second (lt_or_eq_of_le (n1.trans hs))]
    refine ⟨?_, fun h => absurd h (by linarith)⟩
    have e : L₁ + (x - r₁.start.x) * c.modulusTension = (x - r₁.unloaded.x) * c.modulusTension := by rw [u1]; ring
    rw [e]
    have p1 : 0 ≤ (x - r₁.unloaded.x) * c.modulusTension := mul_nonneg (by linarith) hE.le
    split_ifs with q
    · have : (x - r₂.unloaded.x) * c.modulusCompression ≤ 0 := mul_nonpos_of_nonpos_of_nonneg (by linarith) hC
      linarith
    · have := mul_le_mul_of_nonneg_right (show x - r₂.unloaded.x ≤ x - r₁.unloaded.x by linarith) hE.le
      linarith
  have n1' := not_le.1 n1
  rw [if_neg (show ¬ (r₁.unloaded.x ≤ x ∧ x ≤ r₁.start.x) from fun h => n1 h.2)]
  by_cases n2 : x ≤ r₂.start.x
  · rw [second (lt_or_eq_of_le n2)]
    refine ⟨?_, fun h => absurd h (by linarith)⟩
    by_cases n3 : x < r₂.stop.x
    · rw [if_pos (show r₁.start.x < x ∧ x < r₂.stop.x from ⟨n1', n3⟩)]
      split_ifs with q
      · have : (x - r₂.unloaded.x) * c.modulusCompression ≤ 0 := mul_nonpos_of_nonpos_of_nonneg (by linarith) hC
        have := (hslope _ _ le_rfl n1'.le n3.le).1
        linarith
      · have h3 := (hslope _ _ n1'.le n2 hst).2
        have e : (x - r₂.unloaded.x) * c.modulusTension = L₂ - c.modulusTension * (r₂.start.x - x) := by rw [u2]; ring
        linarith
    · have e1 : x = r₂.stop.x := by linarith [not_lt.1 n3]
      have e2 : r₂.start.x = r₂.stop.x := by linarith [not_lt.1 n3]
      rw [if_neg (show ¬ (r₁.start.x < x ∧ x < r₂.stop.x) from fun h => n3 h.2), if_pos e1.ge, if_neg (by linarith),
        show x - r₂.unloaded.x = r₂.start.x - r₂.unloaded.x by linarith, ← u2, e1, sub_self, zero_mul]
      linarith
  · have n2' := not_le.1 n2
    have q : ¬ x < r₂.unloaded.x := by linarith
    rw [if_neg q, if_neg (show ¬ (r₂.unloaded.x ≤ x ∧ x ≤ r₂.start.x) from fun h => n2 h.2)]
    by_cases n3 : x < r₂.stop.x
    · rw [if_pos (show r₁.start.x < x ∧ x < r₂.stop.x from ⟨n1', n3⟩),
        if_pos (show r₂.start.x < x ∧ x < r₂.stop.x from ⟨n2', n3⟩)]
      exact ⟨by linarith, fun _ => rfl⟩
    · rw [if_neg (show ¬ (r₁.start.x < x ∧ x < r₂.stop.x) from fun h => n3 h.2),
        if_neg (show ¬ (r₂.start.x < x ∧ x < r₂.stop.x) from fun h => n3 h.2)]
      exact ⟨by linarith, fun _ => rfl⟩

/-- A straight line is solved exactly. -/
theorem solveX_line {a : ℝ} (ha : a ≠ 0) (y : ℝ) :
    ((Obj.new [0, a, 0, 0, 0]).solveX y 2 0.1).1 = .val (y / a) := by
  have hd : derivCoefficients [0, a, 0, 0, 0] = [a, 0, 0, 0] := by norm_num [derivCoefficients, derivLoop]
  have h1 : ∀ x, evalY [a, 0, 0, 0] x = a := by intro x; norm_num [evalY, yLoop]
  have h2 : ∀ x, evalY [0 - y, a, 0, 0, 0] x = a * x - y := by intro x; simp only [evalY, yLoop]; ring
  have hx : (0.1 : ℝ) - (a * 0.1 - y) / a = y / a := by field_simp; ring
  simp only [Obj.solveX, Obj.update, Obj.new, if_true, hd]
  rw [Obj.newton, if_pos (by norm_num [abs_of_pos])]
  simp only [h1, h2, if_pos ha]
  rw [hx, Obj.newton]
  split
  · have h3 : a * (y / a) - y = 0 := by field_simp; ring
    simp only [h1, h2, if_pos ha, h3]
    rw [zero_div, sub_zero, Obj.newton, if_neg]
    rw [abs_zero, not_lt]
    positivity
  · rfl

/-- The crept component: stretched to 100 and to 600. -/
example (l : ℝ) : ∃ e₁ e₂,
    valueOf id ((componentOf exCrept 20 ⟨50, .loadStrain⟩ ⟨0, .loadStrain, 100⟩).strain l) = .val e₁ ∧
    valueOf id ((componentOf exCrept 20 ⟨50, .loadStrain⟩ ⟨0, .loadStrain, 600⟩).strain l) = .val e₂ ∧
    e₁ ≤ e₂ + 2 * 0 * exCrept.scaleX / 300000 ∧ (600 < l → e₁ = e₂) := by
  refine C203_strain (cs := [0, 300000, 0, 0, 0]) (limit := 1000) (lo := 0) (hi := 1) rfl (by simp) rfl ?_ ?_
    (by norm_num) (by norm_num) (by norm_num) (by norm_num) (by norm_num) ?_ ?_ l
  · norm_num [exCrept]
  · norm_num [exCrept]
  · intro l h0 h1
    refine ⟨_, solveX_line (by norm_num) l, by positivity, by rw [div_le_one (by norm_num)]; linarith, ?_⟩
    rw [evalY_linear]
    rw [show 300000 * (l / 300000) - l = 0 by ring]; simp
  · intro x x' _ h _
    rw [evalY_linear, evalY_linear]
    have e : exCrept.modulusTension * exCrept.scaleX = 500000 := by norm_num [exCrept]
    rw [e]
    constructor <;> linarith

/-- The crept component stretched to 100 carries at every strain at least the load of the one stretched to 600. -/
example (x : ℝ) : ∃ l₁ l₂,
    valueOf id ((componentOf exCrept 20 ⟨20, .loadStrain⟩ ⟨0, .loadStrain, 100⟩).load x) = .val l₁ ∧
    valueOf id ((componentOf exCrept 20 ⟨20, .loadStrain⟩ ⟨0, .loadStrain, 600⟩).load x) = .val l₂ ∧
    l₂ ≤ l₁ + 0 ∧ (600 / 300000 * 1 + 0 < x → l₁ = l₂) := by
  have ht : exCrept.thermal 20 20 = 0 := by unfold CableComponent.thermal; ring
  have F : ∀ (L x : ℝ), _ := fun L x => load_same (c := exCrept) (t := 20) (T := 0) (L := L) (s := ⟨20, .loadStrain⟩)
    (cs := [0, 300000, 0, 0, 0]) (limit := 1000) rfl (by simp) rfl x
  simp only [ht, exCrept_regions (d := 300000) (by norm_num)] at F
  have hf : ∀ x : ℝ, 300000 * x = evalY [0, 300000, 0, 0, 0] ((x - 0) / exCrept.scaleX) * exCrept.scaleY := by
    intro x
    rw [evalY_linear]
    simp [exCrept]
  have e : exCrept.modulusTension = 500000 := rfl
  refine C203_load (cs := [0, 300000, 0, 0, 0]) (limit := 1000) (f := fun x => 300000 * x) rfl (by simp) rfl
    (by rw [e]; norm_num) (by norm_num [exCrept]) (by norm_num) (by norm_num) (by norm_num) (F 100 x).2.1 (F 600 x).2.1
    (F 100 x).2.2 (by norm_num) (by norm_num) (by norm_num) hf (by norm_num) (by norm_num) ?_ x
  intro x x' _ h _
  rw [e]
  constructor <;> linarith

/-- A curve of slope 300000 on a component of elastic modulus 100000. -/
noncomputable def exSteepCurve : CableComponent :=
  ⟨1, 0, [0, 200000, 0, 0, 0], [0, 300000, 0, 0, 0], 1000, 1000, 150000, 100000, 1, 1⟩

/-- The bound on the slope of the curve is needed: where the curve is steeper than the elastic modulus, the stretched
component is shorter without load than the one without stretch. -/
theorem C203_steep_fails : ∃ (c : CableComponent) (s : CableState) (e₁ e₂ : ℝ),
    valueOf id ((componentOf c 0 s ⟨0, s.type, 0⟩).strain 0) = .val e₁ ∧
    valueOf id ((componentOf c 0 s ⟨0, s.type, 600⟩).strain 0) = .val e₂ ∧ e₁ = 0 ∧ e₂ = -0.004 := by
  have ht : exSteepCurve.thermal 0 0 = 0 := by unfold CableComponent.thermal; ring
  refine ⟨exSteepCurve, ⟨0, .loadStrain⟩, _, _, strain_same (cs := [0, 300000, 0, 0, 0]) (limit := 1000) rfl (by simp) rfl 0,
    strain_same (cs := [0, 300000, 0, 0, 0]) (limit := 1000) rfl (by simp) rfl 0, ?_, ?_⟩
  all_goals
    unfold CableComponent.strain
    simp only [CableComponent.regions, CableComponent.strainLinear, CableComponent.strainPolynomial, ht]
    rw [if_neg (by norm_num), if_pos (by norm_num), polynomialX_linear (by norm_num)]
    norm_num [exSteepCurve]

end Verif.Props
