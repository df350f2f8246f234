import Verif.Props.Thermal

/-!
# Steady temperature, stale settings and transient series (C67, C70, C71, C95)
-/

set_option linter.unusedSectionVars false

namespace Verif.Props

open Verif

/-! ## The steady temperature of special currents -/

/-- A temperature solver set up completely. -/
noncomputable def temperatureSetup (c : CablePointer) (i : ℝ) (u : UnitSystem) (w : Option ThermalWeather) :
    TemperatureSolver :=
  (((TemperatureSolver.new.setCable c).setCurrent i).setUnits u).setWeather w

theorem temperatureSetup_update (c : CablePointer) (i : ℝ) (u : UnitSystem) (w : ThermalWeather) :
    (temperatureSetup c i u (some w)).update =
      if (TemperatureSolver.search c i u w).iter < 100 then
        .ok ⟨c, i, u, some w, Heat.stateAt c u w (TemperatureSolver.search c i u w).currentX,
          (TemperatureSolver.search c i u w).currentX, true⟩ true
      else .ok ⟨c, i, u, some w, HeatState.new, some (-999999), false⟩ false := rfl

theorem askTemperature_of {s s' : TemperatureSolver} {b : Bool} (h : s.isUpdated = false)
    (hu : s.update = .ok s' b) :
    s.askTemperature = .ok s' (if b then s'.temperature else some (-999999)) := by
  unfold TemperatureSolver.askTemperature TemperatureSolver.refresh
  rw [h]
  simp only [Bool.false_eq_true, if_false, hu]
  cases b <;> rfl

theorem temperatureSetup_fail {c : CablePointer} {i : ℝ} {u : UnitSystem} {w : ThermalWeather}
    (h : ¬ (TemperatureSolver.search c i u w).iter < 100) :
    (∃ s, (temperatureSetup c i u (some w)).askTemperature = .ok s (some (-999999))) ∧
    ∃ s, (temperatureSetup c i u (some w)).validate = .ok s false := by
  have hu := temperatureSetup_update c i u w
  rw [if_neg h] at hu
  refine ⟨⟨_, askTemperature_of rfl hu⟩, ⟨⟨c, i, u, some w, HeatState.new, some (-999999), false⟩, ?_⟩⟩
  unfold TemperatureSolver.validate
  rw [hu]
  simp only [Bool.and_false]

/-- When the first pass of the search lands on one of its two starting temperatures (or nowhere) it never moves. -/
theorem search_stuck {c : CablePointer} {i : ℝ} {u : UnitSystem} {w : ThermalWeather}
    (h : ∀ x n, TemperatureSearch.nextX i { TemperatureSolver.start c u w with currentX := x, iter := n } = none ∨
      TemperatureSearch.nextX i { TemperatureSolver.start c u w with currentX := x, iter := n } =
        some w.temperatureAir ∨
      TemperatureSearch.nextX i { TemperatureSolver.start c u w with currentX := x, iter := n } =
        some (w.temperatureAir + 10)) :
    ¬ (TemperatureSolver.search c i u w).iter < 100 := by
  unfold TemperatureSolver.search TemperatureSolver.start
  rw [TemperatureSearch.loop_stuck]
  · norm_num
  · rw [abs_sub_comm, add_sub_cancel_left]; norm_num
  · intro x n
    exact TemperatureSearch.replace_end _ _ (h x n) (by simp)

/-- The first two probes of the search. -/
theorem nextX_start {c : CablePointer} {i a : ℝ} {u : UnitSystem} {w : ThermalWeather}
    (ha : Heat.currentAt c u w (some w.temperatureAir) = some a ∨
      Heat.currentAt c u w (some w.temperatureAir) = none)
    (hi : i = a ∨ Heat.currentAt c u w (some (w.temperatureAir + 10)) = some i) (x : Option ℝ) (n : ℕ) :
    TemperatureSearch.nextX i { TemperatureSolver.start c u w with currentX := x, iter := n } = none ∨
      TemperatureSearch.nextX i { TemperatureSolver.start c u w with currentX := x, iter := n } =
        some w.temperatureAir ∨
      TemperatureSearch.nextX i { TemperatureSolver.start c u w with currentX := x, iter := n } =
        some (w.temperatureAir + 10) := by
  unfold TemperatureSearch.nextX TemperatureSolver.start
  rcases ha with ha | ha
  · simp only [ha]
    cases hb : Heat.currentAt c u w (some (w.temperatureAir + 10)) with
    | none => left; rfl
    | some b =>
      simp only [add_sub_cancel_left]
      split_ifs with hs
      · left; rfl
      · right
        rcases hi with hi | hi
        · left; rw [hi]; simp
        · right
          rw [hb] at hi
          obtain rfl := Option.some.inj hi
          congr 2
          have : b - a ≠ 0 := fun h => hs (by rw [h]; simp)
          field_simp
  · left; simp only [ha]

theorem currentAt_valid {k : Cable} {u : UnitSystem} {w : ThermalWeather} (t : Option ℝ)
    (h : heatValid (some (some k)) u (some w) = true) :
    Heat.currentAt (some (some k)) u w t = Heat.steadyCurrent k u w t := by
  rw [Heat.currentAt_eq, if_pos h]

/-- The current at the air temperature without sun is zero, or not a number when the resistance is zero. -/
theorem current_air {k : Cable} {u : UnitSystem} {w : ThermalWeather} (hk : k.validateThermal.1 = true)
    (hu : u ≠ .null) (hw : w.validate.1 = true) (hs : w.radiationSolar = 0) :
    Heat.steadyCurrent k u w (some w.temperatureAir) =
      if k.resistance w.temperatureAir = 0 then none else some 0 := by
  rw [Cable.validateThermal_iff] at hk
  rw [ThermalWeather.validate_iff] at hw
  have hc := Heat.convection_air (k := k) hu hk.1.2.1 hw.2.2.2.2.1
  have hr := Heat.radiation_air k u w
  simp [Heat.steadyCurrent, Heat.steadyState, hc, hr, Heat.solar, hs, Heat.currentOf]

/-- C70 (partial).  The inverse direction: at the air temperature, without sun and where the resistance is not zero,
`SteadyCableCurrentSolver` reports a current of exactly zero.

Missing: the steady temperature of a zero current, which the temperature solver never finds, see `C70_never_found`. -/
theorem C70_current_partial (k : Cable) (u : UnitSystem) (w : ThermalWeather) (hk : k.validateThermal.1 = true)
    (hu : u ≠ .null) (hw : w.validate.1 = true) (hs : w.radiationSolar = 0)
    (hr : k.resistance w.temperatureAir ≠ 0) :
    (currentAfter (currentSetup k w.temperatureAir u w)).askCurrent.2 = some 0 := by
  rw [(currentSetup_ask _ (heatValid_of hk hu hw)).1, current_air hk hu hw hs, if_neg hr]

example : (currentAfter (currentSetup exThermal 0 .metric (exWeather 0))).askCurrent.2 = some 0 :=
  C70_current_partial exThermal .metric (exWeather 0) exThermal_valid (by decide) (exWeather_valid le_rfl) rfl
    (by rw [exThermal_resistance]; norm_num)

/-- C70 does not hold, for any valid cable and any valid weather without sun: with zero current the search starts at
the solution, never moves, and `TemperatureCable()` fails with -999999; `Validate` returns false. -/
theorem C70_never_found (k : Cable) (u : UnitSystem) (w : ThermalWeather) (hk : k.validateThermal.1 = true)
    (hu : u ≠ .null) (hw : w.validate.1 = true) (hs : w.radiationSolar = 0) :
    (∃ s, (temperatureSetup (some (some k)) 0 u (some w)).askTemperature = .ok s (some (-999999))) ∧
    (∃ s, (temperatureSetup (some (some k)) 0 u (some w)).validate = .ok s false) := by
  refine temperatureSetup_fail (search_stuck (nextX_start (a := 0) ?_ (Or.inl rfl)))
  rw [currentAt_valid _ (heatValid_of hk hu hw), current_air hk hu hw hs]
  split_ifs
  · right; rfl
  · left; rfl

example : ∃ s, (temperatureSetup (some (some exThermal)) 0 .metric (some (exWeather 0))).askTemperature =
    .ok s (some (-999999)) :=
  (C70_never_found exThermal .metric (exWeather 0) exThermal_valid (by decide) (exWeather_valid le_rfl) rfl).1

/-! ## C95: the temperature solver against the current solver -/

/-- C95 does not hold, for any settings whatsoever: the current that the current solver reports at the air temperature,
or ten degrees above it, is never turned back into that temperature; `TemperatureCable()` fails with -999999. -/
theorem C95_never_inverted (c : CablePointer) (u : UnitSystem) (w : ThermalWeather) (i : ℝ) (t : ℝ)
    (ht : t = w.temperatureAir ∨ t = w.temperatureAir + 10) (hi : Heat.currentAt c u w (some t) = some i) :
    ∃ s, (temperatureSetup c i u (some w)).askTemperature = .ok s (some (-999999)) := by
  refine (temperatureSetup_fail (search_stuck ?_)).1
  rcases ht with rfl | rfl
  · exact nextX_start (a := i) (Or.inl hi) (Or.inl rfl)
  · cases ha : Heat.currentAt c u w (some w.temperatureAir) with
    | none => exact nextX_start (a := i) (Or.inr ha) (Or.inl rfl)
    | some a => exact nextX_start (a := a) (Or.inl ha) (Or.inr hi)

theorem exThermal_hot {t : ℝ} (ht : 0 < t) :
    ∃ i, 0 < i ∧ Heat.currentAt (some (some exThermal)) .metric (exWeather 0) (some t) = some i := by
  rw [currentAt_valid _ (heatValid_of exThermal_valid (by decide) (exWeather_valid le_rfl))]
  obtain ⟨c, hc, hc'⟩ := Heat.convection_hot (k := exThermal) (u := .metric) (w := exWeather 0) (t := t) (by decide)
    (by norm_num [exThermal]) (by norm_num [exWeather]) (by simpa [exWeather] using ht)
  have hr := Heat.radiation_nonpos (k := exThermal) (u := .metric) (w := exWeather 0) (t := t) (by decide)
    (by norm_num [exThermal]) (by norm_num [exThermal]) (by norm_num [exWeather]) (by simpa [exWeather] using ht.le)
  obtain ⟨i, hi⟩ := Heat.currentOf_pos
    (-1 * (c + Heat.radiation exThermal .metric (exWeather 0) t + Heat.solar exThermal (exWeather 0)))
    (r := exThermal.resistance t) (by rw [exThermal_resistance]; norm_num)
  have hh : 0 < -1 * (c + Heat.radiation exThermal .metric (exWeather 0) t + Heat.solar exThermal (exWeather 0)) := by
    simp only [Heat.solar, exWeather] at *
    linarith
  obtain ⟨h1, h2, h3, h4⟩ := Heat.currentOf_spec hi
  refine ⟨i, lt_of_le_of_ne (h3 hh.le) ?_, ?_⟩
  · rintro rfl
    rw [abs_of_pos hh] at h1
    norm_num at h1
    linarith
  · simpa [Heat.steadyCurrent, Heat.steadyState, hc] using hi

example : ∃ i s, Heat.currentAt (some (some exThermal)) .metric (exWeather 0) (some 10) = some i ∧ 0 < i ∧
    (temperatureSetup (some (some exThermal)) i .metric (some (exWeather 0))).askTemperature =
      .ok s (some (-999999)) := by
  obtain ⟨i, hi, hc⟩ := exThermal_hot (t := 10) (by norm_num)
  obtain ⟨s, hs⟩ := C95_never_inverted _ _ _ i 10 (Or.inr (by norm_num [exWeather])) hc
  exact ⟨i, s, hc, hi, hs⟩

/-- While no temperature has been found the loop goes on to its last pass. -/
theorem loop_some {f : Option ℝ → Option ℝ} {target : ℝ} : ∀ (n : ℕ) (s : TemperatureSearch),
    0.1 < |s.leftX - s.rightX| → s.iter + n = 101 →
    (TemperatureSearch.loop f target n s).iter < 100 → ∃ x, (TemperatureSearch.loop f target n s).currentX = some x
  | 0, s, _, hn, hi => by
    rw [TemperatureSearch.loop] at hi
    omega
  | n + 1, s, hw, hn, hi => by
    rw [TemperatureSearch.loop, if_pos hw] at hi ⊢
    by_cases hw' : 0.1 < |(TemperatureSearch.step f target s).leftX - (TemperatureSearch.step f target s).rightX|
    · exact loop_some n _ hw' (by simp only [TemperatureSearch.step]; omega) hi
    · have he : TemperatureSearch.loop f target n (TemperatureSearch.step f target s) =
          TemperatureSearch.step f target s := by
        cases n with
        | zero => rfl
        | succ n => rw [TemperatureSearch.loop, if_neg hw']
      rw [he]
      cases hx : TemperatureSearch.nextX target s with
      | some x => exact ⟨x, by simp [TemperatureSearch.step, hx]⟩
      | none =>
        refine absurd ?_ hw'
        simpa [TemperatureSearch.step, hx, TemperatureSearch.replace] using hw

/-- C95 (partial).  When `TemperatureCable()` of a solver with valid settings succeeds, it reports a number `t`, and
the heat transfer state reported with it is the state of the current solver at `t`: the state of thermal equilibrium of
the cable at `t`.

Missing: that the requested current is the equilibrium current at `t`; see `C95_never_inverted` for currents that are
not found at all. -/
theorem C95_state_partial (k : Cable) (u : UnitSystem) (w : ThermalWeather) (i : ℝ) (s : TemperatureSolver)
    (v : Option ℝ) (hk : k.validateThermal.1 = true) (hu : u ≠ .null) (hw : w.validate.1 = true)
    (h : (temperatureSetup (some (some k)) i u (some w)).askTemperature = .ok s v) (hs : s.isUpdated = true) :
    ∃ t st, v = some t ∧ s.askState = .ok s st ∧
      st = (currentAfter (currentSetup k t u w)).askState.2 := by
  have hv := heatValid_of hk hu hw
  have hup := temperatureSetup_update (some (some k)) i u w
  by_cases hi : (TemperatureSolver.search (some (some k)) i u w).iter < 100
  · rw [if_pos hi] at hup
    rw [askTemperature_of rfl hup] at h
    injection h with hs' hv'
    obtain ⟨t, ht⟩ := loop_some 101 (TemperatureSolver.start (some (some k)) u w)
      (by rw [TemperatureSolver.start, abs_sub_comm, add_sub_cancel_left]; norm_num) rfl hi
    refine ⟨t, Heat.stateAt (some (some k)) u w (some t), ?_, ?_, ?_⟩
    · rw [← hv']; exact ht
    · rw [← hs', ← ht]; rfl
    · rw [Heat.stateAt_eq _ hv]
      simp [currentAfter, currentSetup, CurrentCall.next, CurrentSolver.askState, CurrentSolver.refresh,
        CurrentSolver.update, CurrentSolver.setCable, CurrentSolver.setTemperature, CurrentSolver.setUnits,
        CurrentSolver.setWeather, CurrentSolver.new, hv]
  · exfalso
    rw [if_neg hi] at hup
    rw [askTemperature_of rfl hup] at h
    injection h with hs' hv'
    rw [← hs'] at hs
    cases hs

/-- What the loop keeps: the points are in order and carry the currents at their temperatures. -/
def SearchOn (f : Option ℝ → Option ℝ) (s : TemperatureSearch) : Prop :=
  s.leftX < s.rightX ∧ s.leftY = f (some s.leftX) ∧ s.rightY = f (some s.rightX)

theorem searchOn_step {f : Option ℝ → Option ℝ} {target : ℝ} {s : TemperatureSearch} (h : SearchOn f s) :
    SearchOn f (TemperatureSearch.step f target s) := by
  obtain ⟨h1, h2, h3⟩ := h
  unfold SearchOn TemperatureSearch.step
  cases hx : TemperatureSearch.nextX target s with
  | none => exact ⟨h1, h2, h3⟩
  | some x =>
    simp only [TemperatureSearch.replace]
    split_ifs with c1 c2 c3
    · exact ⟨c1, rfl, h2⟩
    · cases hy : f (some x) with
      | none => exact ⟨h1, h2, h3⟩
      | some y =>
        simp only
        split_ifs
        · exact ⟨c2.1, h2, hy.symm⟩
        · exact ⟨c2.2, hy.symm, h3⟩
        · exact ⟨h1, h2, h3⟩
    · exact ⟨c3, h3, rfl⟩
    · exact ⟨h1, h2, h3⟩

/-- A pass that ends the loop lands within a tenth of a degree of one of the two points. -/
theorem step_ends {f : Option ℝ → Option ℝ} {target : ℝ} {s : TemperatureSearch} (h : SearchOn f s)
    (hw : 0.1 < |s.leftX - s.rightX|)
    (hw' : ¬ 0.1 < |(TemperatureSearch.step f target s).leftX - (TemperatureSearch.step f target s).rightX|) :
    ∃ t a b ya yb : ℝ, (TemperatureSearch.step f target s).currentX = some t ∧ a ≠ b ∧ f (some a) = some ya ∧
      f (some b) = some yb ∧ |t - a| ≤ 0.1 ∧ ya ≠ yb ∧ target = ya + (yb - ya) / (b - a) * (t - a) := by
  obtain ⟨h1, h2, h3⟩ := h
  have hne : s.rightX - s.leftX ≠ 0 := (sub_pos.mpr h1).ne'
  cases hl : s.leftY with
  | none => exact absurd hw (by simpa [TemperatureSearch.step, TemperatureSearch.nextX, hl,
      TemperatureSearch.replace] using hw')
  | some yl =>
    cases hr : s.rightY with
    | none => exact absurd hw (by simpa [TemperatureSearch.step, TemperatureSearch.nextX, hl, hr,
        TemperatureSearch.replace] using hw')
    | some yr =>
      by_cases hs : (yr - yl) / (s.rightX - s.leftX) = 0
      · exact absurd hw (by simpa [TemperatureSearch.step, TemperatureSearch.nextX, hl, hr, hs,
          TemperatureSearch.replace] using hw')
      · have hx : TemperatureSearch.nextX target s =
            some (s.leftX + (target - yl) / ((yr - yl) / (s.rightX - s.leftX))) := by
          simp only [TemperatureSearch.nextX, hl, hr, if_neg hs]
        have hd : yr - yl ≠ 0 := fun e => hs (by rw [e, zero_div])
        generalize ht : s.leftX + (target - yl) / ((yr - yl) / (s.rightX - s.leftX)) = t at hx
        have hL : target = yl + (yr - yl) / (s.rightX - s.leftX) * (t - s.leftX) := by
          rw [← ht, add_sub_cancel_left, mul_div_cancel₀ _ hs]
          ring
        have hR : target = yr + (yl - yr) / (s.leftX - s.rightX) * (t - s.rightX) := by
          rw [hL, ← neg_sub s.rightX s.leftX, ← neg_sub yr yl, neg_div_neg_eq]
          field_simp
          ring
        have left : |t - s.leftX| ≤ 0.1 → ∃ t' a b ya yb : ℝ,
            (TemperatureSearch.step f target s).currentX = some t' ∧ a ≠ b ∧ f (some a) = some ya ∧
            f (some b) = some yb ∧ |t' - a| ≤ 0.1 ∧ ya ≠ yb ∧
            target = ya + (yb - ya) / (b - a) * (t' - a) := fun e =>
          ⟨t, _, _, yl, yr, by simp only [TemperatureSearch.step, hx], h1.ne, by rw [← h2, hl], by rw [← h3, hr], e,
            fun e => hd (by rw [e, sub_self]), hL⟩
        have right : |t - s.rightX| ≤ 0.1 → ∃ t' a b ya yb : ℝ,
            (TemperatureSearch.step f target s).currentX = some t' ∧ a ≠ b ∧ f (some a) = some ya ∧
            f (some b) = some yb ∧ |t' - a| ≤ 0.1 ∧ ya ≠ yb ∧
            target = ya + (yb - ya) / (b - a) * (t' - a) := fun e =>
          ⟨t, _, _, yr, yl, by simp only [TemperatureSearch.step, hx], h1.ne', by rw [← h3, hr], by rw [← h2, hl], e,
            fun e => hd (by rw [e, sub_self]), hR⟩
        simp only [TemperatureSearch.step, hx, TemperatureSearch.replace] at hw'
        split_ifs at hw' with c1 c2 c3
        · exact left (not_lt.mp hw')
        · cases hy : f (some t) with
          | none => rw [hy] at hw'; exact absurd hw hw'
          | some y =>
            rw [hy] at hw'
            simp only at hw'
            split_ifs at hw'
            · exact left (by rw [abs_sub_comm]; exact not_lt.mp hw')
            · exact right (not_lt.mp hw')
            · exact absurd hw hw'
        · exact right (by rw [abs_sub_comm]; exact not_lt.mp hw')
        · exact absurd hw hw'

theorem loop_secant {f : Option ℝ → Option ℝ} {target : ℝ} : ∀ (n : ℕ) (s : TemperatureSearch), SearchOn f s →
    0.1 < |s.leftX - s.rightX| → s.iter + n = 101 →
    (TemperatureSearch.loop f target n s).iter < 100 →
    ∃ t a b ya yb : ℝ, (TemperatureSearch.loop f target n s).currentX = some t ∧ a ≠ b ∧ f (some a) = some ya ∧
      f (some b) = some yb ∧ |t - a| ≤ 0.1 ∧ ya ≠ yb ∧ target = ya + (yb - ya) / (b - a) * (t - a)
  | 0, s, _, _, hn, hi => by
    rw [TemperatureSearch.loop] at hi
    omega
  | n + 1, s, ho, hw, hn, hi => by
    rw [TemperatureSearch.loop, if_pos hw] at hi ⊢
    by_cases hw' : 0.1 < |(TemperatureSearch.step f target s).leftX - (TemperatureSearch.step f target s).rightX|
    · exact loop_secant n _ (searchOn_step ho) hw' (by simp only [TemperatureSearch.step]; omega) hi
    · have he : TemperatureSearch.loop f target n (TemperatureSearch.step f target s) =
          TemperatureSearch.step f target s := by
        cases n with
        | zero => rfl
        | succ n => rw [TemperatureSearch.loop, if_neg hw']
      rw [he]
      exact step_ends ho hw hw'

/-- C95 (partial).  When `TemperatureCable()` succeeds with `t` for the current `i`, there are two temperatures `a` and
`b`, `a` no further than a tenth of a degree from `t`, such that the straight line through the currents which the
current solver reports at `a` and `b` reaches `i` exactly at `t`.  So where the current at `t` is a number, it differs
from `i` by at most a tenth of the largest rise of the current per degree among `a` to `b` and `a` to `t`, if the current
rises over both.

Missing: a bound on that rise (it is unbounded near the temperature of no current), and see `C95_never_inverted` for
currents that are not found at all. -/
theorem C95_secant_partial (c : CablePointer) (u : UnitSystem) (w : ThermalWeather) (i : ℝ) (s : TemperatureSolver)
    (v : Option ℝ) (h : (temperatureSetup c i u (some w)).askTemperature = .ok s v) (hs : s.isUpdated = true) :
    ∃ t a b ya yb : ℝ, v = some t ∧ a ≠ b ∧ Heat.currentAt c u w (some a) = some ya ∧
      Heat.currentAt c u w (some b) = some yb ∧ |t - a| ≤ 0.1 ∧ ya ≠ yb ∧
      i = ya + (yb - ya) / (b - a) * (t - a) ∧
      ∀ yt M : ℝ, Heat.currentAt c u w (some t) = some yt → 0 ≤ (yb - ya) / (b - a) → (yb - ya) / (b - a) ≤ M →
        0 ≤ (yt - ya) / (t - a) → (yt - ya) / (t - a) ≤ M → |yt - i| ≤ 0.1 * M := by
  have hup := temperatureSetup_update c i u w
  by_cases hi : (TemperatureSolver.search c i u w).iter < 100
  · rw [if_pos hi] at hup
    rw [askTemperature_of rfl hup] at h
    injection h with hs' hv'
    obtain ⟨t, a, b, ya, yb, h1, h2, h3, h4, h5, h6, h7⟩ := loop_secant 101 (TemperatureSolver.start c u w)
      ⟨by simp only [TemperatureSolver.start]; linarith, rfl, rfl⟩
      (by rw [TemperatureSolver.start, abs_sub_comm, add_sub_cancel_left]; norm_num) rfl hi
    refine ⟨t, a, b, ya, yb, ?_, h2, h3, h4, h5, h6, h7, ?_⟩
    · rw [← hv']; exact h1
    · intro yt M hyt m1 m2 m3 m4
      by_cases hta : t = a
      · subst hta
        rw [h3] at hyt
        injection hyt with hyt
        rw [h7, hyt]
        simp only [sub_self, mul_zero, add_zero, abs_zero]
        have := m1.trans m2
        positivity
      · have hne : t - a ≠ 0 := sub_ne_zero.mpr hta
        have e : yt - i = ((yt - ya) / (t - a) - (yb - ya) / (b - a)) * (t - a) := by
          rw [h7, sub_mul, div_mul_cancel₀ _ hne]
          ring
        rw [e, abs_mul, mul_comm]
        refine mul_le_mul h5 ?_ (abs_nonneg _) (by norm_num)
        rw [abs_le]
        constructor <;> linarith
  · exfalso
    rw [if_neg hi] at hup
    rw [askTemperature_of rfl hup] at h
    injection h with hs' hv'
    rw [← hs'] at hs
    cases hs

/-- A current slightly above the equilibrium current ten degrees above the air is found in one pass. -/
theorem search_one {c : CablePointer} {u : UnitSystem} {w : ThermalWeather} {b : ℝ} (hb : 0 < b)
    (h0 : Heat.currentAt c u w (some w.temperatureAir) = some 0)
    (h10 : Heat.currentAt c u w (some (w.temperatureAir + 10)) = some b) :
    (TemperatureSolver.search c (1.005 * b) u w).iter = 1 ∧
    (TemperatureSolver.search c (1.005 * b) u w).currentX = some (w.temperatureAir + 10.05) := by
  have hx : TemperatureSearch.nextX (1.005 * b) (TemperatureSolver.start c u w) = some (w.temperatureAir + 10.05) := by
    unfold TemperatureSearch.nextX TemperatureSolver.start
    simp only [h0, h10, sub_zero, add_sub_cancel_left]
    rw [if_neg (by positivity)]
    congr 2
    field_simp
    norm_num
  have hrep : TemperatureSearch.replace (1.005 * b) (TemperatureSolver.start c u w) (some (w.temperatureAir + 10.05))
      (Heat.currentAt c u w (some (w.temperatureAir + 10.05))) =
      ⟨w.temperatureAir + 10, Heat.currentAt c u w (some (w.temperatureAir + 10)), w.temperatureAir + 10.05,
        Heat.currentAt c u w (some (w.temperatureAir + 10.05)), none, 0⟩ := by
    have h1 : ¬ w.temperatureAir + 10.05 < w.temperatureAir := by norm_num
    have h2 : ¬ (w.temperatureAir < w.temperatureAir + 10.05 ∧ w.temperatureAir + 10.05 < w.temperatureAir + 10) := by
      norm_num
    have h3 : w.temperatureAir + 10 < w.temperatureAir + 10.05 := by norm_num
    show (if w.temperatureAir + 10.05 < w.temperatureAir then _ else
      if w.temperatureAir < w.temperatureAir + 10.05 ∧ w.temperatureAir + 10.05 < w.temperatureAir + 10 then _ else
      if w.temperatureAir + 10 < w.temperatureAir + 10.05 then _ else _) = _
    rw [if_neg h1, if_neg h2, if_pos h3]
    rfl
  have hstep : TemperatureSearch.step (Heat.currentAt c u w) (1.005 * b) (TemperatureSolver.start c u w) =
      ⟨w.temperatureAir + 10, Heat.currentAt c u w (some (w.temperatureAir + 10)), w.temperatureAir + 10.05,
        Heat.currentAt c u w (some (w.temperatureAir + 10.05)), some (w.temperatureAir + 10.05), 1⟩ := by
    unfold TemperatureSearch.step
    simp only [hx, hrep]
    rfl
  have hl : TemperatureSolver.search c (1.005 * b) u w = ⟨w.temperatureAir + 10,
      Heat.currentAt c u w (some (w.temperatureAir + 10)), w.temperatureAir + 10.05,
      Heat.currentAt c u w (some (w.temperatureAir + 10.05)), some (w.temperatureAir + 10.05), 1⟩ := by
    unfold TemperatureSolver.search
    rw [TemperatureSearch.loop, if_pos (by
      rw [TemperatureSolver.start, abs_sub_comm, add_sub_cancel_left]; norm_num), hstep,
      TemperatureSearch.loop, if_neg]
    rw [abs_sub_comm]
    norm_num [abs_of_pos]
  rw [hl]
  exact ⟨rfl, rfl⟩

theorem temperatureSetup_one {c : CablePointer} {u : UnitSystem} {w : ThermalWeather} {b : ℝ} (hb : 0 < b)
    (h0 : Heat.currentAt c u w (some w.temperatureAir) = some 0)
    (h10 : Heat.currentAt c u w (some (w.temperatureAir + 10)) = some b) :
    ∃ s, (temperatureSetup c (1.005 * b) u (some w)).askTemperature = .ok s (some (w.temperatureAir + 10.05)) ∧
      s.isUpdated = true ∧ s.cable = c ∧ s.current = 1.005 * b ∧ s.units = u ∧ s.weather = some w ∧
      s.temperature = some (w.temperatureAir + 10.05) := by
  obtain ⟨h1, h2⟩ := search_one hb h0 h10
  have hup := temperatureSetup_update c (1.005 * b) u w
  rw [if_pos (by rw [h1]; norm_num), h2] at hup
  exact ⟨_, askTemperature_of rfl hup, rfl, rfl, rfl, rfl, rfl, rfl⟩

theorem exThermal_air : Heat.currentAt (some (some exThermal)) .metric (exWeather 0)
    (some (exWeather 0).temperatureAir) = some 0 := by
  rw [currentAt_valid _ (heatValid_of exThermal_valid (by decide) (exWeather_valid le_rfl)),
    current_air exThermal_valid (by decide) (exWeather_valid le_rfl) rfl, exThermal_resistance, if_neg one_ne_zero]

/-- A successful run: the hypotheses of `C95_state_partial` and `C95_secant_partial` can be met. -/
example : ∃ i s, (temperatureSetup (some (some exThermal)) i .metric (some (exWeather 0))).askTemperature =
    .ok s (some 10.05) ∧ s.isUpdated = true := by
  obtain ⟨b, hb, h10⟩ := exThermal_hot (t := 10) (by norm_num)
  obtain ⟨s, h1, h2, -⟩ := temperatureSetup_one hb exThermal_air
    (show _ = some b by rw [← h10]; norm_num [exWeather])
  exact ⟨_, s, by rw [h1]; norm_num [exWeather], h2⟩

/-! ## C67: changed weather and units -/

/-- Calls that make the current solver compute anew. -/
def CurrentCall.Resets : CurrentCall → Prop
  | .setCable _ | .setTemperature _ => True
  | _ => False

/-- Calls that change a setting. -/
def CurrentCall.Sets : CurrentCall → Prop
  | .setCable _ | .setTemperature _ | .setUnits _ | .setWeather _ => True
  | _ => False

/-- Calls that leave units and weather alone. -/
def CurrentCall.Keeps : CurrentCall → Prop
  | .setUnits _ | .setWeather _ => False
  | _ => True

/-- The cached results are those of the settings. -/
def CurrentFresh (s : CurrentSolver) : Prop := s.isUpdated = true → s.update = (s, true)

theorem update_idem (s : CurrentSolver) : CurrentFresh s.update.1 := by
  unfold CurrentFresh
  unfold CurrentSolver.update
  by_cases hv : heatValid s.cable s.units s.weather = true
  · obtain ⟨k, w, hk, hw, -⟩ := (heatValid_iff _ _ _).1 hv
    rw [hk, hw] at hv
    simp [hk, hw, hv]
  · simp [hv]

theorem currentFresh_refresh {s : CurrentSolver} (h : CurrentFresh s) : CurrentFresh s.refresh.1 := by
  unfold CurrentSolver.refresh
  split_ifs
  · exact h
  · exact update_idem s

theorem currentFresh_next {s : CurrentSolver} (h : CurrentFresh s) {c : CurrentCall} (hc : c.Keeps) :
    CurrentFresh (CurrentCall.next s c) := by
  cases c with
  | setCable c => exact fun hh => absurd hh (by simp [CurrentCall.next, CurrentSolver.setCable])
  | setTemperature t => exact fun hh => absurd hh (by simp [CurrentCall.next, CurrentSolver.setTemperature])
  | setUnits u => exact absurd hc (by simp [CurrentCall.Keeps])
  | setWeather w => exact absurd hc (by simp [CurrentCall.Keeps])
  | current => rw [CurrentCall.next, askCurrent_fst]; exact currentFresh_refresh h
  | state => rw [CurrentCall.next, askState_fst]; exact currentFresh_refresh h
  | validate => exact update_idem s

theorem currentFresh_list {s : CurrentSolver} (h : CurrentFresh s) : ∀ (l : List CurrentCall),
    (∀ c ∈ l, c.Keeps) → CurrentFresh (l.foldl CurrentCall.next s) := by
  intro l
  induction l generalizing s with
  | nil => exact fun _ => h
  | cons c cs ih => exact fun hl => ih (currentFresh_next h (hl c (by simp))) (fun c' hc' => hl c' (by simp [hc']))

theorem unset_list {s : CurrentSolver} (h : s.isUpdated = false) : ∀ (l : List CurrentCall),
    (∀ c ∈ l, c.Sets) → (l.foldl CurrentCall.next s).isUpdated = false := by
  intro l
  induction l generalizing s with
  | nil => exact fun _ => h
  | cons c cs ih =>
    intro hl
    refine ih ?_ (fun c' hc' => hl c' (by simp [hc']))
    have := hl c (by simp)
    cases c with
    | setCable c => rfl
    | setTemperature t => rfl
    | setUnits u => exact h
    | setWeather w => exact h
    | current => exact absurd this (by simp [CurrentCall.Sets])
    | state => exact absurd this (by simp [CurrentCall.Sets])
    | validate => exact absurd this (by simp [CurrentCall.Sets])

theorem update_settings {s s' : CurrentSolver} (h1 : s.cable = s'.cable) (h2 : s.temperature = s'.temperature)
    (h3 : s.units = s'.units) (h4 : s.weather = s'.weather) :
    s.update.2 = s'.update.2 ∧ (s.update.2 = true →
      s.update.1.current = s'.update.1.current ∧ s.update.1.state = s'.update.1.state) := by
  unfold CurrentSolver.update
  rw [h1, h2, h3, h4]
  split_ifs with hv
  · obtain ⟨k, w, hk, hw, -⟩ := (heatValid_iff _ _ _).1 hv
    simp [hk, hw]
  · simp

theorem fresh_refresh {s : CurrentSolver} (h : CurrentFresh s) :
    s.refresh.2 = s.update.2 ∧ s.refresh.1 = s.update.1 := by
  unfold CurrentSolver.refresh
  by_cases hu : s.isUpdated = true
  · rw [if_pos hu, h hu]; exact ⟨rfl, rfl⟩
  · rw [if_neg hu]; exact ⟨rfl, rfl⟩

/-- C67 (partial), the current solver.  Take any calls `p`, `q`, `r` on a new solver where `p` is empty or ends with
`set_cable` or `set_temperature_cable` and `q` only changes settings, or where `p` ends with `Validate` and `q` is
empty; `r` does not change units or weather.  Then `Current()` and `StateHeatTransfer()` report what a new solver with
the settings in force reports.

Missing: a change of units or weather after a query, see `C67_current_stale`. -/
theorem C67_current_partial (p q r : List CurrentCall)
    (hp : ((p = [] ∨ ∃ p' c, p = p' ++ [c] ∧ CurrentCall.Resets c) ∧ ∀ c ∈ q, c.Sets) ∨
      ((∃ p', p = p' ++ [.validate]) ∧ q = []))
    (hr : ∀ c ∈ r, c.Keeps) :
    ∃ s t, s = currentAfter (p ++ q ++ r) ∧ s.temperature = some t ∧
      s.askCurrent.2 = (currentAfter [.setCable s.cable, .setTemperature t, .setUnits s.units,
        .setWeather s.weather]).askCurrent.2 ∧
      s.askState.2 = (currentAfter [.setCable s.cable, .setTemperature t, .setUnits s.units,
        .setWeather s.weather]).askState.2 := by
  have hf : CurrentFresh (currentAfter (p ++ q)) := by
    rcases hp with ⟨hp, hq⟩ | ⟨⟨p', rfl⟩, rfl⟩
    · have h0 : (currentAfter p).isUpdated = false := by
        rcases hp with rfl | ⟨p', c, rfl, hc⟩
        · rfl
        · unfold currentAfter
          rw [List.foldl_append]
          cases c <;> first | rfl | exact absurd hc (by simp [CurrentCall.Resets])
      intro hh
      rw [currentAfter, List.foldl_append] at hh
      exact absurd hh (by rw [show List.foldl CurrentCall.next CurrentSolver.new p = currentAfter p from rfl,
        unset_list h0 q hq]; simp)
    · rw [List.append_nil, currentAfter, List.foldl_append]
      exact update_idem _
  have hf' : CurrentFresh (currentAfter (p ++ q ++ r)) := by
    rw [currentAfter, List.foldl_append]
    exact currentFresh_list hf r hr
  obtain ⟨t, ht⟩ := (currentHolds_after (p ++ q ++ r)).1
  refine ⟨_, t, rfl, ht, ?_⟩
  generalize currentAfter (p ++ q ++ r) = s at *
  obtain ⟨h1, h2⟩ := fresh_refresh hf'
  obtain ⟨h3, h4⟩ := update_settings (s := s)
    (s' := currentAfter [.setCable s.cable, .setTemperature t, .setUnits s.units, .setWeather s.weather]) rfl ht rfl rfl
  have h5 : (currentAfter [.setCable s.cable, .setTemperature t, .setUnits s.units, .setWeather s.weather]).refresh =
      (currentAfter [.setCable s.cable, .setTemperature t, .setUnits s.units, .setWeather s.weather]).update := rfl
  unfold CurrentSolver.askCurrent CurrentSolver.askState
  rw [h5, h1, h2, ← h3]
  by_cases hu : s.update.2 = true
  · rw [if_pos hu, if_pos hu, if_pos hu, if_pos hu]
    exact h4 hu
  · rw [if_neg hu, if_neg hu, if_neg hu, if_neg hu]
    exact ⟨rfl, rfl⟩

/-- A history with changed weather and units between two queries to which it applies. -/
example (w : ThermalWeather) : ∃ s t, s = currentAfter
      (([.setWeather (some w), .current, .setTemperature 20] ++ [.setWeather none, .setUnits .metric]) ++ [.current]) ∧
    s.temperature = some t ∧
      s.askCurrent.2 = (currentAfter [.setCable s.cable, .setTemperature t, .setUnits s.units,
        .setWeather s.weather]).askCurrent.2 := by
  obtain ⟨s, t, h1, h2, h3, -⟩ := C67_current_partial [.setWeather (some w), .current, .setTemperature 20]
    [.setWeather none, .setUnits .metric] [.current]
    (Or.inl ⟨Or.inr ⟨[.setWeather (some w), .current], .setTemperature 20, rfl, trivial⟩,
      by simp [CurrentCall.Sets]⟩) (by simp [CurrentCall.Keeps])
  exact ⟨s, t, h1, h2, h3⟩

theorem exCurrent_air {sun : ℝ} (h : 0 ≤ sun) :
    Heat.steadyCurrent exThermal .metric (exWeather sun) (some 0) = some (-√sun) := by
  have hc := Heat.convection_air (k := exThermal) (u := .metric) (w := exWeather sun) (by decide)
    (by norm_num [exThermal]) (by norm_num [exWeather])
  have hr := Heat.radiation_air exThermal .metric (exWeather sun)
  have e : (exWeather sun).temperatureAir = 0 := rfl
  rw [e] at hc hr
  simp only [Heat.steadyCurrent, Heat.steadyState, Option.bind_some, hc, hr, Option.map_some, exThermal_resistance,
    Heat.currentOf]
  rw [if_neg one_ne_zero, if_neg (by norm_num)]
  congr 1
  have hs : Heat.solar exThermal (exWeather sun) = sun := by simp [Heat.solar, exThermal, exWeather]
  rw [hs]
  rcases h.lt_or_eq with h | h
  · rw [if_pos (by linarith)]
    rw [show |-1 * (0 + 0 + sun)| / 1 = sun by rw [div_one, abs_of_neg (by linarith)]; ring]
    ring
  · rw [← h]; simp

/-- C67 does not hold for the current solver: after the sun has come out, `Current()` still reports the current
without sun (0), although a new solver with the same settings reports -2. -/
theorem C67_current_stale :
    (currentAfter (currentSetup exThermal 0 .metric (exWeather 0) ++ [.current, .setWeather (some (exWeather 4))])).askCurrent.2
      = some 0 ∧
    (currentAfter (currentSetup exThermal 0 .metric (exWeather 4))).askCurrent.2 = some (-2) := by
  have hv : ∀ {sun : ℝ}, 0 ≤ sun → heatValid (some (some exThermal)) .metric (some (exWeather sun)) = true :=
    fun h => heatValid_of exThermal_valid (by decide) (exWeather_valid h)
  constructor
  · simp [currentAfter, currentSetup, CurrentCall.next, CurrentSolver.askCurrent, CurrentSolver.refresh,
      CurrentSolver.update, CurrentSolver.setCable, CurrentSolver.setTemperature, CurrentSolver.setUnits,
      CurrentSolver.setWeather, CurrentSolver.new, hv, exCurrent_air]
  · rw [(currentSetup_ask 0 (hv (by norm_num))).1, exCurrent_air (by norm_num)]
    rw [show (4 : ℝ) = 2 ^ 2 by norm_num, Real.sqrt_sq (by norm_num)]

/-- C67 does not hold for the temperature solver: after a successful query, changes of units and weather have no
effect on `TemperatureCable()`, whatever they are changed to. -/
theorem C67_temperature_ignores (s : TemperatureSolver) (h : s.isUpdated = true) (u : UnitSystem)
    (w : Option ThermalWeather) :
    ((s.setUnits u).setWeather w).askTemperature = .ok ((s.setUnits u).setWeather w) s.temperature := by
  unfold TemperatureSolver.askTemperature TemperatureSolver.refresh
  rw [if_pos (show ((s.setUnits u).setWeather w).isUpdated = true from h)]
  rfl

/-- C67: a concrete case.  With the unit system taken away the old temperature is reported; a new solver with the same
settings fails. -/
theorem C67_temperature_stale : ∃ i s, (temperatureSetup (some (some exThermal)) i .metric (some (exWeather 0))).askTemperature =
      .ok s (some 10.05) ∧
    (s.setUnits .null).askTemperature = .ok (s.setUnits .null) (some 10.05) ∧
    ∃ s', (temperatureSetup (some (some exThermal)) i .null (some (exWeather 0))).askTemperature =
      .ok s' (some (-999999)) := by
  obtain ⟨b, hb, h10⟩ := exThermal_hot (t := 10) (by norm_num)
  obtain ⟨s, h1, h2, h3, h4, h5, h6, h7⟩ := temperatureSetup_one hb exThermal_air
    (show _ = some b by rw [← h10]; norm_num [exWeather])
  have e : (exWeather 0).temperatureAir + 10.05 = 10.05 := by norm_num [exWeather]
  rw [e] at h1 h7
  refine ⟨1.005 * b, s, h1, ?_, ?_⟩
  · have := C67_temperature_ignores s h2 .null s.weather
    rw [h7] at this
    exact this
  · have hn : ∀ t, Heat.currentAt (some (some exThermal)) .null (exWeather 0) t = some (-999999) := by
      intro t
      rw [Heat.currentAt_eq, if_neg]
      rw [heatValid_iff]
      rintro ⟨k, w, -, -, -, h, -⟩
      exact h rfl
    refine (temperatureSetup_fail (search_stuck ?_)).1
    intro x n
    left
    unfold TemperatureSearch.nextX TemperatureSolver.start
    simp [hn]

/-! ## C71 and C67 for the transient solver -/

/-- Calls on a `TransientCableTemperatureSolver`. -/
inductive TransientCall where
  | setCable (c : CablePointer)
  | setCurrentSteady (i : ℝ)
  | setCurrentStep (i : ℝ)
  | setDuration (d : Int)
  | setUnits (u : UnitSystem)
  | setWeather (w : Option ThermalWeather)
  | points
  | validate

/-- The solver after a call. -/
noncomputable def TransientCall.next (s : TransientSolver) : TransientCall → TransientSolver
  | .setCable c => s.setCable c
  | .setCurrentSteady i => s.setCurrentSteady i
  | .setCurrentStep i => s.setCurrentStep i
  | .setDuration d => s.setDuration d
  | .setUnits u => s.setUnits u
  | .setWeather w => s.setWeather w
  | .points => s.askPoints.1
  | .validate => s.validate.1

/-- The solver after a list of calls on a new one. -/
noncomputable def transientAfter (calls : List TransientCall) : TransientSolver :=
  calls.foldl TransientCall.next TransientSolver.new

/-- The calls that give a new solver the settings of another. -/
def transientSetup (s : TransientSolver) : List TransientCall :=
  [.setCable s.cable, .setCurrentSteady s.currentSteady, .setCurrentStep s.currentStep, .setDuration s.duration,
    .setUnits s.units, .setWeather s.weather]

/-- The cached points are those of the settings. -/
def TransientFresh (s : TransientSolver) : Prop := s.isUpdated = true → s.update = (s, true)

theorem transient_update (s : TransientSolver) : TransientFresh s.update.1 := by
  unfold TransientFresh
  unfold TransientSolver.update
  by_cases hv : heatValid s.cable s.units s.weather = true
  · obtain ⟨k, w, hk, hw, -⟩ := (heatValid_iff _ _ _).1 hv
    rw [hk, hw] at hv
    simp [hk, hw, hv]
  · simp [hv]

theorem transient_next {s : TransientSolver} (h : TransientFresh s) (c : TransientCall) :
    TransientFresh (TransientCall.next s c) := by
  cases c with
  | points =>
    unfold TransientCall.next TransientSolver.askPoints
    split_ifs
    · exact h
    · exact transient_update s
    · exact transient_update s
  | validate => exact transient_update s
  | _ => exact fun hh => absurd hh (by
      simp [TransientCall.next, TransientSolver.setCable, TransientSolver.setCurrentSteady,
        TransientSolver.setCurrentStep, TransientSolver.setDuration, TransientSolver.setUnits,
        TransientSolver.setWeather])

theorem transient_after (calls : List TransientCall) : TransientFresh (transientAfter calls) := by
  have : ∀ s, TransientFresh s → TransientFresh (calls.foldl TransientCall.next s) := by
    induction calls with
    | nil => exact fun s h => h
    | cons c cs ih => exact fun s h => ih _ (transient_next h c)
  exact this _ (fun hh => absurd hh (by simp [TransientSolver.new]))

theorem transient_ask {s : TransientSolver} (h : TransientFresh s) :
    s.askPoints.2 = if s.update.2 then some s.update.1.points else none := by
  unfold TransientSolver.askPoints
  by_cases hu : s.isUpdated = true
  · rw [if_pos hu, h hu]; rfl
  · rw [if_neg hu]; split_ifs <;> rfl

/-- C67, the transient solver: after any calls, `PointsTemperature()` reports what a new solver with the settings in
force reports. -/
theorem C67_transient (calls : List TransientCall) :
    (transientAfter calls).askPoints.2 = (transientAfter (transientSetup (transientAfter calls))).askPoints.2 := by
  rw [transient_ask (transient_after calls), transient_ask (transient_after _)]
  generalize transientAfter calls = s
  have : ∀ s s' : TransientSolver, s.cable = s'.cable → s.currentSteady = s'.currentSteady →
      s.currentStep = s'.currentStep → s.duration = s'.duration → s.units = s'.units → s.weather = s'.weather →
      (if s.update.2 then some s.update.1.points else none) =
        if s'.update.2 then some s'.update.1.points else none := by
    intro s s' h1 h2 h3 h4 h5 h6
    unfold TransientSolver.update
    rw [h1, h2, h3, h4, h5, h6]
  exact this _ _ rfl rfl rfl rfl rfl rfl

example (w w' : ThermalWeather) : (transientAfter [.setWeather (some w), .points, .setWeather (some w')]).askPoints.2 =
    (transientAfter (transientSetup (transientAfter [.setWeather (some w), .points,
      .setWeather (some w')]))).askPoints.2 :=
  C67_transient _

theorem series_length (k : Cable) (u : UnitSystem) (w : ThermalWeather) (i : ℝ) : ∀ (n : ℕ) (time : Int) (t : Option ℝ),
    (TransientSolver.series k u w i n time t).length = n
  | 0, _, _ => rfl
  | n + 1, time, t => by rw [TransientSolver.series, List.length_cons, series_length k u w i n]

theorem series_get (k : Cable) (u : UnitSystem) (w : ThermalWeather) (i : ℝ) : ∀ (n : ℕ) (time : Int) (t : Option ℝ)
    (j : ℕ) (hj : j < (TransientSolver.series k u w i n time t).length),
    (TransientSolver.series k u w i n time t)[j].time = time + j ∧
    (j = 0 → (TransientSolver.series k u w i n time t)[j].temperature = t) ∧
    ∀ hj' : j + 1 < (TransientSolver.series k u w i n time t).length,
      (TransientSolver.series k u w i n time t)[j + 1].temperature =
        TransientSolver.next k u w i (TransientSolver.series k u w i n time t)[j].temperature
  | 0, _, _, j, hj => absurd hj (by simp [TransientSolver.series])
  | n + 1, time, t, 0, hj => by
    refine ⟨by simp [TransientSolver.series], fun _ => by simp [TransientSolver.series], fun hj' => ?_⟩
    have hj'' : 0 < (TransientSolver.series k u w i n (time + 1) (TransientSolver.next k u w i t)).length := by
      simp only [TransientSolver.series, List.length_cons] at hj'
      omega
    simpa [TransientSolver.series] using
      (series_get k u w i n (time + 1) (TransientSolver.next k u w i t) 0 hj'').2.1 rfl
  | n + 1, time, t, j + 1, hj => by
    have hj' : j < (TransientSolver.series k u w i n (time + 1) (TransientSolver.next k u w i t)).length := by
      simp only [TransientSolver.series, List.length_cons] at hj
      omega
    obtain ⟨h1, h2, h3⟩ := series_get k u w i n (time + 1) (TransientSolver.next k u w i t) j hj'
    refine ⟨?_, fun hh => absurd hh (by omega), fun hj2 => ?_⟩
    · simp only [TransientSolver.series, List.getElem_cons_succ]
      rw [h1]; push_cast; ring
    · have hj3 : j + 1 < (TransientSolver.series k u w i n (time + 1) (TransientSolver.next k u w i t)).length := by
        simp only [TransientSolver.series, List.length_cons] at hj2
        omega
      simpa [TransientSolver.series] using h3 hj3

/-- C71 (partial).  After any calls on a `TransientCableTemperatureSolver`, the points it reports are one for every
second from 0 to the duration, in order; the first has the temperature that a `SteadyCableTemperatureSolver` with the
steady current reports; every later temperature follows from the one before by the resistive, solar, convective and
radiated heat of one second over the cable's heat capacity (when these are finite and the capacity is not zero).

Missing: the reported steady temperature need not be one, see `C71_failed_start`. -/
theorem C71_series_partial (calls : List TransientCall) (ps : List TemperaturePoint)
    (h : (transientAfter calls).askPoints.2 = some ps) :
    ∃ s k w, s = transientAfter calls ∧ s.cable = some (some k) ∧ s.weather = some w ∧
      ps.length = (s.duration + 1).toNat ∧ (∀ j (hj : j < ps.length), ps[j].time = j) ∧
      (∀ hj : 0 < ps.length, ∃ s' v, (temperatureSetup s.cable s.currentSteady s.units (some w)).askTemperature =
        .ok s' v ∧ ps[0].temperature = v) ∧
      ∀ j (hj : j + 1 < ps.length) (t c : ℝ), ps[j].temperature = some t → Heat.convection k s.units w t = some c →
        0 < k.core.capacityHeat + k.shell.capacityHeat →
        ps[j + 1].temperature = some (t + (s.currentStep ^ 2 * k.resistance t +
          k.absorptivity * w.radiationSolar * k.diameter + c + Heat.radiation k s.units w t) /
            (k.core.capacityHeat + k.shell.capacityHeat)) := by
  rw [transient_ask (transient_after calls)] at h
  generalize transientAfter calls = s at *
  by_cases hv : heatValid s.cable s.units s.weather = true
  · obtain ⟨k, w, hk, hw, -⟩ := (heatValid_iff _ _ _).1 hv
    have hps : TransientSolver.series k s.units w s.currentStep (s.duration + 1).toNat 0
        (TransientSolver.temperatureSteady s.cable s.units w s.currentSteady) = ps := by
      unfold TransientSolver.update at h
      rw [if_pos hv] at h
      simpa [hk, hw] using h
    subst hps
    refine ⟨s, k, w, rfl, hk, hw, series_length .., fun j hj => ?_, fun hj => ?_, fun j hj t c ht hc hcap => ?_⟩
    · rw [(series_get k s.units w s.currentStep _ 0 _ j hj).1]; simp
    · rw [(series_get k s.units w s.currentStep _ 0 _ 0 hj).2.1 rfl]
      have hup := temperatureSetup_update s.cable s.currentSteady s.units w
      unfold TransientSolver.temperatureSteady
      change ∃ s' v, _ ∧ (match (temperatureSetup s.cable s.currentSteady s.units (some w)).askTemperature with
        | .ok _ t => t
        | _ => none) = v
      split_ifs at hup
      · rw [askTemperature_of rfl hup]; exact ⟨_, _, rfl, rfl⟩
      · rw [askTemperature_of rfl hup]; exact ⟨_, _, rfl, rfl⟩
    · rw [(series_get k s.units w s.currentStep _ 0 _ j (by omega)).2.2 hj, ht]
      simp only [TransientSolver.next, Option.bind_some, TransientSolver.storage, hc, Option.map_some,
        TransientSolver.temperatureNew, divFinite, if_neg hcap.ne']
      congr 1
      simp only [Heat.stored, Heat.resistance, Heat.solar]
      push_cast
      ring
  · unfold TransientSolver.update at h
    rw [if_neg hv] at h
    simp at h

/-- A transient solver set up completely. -/
noncomputable def transientCalls (k : Cable) (i j : ℝ) (d : Int) (u : UnitSystem) (w : ThermalWeather) :
    List TransientCall :=
  [.setCable (some (some k)), .setCurrentSteady i, .setCurrentStep j, .setDuration d, .setUnits u,
    .setWeather (some w)]

theorem transientCalls_ask {k : Cable} {u : UnitSystem} {w : ThermalWeather} (i j : ℝ) (d : Int)
    (hv : heatValid (some (some k)) u (some w) = true) :
    (transientAfter (transientCalls k i j d u w)).askPoints.2 =
      some (TransientSolver.series k u w j (d + 1).toNat 0
        (TransientSolver.temperatureSteady (some (some k)) u w i)) := by
  simp [transientAfter, transientCalls, TransientCall.next, TransientSolver.askPoints, TransientSolver.update,
    TransientSolver.setCable, TransientSolver.setCurrentSteady, TransientSolver.setCurrentStep,
    TransientSolver.setDuration, TransientSolver.setUnits, TransientSolver.setWeather, TransientSolver.new, hv]

example : ∃ ps, (transientAfter (transientCalls exThermal 1 2 60 .metric (exWeather 4))).askPoints.2 = some ps ∧
    ps.length = 61 := by
  refine ⟨_, transientCalls_ask 1 2 60 (heatValid_of exThermal_valid (by decide) (exWeather_valid (by norm_num))), ?_⟩
  rw [series_length]; rfl

/-- C71 does not hold: for every valid cable, weather without sun and a steady current of zero, `Validate` accepts the
solver, the first temperature is the failure value -999999 of the steady solver, and all later ones are NaN. -/
theorem C71_failed_start (k : Cable) (u : UnitSystem) (w : ThermalWeather) (j : ℝ) (d : ℕ)
    (hk : k.validateThermal.1 = true) (hu : u ≠ .null) (hw : w.validate.1 = true) (hs : w.radiationSolar = 0)
    (hj : 0 ≤ j) :
    (transientAfter (transientCalls k 0 j d u w)).validate.2 = true ∧
    ∃ ps, (transientAfter (transientCalls k 0 j d u w)).askPoints.2 = some ps ∧ ps.length = d + 1 ∧
      (∀ h : 0 < ps.length, ps[0].temperature = some (-999999)) ∧
      ∀ i (h : i + 1 < ps.length), ps[i + 1].temperature = none := by
  have hv := heatValid_of hk hu hw
  constructor
  · simp [transientAfter, transientCalls, TransientCall.next, TransientSolver.validate, TransientSolver.update,
      TransientSolver.setCable, TransientSolver.setCurrentSteady, TransientSolver.setCurrentStep,
      TransientSolver.setDuration, TransientSolver.setUnits, TransientSolver.setWeather, TransientSolver.new, hv, hu,
      hw, hj]
  · refine ⟨_, transientCalls_ask 0 j d hv, ?_, fun h => ?_, ?_⟩
    · rw [series_length]; omega
    · rw [(series_get _ _ _ _ _ _ _ _ h).2.1 rfl]
      obtain ⟨⟨s, h'⟩, -⟩ := C70_never_found k u w hk hu hw hs
      unfold TransientSolver.temperatureSteady
      change (match (temperatureSetup (some (some k)) 0 u (some w)).askTemperature with
        | .ok _ t => t
        | _ => none) = _
      rw [h']
    · have hstart : TransientSolver.temperatureSteady (some (some k)) u w 0 = some (-999999) := by
        obtain ⟨⟨s, h'⟩, -⟩ := C70_never_found k u w hk hu hw hs
        unfold TransientSolver.temperatureSteady
        change (match (temperatureSetup (some (some k)) 0 u (some w)).askTemperature with
          | .ok _ t => t
          | _ => none) = _
        rw [h']
      rw [hstart]
      intro i
      induction i with
      | zero =>
        intro h
        rw [(series_get _ _ _ _ _ _ _ 0 (by omega)).2.2 h, (series_get _ _ _ _ _ _ _ 0 (by omega)).2.1 rfl]
        have hw' := (ThermalWeather.validate_iff w).1 hw
        simp [TransientSolver.next, TransientSolver.storage,
          Heat.convection_none (k := k) (t := -999999) hu (by linarith [hw'.2.2.2.2.1])]
      | succ i ih =>
        intro h
        rw [(series_get _ _ _ _ _ _ _ (i + 1) (by omega)).2.2 h, ih (by omega)]
        rfl

example : ∃ ps, (transientAfter (transientCalls exThermal 0 2 60 .metric (exWeather 0))).askPoints.2 = some ps ∧
    ps.length = 61 ∧ ∀ h : 0 < ps.length, ps[0].temperature = some (-999999) := by
  obtain ⟨-, ps, h1, h2, h3, -⟩ := C71_failed_start exThermal .metric (exWeather 0) 2 60 exThermal_valid (by decide)
    (exWeather_valid le_rfl) rfl (by norm_num)
  exact ⟨ps, h1, h2, h3⟩

end Verif.Props
