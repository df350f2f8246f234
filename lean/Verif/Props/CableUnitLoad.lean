import Mathlib.Tactic.NormNum
import Mathlib.Tactic.Linarith
import Mathlib.Tactic.Positivity
import Verif.CableUnitLoad
import Verif.VectorLemmas

/-! # Properties of unit cable loads (C40) -/

set_option linter.unusedSectionVars false

namespace Verif.Props

open Verif.Units

/-- C40: for a solver with its cable data set, the load is defined, has no longitudinal component, the
transverse component is pressure times iced diameter and the vertical component is cable weight plus
density times the cross section of the ice annulus, `kPi·t·(d+t)` (with the library's value of π). -/
theorem C40_unit_load (d w : ℝ) (c : WeatherLoadCase) :
    ∃ v, (UnitLoadSolver.mk (some d) (some w)).unitCableLoad c = .val v ∧ v.x = 0 ∧
      v.y = c.pressureWind * (d + 2 * c.thicknessIce) ∧
      v.z = w + c.densityIce * (kPi * c.thicknessIce * (d + c.thicknessIce)) := by
  refine ⟨_, rfl, rfl, ?_, ?_⟩ <;>
    simp only [Cylinder.volume, Cylinder.areaCrossSection] <;> ring

/-- C40: without ice and wind the load is the bare weight. -/
theorem C40_bare (d w ρ t : ℝ) :
    (UnitLoadSolver.mk (some d) (some w)).unitCableLoad ⟨ρ, 0, t, 0⟩ = .val ⟨0, 0, w⟩ := by
  simp [UnitLoadSolver.unitCableLoad, Cylinder.volume, Cylinder.areaCrossSection]

/-- C40: every component grows with ice thickness, ice density and wind pressure. -/
theorem C40_monotone (d w : ℝ) (hd : 0 < d) (c c' : WeatherLoadCase)
    (h0 : 0 ≤ c.densityIce) (h1 : 0 ≤ c.thicknessIce) (h2 : 0 ≤ c.pressureWind)
    (h3 : c.densityIce ≤ c'.densityIce) (h4 : c.thicknessIce ≤ c'.thicknessIce)
    (h5 : c.pressureWind ≤ c'.pressureWind) (v v' : V3)
    (e : (UnitLoadSolver.mk (some d) (some w)).unitCableLoad c = .val v)
    (e' : (UnitLoadSolver.mk (some d) (some w)).unitCableLoad c' = .val v') :
    v.x ≤ v'.x ∧ v.y ≤ v'.y ∧ v.z ≤ v'.z := by
  obtain ⟨u, eu, ux, uy, uz⟩ := C40_unit_load d w c
  obtain ⟨u', eu', ux', uy', uz'⟩ := C40_unit_load d w c'
  rw [eu] at e; rw [eu'] at e'
  cases e; cases e'
  rw [ux, ux', uy, uy', uz, uz']
  have hk : (0:ℝ) < kPi := kPi_pos
  refine ⟨le_refl _, ?_, ?_⟩
  · apply mul_le_mul h5 (by linarith) (by linarith) (by linarith)
  · have i1 : kPi * c.thicknessIce ≤ kPi * c'.thicknessIce := mul_le_mul_of_nonneg_left h4 hk.le
    have i0 : 0 ≤ kPi * c.thicknessIce := by positivity
    have i2 : kPi * c.thicknessIce * (d + c.thicknessIce) ≤ kPi * c'.thicknessIce * (d + c'.thicknessIce) :=
      mul_le_mul i1 (by linarith) (by linarith) (by linarith)
    have i3 : 0 ≤ kPi * c.thicknessIce * (d + c.thicknessIce) := by positivity
    have := mul_le_mul h3 i2 i3 (by linarith)
    linarith

/-- C40: a solver accepted by `Validate` never dereferences a null pointer, and its loads point down. -/
theorem C40_validated (s : UnitLoadSolver) (c : WeatherLoadCase) (h : s.validate = true)
    (h0 : 0 ≤ c.densityIce) (h1 : 0 ≤ c.thicknessIce) :
    ∃ v, s.unitCableLoad c = .val v ∧ 0 < v.z := by
  obtain ⟨od, ow⟩ := s
  cases od with
  | none => simp [UnitLoadSolver.validate] at h
  | some d =>
    cases ow with
    | none => simp [UnitLoadSolver.validate] at h
    | some w =>
      simp only [UnitLoadSolver.validate, Bool.and_eq_true, decide_eq_true_eq, not_le] at h
      obtain ⟨v, e, _, _, hz⟩ := C40_unit_load d w c
      refine ⟨v, e, ?_⟩
      rw [hz]
      have := kPi_pos
      have hd := h.1
      have : 0 ≤ c.densityIce * (kPi * c.thicknessIce * (d + c.thicknessIce)) := by positivity
      linarith [h.2]

example : ∃ v, (UnitLoadSolver.mk (some 0.09) (some 1.096)).unitCableLoad ⟨57.3, 8, 0, 0.04⟩ = .val v ∧
    v.y = 8 * (0.09 + 2 * 0.04) := by
  obtain ⟨v, e, _, h, _⟩ := C40_unit_load 0.09 1.096 ⟨57.3, 8, 0, 0.04⟩
  exact ⟨v, e, h⟩

example : (UnitLoadSolver.mk (some 0.09) (some 1.096)).validate = true := by
  simp [UnitLoadSolver.validate]; norm_num

end Verif.Props
