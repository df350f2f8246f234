import Verif.Props.LineSaggerExample
import Verif.Props.CatenaryTighter

/-!
# A sagged line cable that keeps its limit (C119)

Sagging a line cable whose limit is a length or a sag reports success but leaves the line cable as it was, though the
controlling constraint asks for a tension that is much lower.
-/

set_option linter.unusedSectionVars false

namespace Verif.Props
open Verif Verif.Catenary3d Verif.CatenarySolver Verif.SectionCable

/-- If the solver for the limit accepts, the ruling span catenary is valid. -/
theorem ruling_accepted {c : SectionCable} {load : V3} (hl : c.loadUnit = .val load)
    (ht : c.constraint.typeLimit ≠ .horizontalTension) (hacc : (c.tensionSolver load).validate.1 = true) :
    ∃ k, c.catenaryRulingSpan = .val k ∧ k.validate.1 = true := by
  obtain ⟨f1, f2, _⟩ := tensionSolver_facts c load
  obtain ⟨s', h1, h2, h3, _⟩ := update_true (validate_true hacc).2.1
  have F := (solve_frame (by rw [f1]; exact blankSpan_reachable _ _) h1).1
  have hh : (c.tensionSolver load).tensionHorizontal.1 = s'.catenary.tensionHorizontal := by
    unfold CatenarySolver.tensionHorizontal
    rw [if_neg (by rw [f2]; decide), if_pos (validate_true hacc).2.1, h3]
    exact (refresh_params _).2.2.2
  refine ⟨(blankSpan c load).setTension s'.catenary.tensionHorizontal, ?_, ?_⟩
  · unfold catenaryRulingSpan
    rw [hl]
    simp only
    rw [if_neg ht, hh]
    rfl
  · have hv := (C54_validate_3d F.1).1.1 h2
    rw [(C54_validate_3d ((fam_refl (blankSpan_reachable c load)).step _).1).1]
    rw [F.2.1, F.2.2, f1] at hv
    exact hv

/-! ## Length and sag of the span under the load 1 -/

theorem span_valid {x : ℝ} (hx : 50 ≤ x) : (levelSpan 100 1 x).validate.1 = true :=
  level_valid (by norm_num) one_pos (by norm_num; exact hx)

theorem span_tighter {x y : ℝ} (hx : 50 ≤ x) (h : x < y) :
    (levelSpan 100 1 y).length < (levelSpan 100 1 x).length ∧ (levelSpan 100 1 y).sag < (levelSpan 100 1 x).sag := by
  have := C146_tighter (levelSpan_reachable 100 1 x) (levelSpan_reachable 100 1 y) (span_valid hx) rfl rfl h
  exact ⟨this.1, this.2.2.1⟩

theorem span_length_gap {x y : ℝ} (hx : 50 ≤ x) (h : x + 1 ≤ y) (hy : y ≤ 100) :
    (levelSpan 100 1 y).length + 0.04 ≤ (levelSpan 100 1 x).length :=
  level_length_gap one_pos (by linarith) one_pos (by linarith) (by linarith) (by linarith)

/-- The slope of the sag in the tension. -/
theorem cosh_slope_neg {z : ℝ} (hz : 0 ≤ z) : Real.cosh z - z * Real.sinh z - 1 ≤ -(z ^ 2 / 4) := by
  have h1 := cosh_tangent z (z / 2)
  have h2 := cosh_tangent (z / 2) 0
  rw [Real.cosh_zero] at h2
  have h3 : z / 2 ≤ Real.sinh (z / 2) := Real.self_le_sinh_iff.2 (by linarith)
  have h4 : 2 * Real.sinh (z / 2) ≤ Real.sinh z := by
    have e : Real.sinh z = 2 * Real.sinh (z / 2) * Real.cosh (z / 2) := by
      rw [← Real.sinh_two_mul]; congr 1; ring
    have := Real.one_le_cosh (z / 2)
    rw [e]
    nlinarith
  nlinarith

theorem span_sag_gap {x y : ℝ} (hx : 50 ≤ x) (h : x + 1 ≤ y) (hy : y ≤ 100) :
    (levelSpan 100 1 y).sag + 0.04 ≤ (levelSpan 100 1 x).sag := by
  have S : (levelSpan 100 1 y).Span := (accepted_span (levelSpan_reachable 100 1 y) (span_valid (by linarith))).1
  have F := fam_refl (levelSpan_reachable 100 1 y)
  have ey : (levelSpan 100 1 y).sag = (levelSpan 100 1 y).levelSag y := sag_fam S F rfl (h := y) (by linarith)
  have ex : (levelSpan 100 1 x).sag = (levelSpan 100 1 y).levelSag x := sag_fam S F rfl (h := x) (by linarith)
  have m1 : (levelSpan 100 1 y).weightUnit.magnitude = 1 := magnitude_z zero_le_one
  have m2 : (levelSpan 100 1 y).spacing.magnitude = 100 := magnitude_x (by norm_num)
  have m3 : (levelSpan 100 1 y).spacing2d.x = 100 := by
    unfold spacing2d
    have e1 : (levelSpan 100 1 y).spacing = ⟨100, 0, 0⟩ := rfl
    simp [e1, magnitude_x (show (0:ℝ) ≤ 100 by norm_num)]
  have hs := sag_supported S y x (by rw [m1, m2]; linarith) (by rw [m1, m2]; linarith)
  have hsl : (levelSpan 100 1 y).sagSlope y ≤ -0.04 := by
    unfold sagSlope tensionSlope
    simp only
    rw [m1, m3, div_one, div_one]
    have hz : 0.5 ≤ 100 / 2 / y := by rw [le_div_iff₀ (by linarith)]; norm_num; linarith
    have := cosh_slope_neg (z := 100 / 2 / y) (by norm_num at *; linarith)
    norm_num at *
    nlinarith
  rw [ex, ey]
  norm_num at *
  nlinarith

/-! ## The line cable -/

/-- The limit of the line cable: the length or the sag at the tension 80. -/
noncomputable def keptLimit (t : LimitType) : ℝ :=
  if t = .length then (levelSpan 100 1 80).length else (levelSpan 100 1 80).sag

theorem keptLimit_pos {t : LimitType} (ht : t = .length ∨ t = .sag) : 0 < keptLimit t := by
  have h2 := span_sag_gap (x := 80) (y := 100) (by norm_num) (by norm_num) (by norm_num)
  rcases ht with rfl | rfl
  · exact (level_length_le one_pos (show 50 * 1 ≤ (80:ℝ) by norm_num)).1
  · show 0 < (levelSpan 100 1 80).sag
    have h3 : 0 ≤ (levelSpan 100 1 100).sag := by
      have S : (levelSpan 100 1 100).Span := (accepted_span (levelSpan_reachable 100 1 100) (span_valid (by norm_num))).1
      have e : (levelSpan 100 1 100).sag = (levelSpan 100 1 100).levelSag 100 :=
        sag_fam S (fam_refl (levelSpan_reachable 100 1 100)) rfl (h := 100) (by norm_num)
      rw [e]
      unfold levelSag
      exact mul_nonneg (div_nonneg (by norm_num) (Real.sqrt_nonneg _)) (sub_nonneg.2 (Real.one_le_cosh _))
    norm_num at h2
    linarith

theorem kept_solver {t : LimitType} (ht : t = .length ∨ t = .sag) :
    ((icyLineOf 1 1 (keptLimit t) t).tensionSolver ⟨0, 0, 1⟩).validate.1 = true := by
  set s := (icyLineOf 1 1 (keptLimit t) t).tensionSolver ⟨0, 0, 1⟩ with hs
  have hp := keptLimit_pos ht
  have hm : (50:ℝ) = s.catenary.spacing.magnitude / 2 * s.catenary.weightUnit.magnitude := by
    have e1 : s.catenary.spacing = ⟨100, 0, 0⟩ := by rcases ht with rfl | rfl <;> rfl
    have e2 : s.catenary.weightUnit = ⟨0, 0, 1⟩ := by rcases ht with rfl | rfl <;> rfl
    rw [e1, e2, magnitude_x (by norm_num), magnitude_z zero_le_one]
    norm_num
  rcases ht with rfl | rfl
  · have R : s.Reachable := ⟨[.setSpacing ⟨100, 0, 0⟩, .setValueTarget (keptLimit .length), .setWeight ⟨0, 0, 1⟩,
      .setTypeTarget .length], rfl⟩
    refine C57_accepted_partial R ?_ rfl ?_ hm (h := 80) (by norm_num) (by norm_num) (by norm_num) (by norm_num) rfl
    · refine ⟨Or.inl rfl, ?_, ?_, ?_, by decide, not_le.2 hp, ?_⟩
      · show ¬ (100:ℝ) ≤ 0; norm_num
      · show ¬ (0:ℝ) ≠ 0; norm_num
      · show ¬ (2000:ℝ) < |0|; norm_num
      · show ¬ (0:ℝ) ≠ 0 ∧ ¬ (0:ℝ) < 0 ∧ ¬ (1:ℝ) ≤ 0; norm_num
    · show |(0:ℝ)| < 2000; norm_num
  · have R : s.Reachable := ⟨[.setSpacing ⟨100, 0, 0⟩, .setValueTarget (keptLimit .sag), .setWeight ⟨0, 0, 1⟩,
      .setTypeTarget .sag], rfl⟩
    refine C109_level_sag_partial R ?_ rfl rfl rfl hm (h := 80) (by norm_num) (by norm_num) (by norm_num) (by norm_num) rfl
    refine ⟨Or.inl rfl, ?_, ?_, ?_, by decide, not_le.2 hp, ?_⟩
    · show ¬ (100:ℝ) ≤ 0; norm_num
    · show ¬ (0:ℝ) ≠ 0; norm_num
    · show ¬ (2000:ℝ) < |0|; norm_num
    · show ¬ (0:ℝ) ≠ 0 ∧ ¬ (0:ℝ) < 0 ∧ ¬ (1:ℝ) ≤ 0; norm_num

/-- The tension of its ruling span is near 80. -/
theorem kept_ruling {t : LimitType} (ht : t = .length ∨ t = .sag) : ∃ x, 70 < x ∧ x < 90 ∧
    ∀ v, (icyLineOf v 1 (keptLimit t) t).catenaryRulingSpan = .val (levelSpan 100 1 x) := by
  have hn : t ≠ .horizontalTension := by rcases ht with rfl | rfl <;> decide
  have hl : (icyLineOf 1 1 (keptLimit t) t).loadUnit = .val ⟨0, 0, 1⟩ := icyOf_load 1 1 (keptLimit t) t 1
  obtain ⟨k, h1, h2⟩ := ruling_accepted hl hn (kept_solver ht)
  obtain ⟨load, l1, l2⟩ := ruling_val h1
  cases hl.symm.trans l1
  rw [if_neg (c := (icyLineOf 1 1 (keptLimit t) t).constraint.typeLimit = LimitType.horizontalTension) hn] at l2
  set x := ((icyLineOf 1 1 (keptLimit t) t).tensionSolver ⟨0, 0, 1⟩).tensionHorizontal.1 with hx
  have l3 : k = levelSpan 100 1 x := l2
  subst l3
  have hx50 : 50 ≤ x := by
    have := (accepted_span (levelSpan_reachable 100 1 x) h2).2
    have m1 : (levelSpan 100 1 x).weightUnit.magnitude = 1 := magnitude_z zero_le_one
    have m2 : (levelSpan 100 1 x).spacing.magnitude = 100 := magnitude_x (by norm_num)
    rw [m1, m2] at this
    have e : (levelSpan 100 1 x).tensionHorizontal = x := rfl
    rw [e] at this
    linarith
  have hc := (C107_limit h1 h2).2.2
  have near : 70 < x ∧ x < 90 := by
    rcases ht with rfl | rfl
    · have hc : |(levelSpan 100 1 x).length - (levelSpan 100 1 80).length| ≤
          0.0075 / (levelSpan 100 1 x).weightUnit.magnitude := hc
      have m1 : (levelSpan 100 1 x).weightUnit.magnitude = 1 := magnitude_z zero_le_one
      rw [m1, div_one, abs_le] at hc
      constructor
      · by_contra hh
        have g := span_length_gap (x := 70) (y := 80) (by norm_num) (by norm_num) (by norm_num)
        have : (levelSpan 100 1 70).length ≤ (levelSpan 100 1 x).length := by
          rcases (not_lt.1 hh).lt_or_eq with h | h
          · exact (span_tighter hx50 h).1.le
          · rw [h]
        norm_num at *
        linarith [hc.1, hc.2]
      · by_contra hh
        have g := span_length_gap (x := 80) (y := 90) (by norm_num) (by norm_num) (by norm_num)
        have : (levelSpan 100 1 x).length ≤ (levelSpan 100 1 90).length := by
          rcases (not_lt.1 hh).lt_or_eq with h | h
          · exact (span_tighter (by norm_num) h).1.le
          · rw [h]
        norm_num at *
        linarith [hc.1, hc.2]
    · have hc : |(levelSpan 100 1 x).sag - (levelSpan 100 1 80).sag| ≤
          0.015 * ((V3.mk 100 0 0).magnitude / 100) / (levelSpan 100 1 x).weightUnit.magnitude := hc
      have m1 : (levelSpan 100 1 x).weightUnit.magnitude = 1 := magnitude_z zero_le_one
      rw [m1, magnitude_x (by norm_num), div_one, abs_le] at hc
      constructor
      · by_contra hh
        have g := span_sag_gap (x := 70) (y := 80) (by norm_num) (by norm_num) (by norm_num)
        have : (levelSpan 100 1 70).sag ≤ (levelSpan 100 1 x).sag := by
          rcases (not_lt.1 hh).lt_or_eq with h | h
          · exact (span_tighter hx50 h).2.le
          · rw [h]
        norm_num at *
        linarith [hc.1, hc.2]
      · by_contra hh
        have g := span_sag_gap (x := 80) (y := 90) (by norm_num) (by norm_num) (by norm_num)
        have : (levelSpan 100 1 x).sag ≤ (levelSpan 100 1 90).sag := by
          rcases (not_lt.1 hh).lt_or_eq with h | h
          · exact (span_tighter (by norm_num) h).2.le
          · rw [h]
        norm_num at *
        linarith [hc.1, hc.2]
  refine ⟨x, near.1, near.2, fun v => ?_⟩
  have : (icyLineOf v 1 (keptLimit t) t).catenaryRulingSpan = (icyLineOf 1 1 (keptLimit t) t).catenaryRulingSpan := rfl
  rw [this]
  exact h1

/-- There is a load between 1 and 1.1 to which the span with the tension `x` can be reloaded. -/
theorem clear_one {x : ℝ} (h0 : 51 ≤ x) (h1 : x ≤ 99) : ∃ v : ℝ, 1 < v ∧ v < 1.1 ∧ Clear 1 x v := by
  have hc : {v : ℝ | ∃ g', Tried g' ∧ 0 < v ∧ levelGap 1000000 100 1 x v (50 * v * g') = 0}.Countable := by
    have : {v : ℝ | ∃ g', Tried g' ∧ 0 < v ∧ levelGap 1000000 100 1 x v (50 * v * g') = 0} =
        ⋃ g' ∈ {g | Tried g}, {v : ℝ | 0 < v ∧ levelGap 1000000 100 1 x v (50 * v * g') = 0} := by
      ext v; simp only [Set.mem_ofPred_eq, Set.mem_iUnion, exists_prop]
    rw [this]
    refine tried_countable.biUnion fun g' hg' => Set.Subsingleton.countable ?_
    have t2 := tried_one hg'
    rintro v ⟨h1, h2⟩ v' ⟨h3, h4⟩
    rcases lt_trichotomy v v' with h | h | h
    · have := level_gap_target (w := 1) (h := x) one_pos (by linarith) h1 h t2
      linarith
    · exact h
    · have := level_gap_target (w := 1) (h := x) one_pos (by linarith) h3 h t2
      linarith
  obtain ⟨v, hv, a, b⟩ := (hc.dense_compl ℝ).exists_between (show (1:ℝ) < 1.1 by norm_num)
  exact ⟨v, a, b, one_pos, by linarith, by linarith, by norm_num; linarith, a.le, by norm_num at b ⊢; linarith,
    fun g' hg' _ h0 => hv ⟨g', hg', by linarith, h0⟩⟩

/-- C119 does not hold when the limit of the line cable is a length or a sag: there are a line cable and a design
constraint such that sagging succeeds (`IndexConstraintControlling()` is 0), but leaves the line cable as it was; its
ruling span keeps a horizontal tension that is more than 8 above the one of the controlling constraint reloaded to the
same loading, which is about 60. -/
theorem C119_limit_kept (heap : Heap ℝ) (t : LimitType) (ht : t = .length ∨ t = .sag) :
    ∃ (c : SectionCable) (q : CableConstraint) (s : Sagger) (k K : Catenary3d), c.constraint.typeLimit = t ∧
      ((Sagger.new.setConstraints (some [q])).setLineCable (some c)).indexControlling heap = .ok s 0 ∧
      s.lineCable = some c ∧ (restrung c q).catenaryReloaded.result = some (.val k) ∧
      c.catenaryRulingSpan = .val K ∧ K.spacing = k.spacing ∧ K.weightUnit = k.weightUnit ∧
      k.tensionHorizontal + 8 < K.tensionHorizontal := by
  have hn : t ≠ .null := by rcases ht with rfl | rfl <;> decide
  obtain ⟨x, x1, x2, hr⟩ := kept_ruling ht
  obtain ⟨v, v1, v2, hv⟩ := clear_one (x := x) (by linarith) (by linarith)
  have v0 : 0 < v := by linarith
  have v3 : v ≤ 1.2 := by norm_num at *; linarith
  obtain ⟨h, a1, a2, a3, a4⟩ := clear_tension (v := v) (w := 1) (a := 60 * v) (b := 60.5 * v) v1.le v3 (le_refl _)
    (by norm_num) (by linarith) (by linarith) (by linarith)
  obtain ⟨g, c1, c2, -, c4, -⟩ := icy_checked a3 a4 v1.le heap
  have r1 : 60 < h / v := by rw [lt_div_iff₀ v0]; exact a1
  have r2 : h / v < 60.5 := by rw [div_lt_iff₀ v0]; exact a2
  obtain ⟨q1, q2⟩ := abs_le.1 c4
  norm_num at q1 q2
  obtain ⟨g2, f1, -⟩ := icyOf_checked hv hv (le_refl _) (keptLimit_pos ht).le hn (hr v) heap
  set c := icyLineOf v 1 (keptLimit t) t with hcd
  set s := (Sagger.new.setConstraints (some [icyLimit v h])).setLineCable (some c) with hsd
  have i1 : s.updateIndex = .ok { s with index := 0 } true := rfl
  have hk : Sagger.resag c (levelSpan 100 1 (50 * 1 * g)) = c := by
    rcases ht with rfl | rfl <;> rfl
  have i2 : s.updateLimit heap = .ok { s with index := 0, lineCable := some c } true := by
    unfold Sagger.updateLimit
    rw [i1]
    simp only [Run.bind]
    have e1 : s.constraints = some [icyLimit v h] := rfl
    have e2 : s.lineCable = some c := rfl
    have e3 : validIndex 0 [icyLimit v h].length = true := rfl
    have e4 : [icyLimit v h][(0:ℤ).toNat]? = some (icyLimit v h) := rfl
    rw [if_neg (by decide), e1, e2]
    simp only [e3, e4, if_true]
    have e5 : Sagger.reloadChecked heap (reloaderOf { c with constraint := icyLimit v h }
      c.constraint.caseWeather c.constraint.condition) = some (.val (some (levelSpan 100 1 (50 * 1 * g)))) := c1
    rw [e5]
    simp only
    rw [hk]
  have hu : s.update heap = .ok ⟨some [icyLimit v h], some c, [levelSpan 100 v (50 * v * g2)], 0, true⟩ true := by
    unfold Sagger.update
    rw [if_neg (by show ¬ false = true; decide), i2]
    simp only [Run.bind]
    rw [if_neg (by decide)]
    have e6 : Sagger.reloadChecked heap (reloaderOf c (icyLimit v h).caseWeather (icyLimit v h).condition) =
        some (.val (some (levelSpan 100 v (50 * v * g2)))) := f1
    unfold Sagger.updateActual
    have e1 : s.constraints = some [icyLimit v h] := rfl
    simp only [e1]
    unfold Sagger.actualLoop
    rw [e6]
    rfl
  have hi : s.indexControlling heap =
      .ok ⟨some [icyLimit v h], some c, [levelSpan 100 v (50 * v * g2)], 0, true⟩ 0 := icy_asked hu _ _
  obtain ⟨qs, q, k, c', K, f1', f2', f3, f4, f5, -, f6, f7, -⟩ := C119_tension_partial hi (by norm_num)
  cases f1'
  cases f2'
  cases f4
  have hK : K = levelSpan 100 1 x := by
    have := f5.symm.trans (hr v)
    exact Res.val.inj this
  have hkt : k.tensionHorizontal = 50 * 1 * g := by
    have e : (restrung c (icyLimit v h)).catenaryReloaded.result = some (.val k) := f3
    have e' : (restrung c (icyLimit v h)).tensionHorizontal.result = some (.val (50 * 1 * g)) := c2
    obtain ⟨s2, -, u1, u2, -⟩ : ∃ s2 g', (restrung c (icyLimit v h)).update = .ok s2 true ∧
        s2.catenary = levelSpan 100 1 (50 * 1 * g') ∧ Tried g' ∧ |50 * g' - h / v| ≤ 1.02 ∧
        TriedFrom (50 * 1) (50 * 1 * g') := icyOf_reloads a3 a4 (icy_ruling v v h)
    have b : (restrung c (icyLimit v h)).isUpdated = false := rfl
    unfold LineReloader.catenaryReloaded LineReloader.ask at e
    unfold LineReloader.tensionHorizontal LineReloader.ask at e'
    rw [b, if_neg (by decide), u1] at e e'
    have e : some (Res.val s2.catenary) = some (.val k) := e
    have e' : some (Res.val s2.catenary.tensionHorizontal) = some (.val (50 * 1 * g)) := e'
    cases e
    exact Res.val.inj (Option.some.inj e')
  refine ⟨c, icyLimit v h, _, k, K, rfl, hi, rfl, f3, f5, f6, f7, ?_⟩
  rw [hK, hkt]
  show 50 * 1 * g + 8 < x
  norm_num at r2
  linarith

end Verif.Props
