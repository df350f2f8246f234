import Verif.Props.Sagging
set_option linter.unusedSectionVars false

/-! # A transit sagger without a line of sight (C197) -/

namespace Verif.Props

open Verif TransitSagger Verif.Units

/-- C197: when a sagger finds no low point its angle, control factor and points are all the error values. -/
theorem C197_silent {s s' : TransitSagger} (R : Transit.Reachable s) (h : s.update = some (.ok s' false)) :
    s.askAngleLow = some (.ok s' (-999999)) ∧ s.askFactorControl = some (.ok s' (-999999)) ∧
    s.askPointLow = some (.ok s' ⟨-999999, -999999, -999999⟩) ∧
    s.askPointTarget = some (.ok s' ⟨-999999, -999999, -999999⟩) ∧
    ∃ t, s.validate = some (.ok t false) := by
  have hr := Transit.refresh_eq R.inv
  refine ⟨?_, ?_, ?_, ?_, ?_⟩
  · unfold askAngleLow ask; rw [hr, h]; rfl
  · unfold askFactorControl ask; rw [hr, h]; rfl
  · unfold askPointLow ask; rw [hr, h]; rfl
  · unfold askPointTarget ask; rw [hr, h]; rfl
  · unfold validate
    split_ifs
    · exact ⟨_, rfl⟩
    · exact ⟨_, h⟩

/-- C197: an accepted sagger whose transit stands beside the plane of the span, or whose cable is blown out,
has no target. -/
theorem C197_target {s s' : TransitSagger} (h : s.validate = some (.ok s' true))
    (hy : s.pointTransit.y ≠ 0 ∨ s.catenary.weightUnit.y ≠ 0) :
    s'.askPointTarget = some (.ok s' ⟨-999999, -999999, -999999⟩) := by
  obtain ⟨-, hu⟩ := Transit.validate_true h
  have key := Transit.ask_of hu nullPoint target
  obtain ⟨p, -, -, -, e, -⟩ := Transit.update_true hu
  have h1 : s'.pointTransit = s.pointTransit := by rw [e]
  have h2 : s'.catenary = s.catenary := by rw [e]
  unfold askPointTarget
  rw [key]
  have : target s' = ⟨-999999, -999999, -999999⟩ := by
    unfold target
    rw [h1, h2]
    rcases hy with a | a
    · rw [if_pos a]; rfl
    · split_ifs
      · rfl
      · rfl
  rw [this]

/-- Straight down is 270 degrees from the first axis. -/
theorem down_angle {z : ℝ} (hz : z < 0) : V2.angle ⟨0, z⟩ true = -90 := by
  have e : toDegrees (3 * (kPi / 2)) = 270 := by
    rw [toDegrees_eq]
    have := kPi_pos.ne'
    field_simp; norm_num
  unfold V2.angle
  have h1 : ¬ ((0:ℝ) = 0 ∧ z = 0) := fun h => hz.ne h.2
  rw [if_neg h1]
  simp only [true_or, if_true, if_neg (not_lt.2 hz.le), e]
  norm_num

/-- No direction from a point is lower than straight down, as angles in degrees are computed. -/
theorem angle_ge {x z : ℝ} (hx : 0 ≤ x) (h : ¬ (x = 0 ∧ z = 0)) : -90.25 < V2.angle ⟨x, z⟩ true := by
  rcases hx.lt_or_eq with hx | hx
  · rw [V2.angle_true_of_pos _ hx, toDegrees_eq]
    have h1 := Real.neg_pi_div_two_lt_arctan (z / x)
    have h2 := Real.pi_lt_d2
    have hk : (180:ℝ) / kPi < 57.2958 := by unfold kPi; norm_num
    have hk0 : (0:ℝ) < 180 / kPi := div_pos (by norm_num) kPi_pos
    show (-90.25:ℝ) < Real.arctan (z / x) * (180 / kPi)
    have h3 : -1.575 < Real.arctan (z / x) := by linarith
    nlinarith
  · subst hx
    rcases lt_trichotomy z 0 with hz | hz | hz
    · rw [down_angle hz]; norm_num
    · exact absurd ⟨rfl, hz⟩ h
    · have e : toDegrees (kPi / 2) = 90 := by
        rw [toDegrees_eq]
        have := kPi_pos.ne'
        field_simp; norm_num
      unfold V2.angle
      have h1 : ¬ ((0:ℝ) = 0 ∧ z = 0) := fun h => hz.ne' h.2
      rw [if_neg h1]
      simp only [true_or, if_true, if_pos hz, e]
      norm_num

/-- Angles close to straight down are rounded to it. -/
theorem round_down {a : ℝ} (h0 : -90.25 < a) (h1 : a ≤ -90) : Helper.roundTo a 0 = -90 := by
  unfold Helper.roundTo Helper.roundAway
  have e : a * (10:ℝ) ^ (0:ℤ) = a := by norm_num
  rw [e, if_neg (by linarith)]
  have : ⌊-a + 1 / 2⌋ = 90 := by
    rw [Int.floor_eq_iff]
    constructor <;> push_cast <;> linarith
  rw [this]; norm_num

/-- C197: a transit that stands over the cable at one of the eleven points of the scan, and not on the cable,
is refused and has no figures. -/
theorem C197_overhead {s : TransitSagger} {i : ℕ} (hi : i ≤ 10)
    (hx : (s.catenary.coordinate (i / 10)).x = s.pointTransit.x)
    (hy : (s.catenary.coordinate (i / 10)).y = s.pointTransit.y)
    (hz : (s.catenary.coordinate (i / 10)).z < s.pointTransit.z)
    (hoff : ∀ p, s.catenary.coordinate p ≠ s.pointTransit) : ∃ s', s.update = some (.ok s' false) := by
  obtain ⟨p, hp, h0, h1, hmin⟩ := searchResult_spec s
  have hdown : s.sight (i / 10) = -90 := by
    show V2.angle ⟨V2.magnitude ⟨(s.catenary.coordinate (i / 10)).x - s.pointTransit.x,
      (s.catenary.coordinate (i / 10)).y - s.pointTransit.y⟩,
      (s.catenary.coordinate (i / 10)).z - s.pointTransit.z⟩ true = -90
    have : V2.magnitude ⟨(s.catenary.coordinate (i / 10)).x - s.pointTransit.x,
      (s.catenary.coordinate (i / 10)).y - s.pointTransit.y⟩ = 0 := by
      rw [hx, hy]; simp [V2.magnitude]
    rw [this]
    exact down_angle (by linarith)
  have hle := hmin i hi
  rw [hdown] at hle
  have hge : -90.25 < s.sight p := by
    refine angle_ge (Real.sqrt_nonneg _) ?_
    rintro ⟨hm, hz'⟩
    have hm' := (Real.sqrt_eq_zero (by positivity)).1 hm
    simp only at hm'
    have a1 := sq_nonneg ((s.catenary.coordinate p).x - s.pointTransit.x)
    have a2 := sq_nonneg ((s.catenary.coordinate p).y - s.pointTransit.y)
    have b1 : (s.catenary.coordinate p).x - s.pointTransit.x = 0 := by
      apply pow_eq_zero_iff two_ne_zero |>.1; linarith
    have b2 : (s.catenary.coordinate p).y - s.pointTransit.y = 0 := by
      apply pow_eq_zero_iff two_ne_zero |>.1; linarith
    exact hoff p (V3.ext (by linarith) (by linarith) (by linarith))
  rw [Transit.update_eq hp]
  split_ifs
  · exact ⟨_, rfl⟩
  · have hd : decide (Helper.roundTo (s.sight p) 0 ≠ -90) = false := by
      rw [decide_eq_false_iff_not, not_not]; exact round_down hge hle
    rw [hd]
    exact ⟨_, rfl⟩

/-- A transit ten feet over the middle of a span. -/
example : ∃ s : TransitSagger, Transit.Reachable s ∧
    (s.catenary.coordinate ((5:ℕ) / 10)).x = s.pointTransit.x ∧ (s.catenary.coordinate ((5:ℕ) / 10)).y = s.pointTransit.y ∧
    (s.catenary.coordinate ((5:ℕ) / 10)).z < s.pointTransit.z ∧
    ∀ p, s.catenary.coordinate p ≠ s.pointTransit := by
  have e : (((5:ℕ) : ℝ) / 10) = 1 / 2 := by norm_num
  have P := C54_validate_physical exSpan_reachable exSpan_valid
  obtain ⟨X, Z, hX, hmono, -⟩ := plane_curve exSpan_reachable P rfl
  have hm := exSpan_mid
  refine ⟨(TransitSagger.new.setCatenary exSpan).setPoint
    ⟨(exSpan.coordinate (1 / 2)).x, 0, (exSpan.coordinate (1 / 2)).z + 10⟩,
    ⟨[.setCatenary exSpan, .setPoint ⟨(exSpan.coordinate (1 / 2)).x, 0, (exSpan.coordinate (1 / 2)).z + 10⟩], rfl⟩, ?_⟩
  rw [e]
  refine ⟨rfl, by show (exSpan.coordinate (1 / 2)).y = 0; rw [hm], ?_, ?_⟩
  · show (exSpan.coordinate (1 / 2)).z < (exSpan.coordinate (1 / 2)).z + 10
    linarith
  · intro p h
    have hx : (exSpan.coordinate p).x = (exSpan.coordinate (1 / 2)).x := by
      exact (congrArg V3.x h : _)
    have hz : (exSpan.coordinate p).z = (exSpan.coordinate (1 / 2)).z + 10 := by
      exact (congrArg V3.z h : _)
    rw [hX p, hX (1 / 2)] at hx
    have := hmono.injective hx
    rw [this] at hz
    linarith

end Verif.Props
