import Verif.Props.Slacker

/-!
# C61, C92, C154 for tensions above twice the least tension

The reloader starts with the least tension and twice that.  Where the catenary is longer than the cable at both, it
extrapolates towards larger tensions.
-/

set_option linter.unusedSectionVars false

namespace Verif.CatenaryReloader

/-- A tension that moves neither end is tried again and again. -/
theorem loopOn_fixed {f : ℝ → Res ℝ} {y : ℝ} (fuel : ℕ) : ∀ h s, 0.01 < |s.left.x - s.right.x| →
    f s.tension = .val y →
    (∀ c i, ReloadSearch.place { s with current := c, iter := i } ⟨s.tension, y⟩ =
      { s with current := ⟨s.tension, y⟩, iter := i + 1 }) →
    ∃ h' s', loopOn f fuel h s = .ok h' s' ∧ s'.iter = s.iter + fuel ∧ (h' = h ∨ h' = s.tension) := by
  induction fuel with
  | zero => intro h s _ _ _; exact ⟨h, s, rfl, rfl, Or.inl rfl⟩
  | succ n ih =>
    intro h s hc hf hp
    obtain ⟨h', s', e, i, c⟩ := ih s.tension { s with current := ⟨s.tension, y⟩, iter := s.iter + 1 } hc hf hp
    refine ⟨h', s', ?_, ?_, Or.inr ?_⟩
    · rw [loopOn, if_pos hc, hf]
      simp only
      rw [show s.place ⟨s.tension, y⟩ = { s with current := ⟨s.tension, y⟩, iter := s.iter + 1 } from
        hp s.current s.iter]
      exact e
    · rw [i]; simp only; omega
    · rcases c with c | c <;> exact c

/-- The points of a search whose left end is below the crossing. -/
structure Climbing (g : ℝ → ℝ) (a : ℝ) (s : ReloadSearch) : Prop where
  low : a ≤ s.left.x
  lt : s.left.x < s.right.x
  ly : s.left.y = g s.left.x
  ry : s.right.y = g s.right.x
  lp : 0 < g s.left.x

theorem loopOn_climbing {f : ℝ → Res ℝ} {g : ℝ → ℝ} {a : ℝ} (hf : ∀ h, a ≤ h → f h = .val (g h))
    (ha : ∀ h h', a ≤ h → h < h' → g h' < g h) (fuel : ℕ) :
    ∀ (h : ℝ) (s : ReloadSearch), Climbing g a s → s.iter + fuel = 100 → (h = s.left.x ∨ h = s.right.x) →
      ∃ h' s', loopOn f fuel h s = .ok h' s' ∧ a ≤ h' ∧
        (s'.iter < 100 → Climbing g a s' ∧ s'.right.x - s'.left.x ≤ 0.01 ∧ (h' = s'.left.x ∨ h' = s'.right.x)) := by
  induction fuel with
  | zero =>
    intro h s C hi hh
    have h1 := C.low
    have h2 := C.lt
    refine ⟨h, s, rfl, ?_, fun q => by omega⟩
    rcases hh with rfl | rfl <;> linarith
  | succ n ih =>
    intro h s C hi hh
    have h1 := C.low
    have h2 := C.lt
    have habs : |s.left.x - s.right.x| = s.right.x - s.left.x := by
      rw [abs_of_neg (by linarith)]; ring
    by_cases hc : (0.01 : ℝ) < s.right.x - s.left.x
    swap
    · refine ⟨h, s, ?_, ?_, fun _ => ⟨C, not_lt.1 hc, hh⟩⟩
      · rw [loopOn, if_neg (by rw [habs]; exact hc)]
      · rcases hh with rfl | rfl <;> linarith
    have hc' : (0.01 : ℝ) < |s.left.x - s.right.x| := by rw [habs]; exact hc
    have step : ∀ y, f s.tension = .val y →
        loopOn f (n + 1) h s = loopOn f n s.tension (s.place ⟨s.tension, y⟩) := by
      intro y hy
      rw [loopOn, if_pos hc', hy]
    have stuck : ∀ y, a ≤ s.tension → f s.tension = .val y →
        (∀ c i, ReloadSearch.place { s with current := c, iter := i } ⟨s.tension, y⟩ =
          { s with current := ⟨s.tension, y⟩, iter := i + 1 }) →
        ∃ h' s', loopOn f (n + 1) h s = .ok h' s' ∧ a ≤ h' ∧
          (s'.iter < 100 → Climbing g a s' ∧ s'.right.x - s'.left.x ≤ 0.01 ∧ (h' = s'.left.x ∨ h' = s'.right.x)) := by
      intro y ht hy hp
      obtain ⟨h', s', e, i, c⟩ := loopOn_fixed (n + 1) h s hc' hy hp
      refine ⟨h', s', e, ?_, fun q => by omega⟩
      rcases c with rfl | rfl
      · rcases hh with rfl | rfl <;> linarith
      · exact ht
    have hl := C.lp
    rcases lt_trichotomy (g s.right.x) 0 with hr | hr | hr
    · -- a crossing in between
      have ht : s.tension = (s.left.x + s.right.x) / 2 := by
        unfold ReloadSearch.tension
        rw [if_pos (by rw [C.ly, C.ry]; exact ⟨hl, hr⟩)]
      have hx1 : ¬ s.tension < s.left.x := by rw [ht]; linarith
      have hx2 : s.left.x < s.tension ∧ s.tension < s.right.x := by rw [ht]; constructor <;> linarith
      have hy := hf s.tension (by linarith)
      rcases lt_trichotomy (g s.tension) 0 with h3 | h3 | h3
      · rw [step _ hy]
        have hp : s.place ⟨s.tension, g s.tension⟩ = { s with
            current := ⟨s.tension, g s.tension⟩, iter := s.iter + 1, right := ⟨s.tension, g s.tension⟩ } := by
          unfold ReloadSearch.place
          simp only
          rw [if_neg hx1, if_pos hx2, if_pos h3]
        rw [hp]
        exact ih _ _ ⟨h1, hx2.1, C.ly, rfl, hl⟩ (by simp only; omega) (Or.inr rfl)
      · refine stuck _ (by linarith) hy fun c i => ?_
        unfold ReloadSearch.place
        simp only
        rw [if_neg hx1, if_pos hx2, if_neg (by rw [h3]; exact lt_irrefl _), if_neg (by rw [h3]; exact lt_irrefl _)]
      · rw [step _ hy]
        have hp : s.place ⟨s.tension, g s.tension⟩ = { s with
            current := ⟨s.tension, g s.tension⟩, iter := s.iter + 1, left := ⟨s.tension, g s.tension⟩ } := by
          unfold ReloadSearch.place
          simp only
          rw [if_neg hx1, if_pos hx2, if_neg (by linarith), if_pos h3]
        rw [hp]
        exact ih _ _ ⟨by show a ≤ s.tension; linarith, hx2.2, rfl, C.ry, h3⟩ (by simp only; omega) (Or.inl rfl)
    · -- the right end is the crossing
      have ht : s.tension = s.right.x := by
        unfold ReloadSearch.tension
        rw [if_neg (by rw [C.ly, C.ry, hr]; exact fun q => lt_irrefl _ q.2), C.ly, C.ry, hr]
        have : s.right.x - s.left.x ≠ 0 := by linarith
        have : g s.left.x ≠ 0 := hl.ne'
        field_simp
        ring
      refine stuck _ (by rw [ht]; linarith) (hf s.tension (by rw [ht]; linarith)) fun c i => ?_
      unfold ReloadSearch.place
      simp only
      rw [ht, if_neg (by linarith), if_neg (fun q => lt_irrefl _ q.2), if_neg (lt_irrefl _)]
    · -- both ends are below it
      have hlt := ha _ _ h1 h2
      have ht : s.right.x < s.tension := by
        unfold ReloadSearch.tension
        rw [if_neg (by rw [C.ly, C.ry]; exact fun q => by linarith [q.2]), C.ly, C.ry]
        have d : 0 < s.right.x - s.left.x := by linarith
        have e : s.left.x + (0 - g s.left.x) / ((g s.right.x - g s.left.x) / (s.right.x - s.left.x)) =
            s.left.x + (s.right.x - s.left.x) * (g s.left.x / (g s.left.x - g s.right.x)) := by
          have p : g s.left.x - g s.right.x ≠ 0 := by linarith
          have q : g s.right.x - g s.left.x ≠ 0 := by linarith
          field_simp
          ring
        rw [e]
        have : 1 < g s.left.x / (g s.left.x - g s.right.x) := by
          rw [one_lt_div (by linarith)]; linarith
        nlinarith
      rw [step _ (hf s.tension (by linarith))]
      have hp : s.place ⟨s.tension, g s.tension⟩ = { s with
          current := ⟨s.tension, g s.tension⟩, iter := s.iter + 1, left := s.right, right := ⟨s.tension, g s.tension⟩ } := by
        unfold ReloadSearch.place
        simp only
        rw [if_neg (by linarith), if_neg (fun q => by linarith [q.2]), if_pos ht]
      rw [hp]
      exact ih _ _ ⟨by show a ≤ s.right.x; linarith, ht, C.ry, rfl, hr⟩ (by simp only; omega) (Or.inr rfl)

end Verif.CatenaryReloader

namespace Verif.Props

open CatenaryReloader Verif.ElongationModel Verif.Poly

/-- The search from the least tension on, where the catenary is longer there. -/
theorem reload_climbing {r : CatenaryReloader} {k : Catenary3d} {w : V3} (hk : r.catenary = some k)
    (hw : r.weight = some w) (hu : r.isUpdated = false) {g : ℝ → ℝ}
    (hg : ∀ h, k.spacing.magnitude / 2 * w.magnitude ≤ h →
      gap k r.modelReference r.modelReloaded w h = .val (g h))
    (ha : ∀ h h', k.spacing.magnitude / 2 * w.magnitude ≤ h → h < h' → g h' < g h)
    (h1 : 0.01 < k.spacing.magnitude / 2 * w.magnitude) (pl : 0 < g (k.spacing.magnitude / 2 * w.magnitude)) :
    ∃ r' b, r.update = .ok r' b ∧ k.spacing.magnitude / 2 * w.magnitude ≤ r'.catenaryReloaded.tensionHorizontal ∧
      (b = true → g r'.catenaryReloaded.tensionHorizontal < 0.1 ∧ ∃ lo, k.spacing.magnitude / 2 * w.magnitude ≤ lo ∧
        0 < g lo ∧ lo ≤ r'.catenaryReloaded.tensionHorizontal ∧
        r'.catenaryReloaded.tensionHorizontal - lo ≤ 0.01) := by
  set x0 := k.spacing.magnitude / 2 * w.magnitude with hx0
  have ex : tensionLeast k w = x0 := rfl
  set f := gap k r.modelReference r.modelReloaded w with hfd
  have e1 := hg x0 (le_refl _)
  have e2 := hg (2 * x0) (by linarith)
  set s0 : ReloadSearch := ⟨⟨x0, g x0⟩, ⟨2 * x0, g (2 * x0)⟩, ⟨-999999, -999999⟩, 0⟩ with hs0
  obtain ⟨h', s', hloop, q1, q2⟩ := loopOn_climbing hg ha 100 (2 * x0) s0
    ⟨le_refl _, by show x0 < 2 * x0; linarith, rfl, rfl, pl⟩ rfl (Or.inr rfl)
  have hcur := loopOn_current f 100 _ _ _ _ hloop (Or.inr ⟨by decide, by
    show 0.01 < |x0 - 2 * x0|
    rw [show x0 - 2 * x0 = -x0 by ring, abs_neg, abs_of_pos (by linarith)]
    exact h1⟩)
  have hcur : g h' = s'.current.y := Res.val.inj ((hg h' q1).symm.trans hcur)
  have hfound : r.found k w = .ok h' (if s'.iter < 100 then decide (s'.current.y < 0.1) else false) := by
    unfold CatenaryReloader.found searchOn
    rw [ex, ← hfd, e1]
    simp only
    rw [e2]
    simp only
    rw [hloop]
  refine ⟨{ r.trying k w h' with isUpdated := (if s'.iter < 100 then decide (s'.current.y < 0.1) else false) },
    (if s'.iter < 100 then decide (s'.current.y < 0.1) else false), ?_, q1, ?_⟩
  · unfold CatenaryReloader.update
    rw [if_neg (by rw [hu]; decide), solve_eq hk hw, hfound]
    rfl
  · intro hb
    change g h' < 0.1 ∧ ∃ lo, x0 ≤ lo ∧ 0 < g lo ∧ lo ≤ h' ∧ h' - lo ≤ 0.01
    by_cases hi : s'.iter < 100
    swap
    · rw [if_neg hi] at hb; cases hb
    rw [if_pos hi] at hb
    have hy := of_decide_eq_true hb
    rw [← hcur] at hy
    obtain ⟨C, hd, hh⟩ := q2 hi
    have hlt := C.lt
    refine ⟨hy, _, C.low, C.lp, ?_, ?_⟩ <;> rcases hh with hh | hh <;> linarith

/-- **C61**. Let the difference of the lengths decrease with the tension from the least tension on, and let the lengths
match at a tension `x` above the least one, however large.  Then the search comes to an end.  If it reports success,
the tension reported is either at most `x`, the catenary there being at least as long as the cable and less than 0.1
longer, or it is within 0.01 of `x`. -/
theorem C61_above {r : CatenaryReloader} {k : Catenary3d} {w : V3} (hk : r.catenary = some k)
    (hw : r.weight = some w) (hu : r.isUpdated = false) {g : ℝ → ℝ}
    (hg : ∀ h, k.spacing.magnitude / 2 * w.magnitude ≤ h →
      gap k r.modelReference r.modelReloaded w h = .val (g h))
    (ha : ∀ h h', k.spacing.magnitude / 2 * w.magnitude ≤ h → h < h' → g h' < g h)
    (h1 : 0.01 < k.spacing.magnitude / 2 * w.magnitude) {x : ℝ} (h0 : g x = 0)
    (hx : k.spacing.magnitude / 2 * w.magnitude < x) :
    ∃ r' b, r.update = .ok r' b ∧ k.spacing.magnitude / 2 * w.magnitude ≤ r'.catenaryReloaded.tensionHorizontal ∧
      (b = true → (r'.catenaryReloaded.tensionHorizontal ≤ x ∧ 0 ≤ g r'.catenaryReloaded.tensionHorizontal ∧
          g r'.catenaryReloaded.tensionHorizontal < 0.1) ∨
        |r'.catenaryReloaded.tensionHorizontal - x| ≤ 0.01) := by
  have pl := ha _ _ (le_refl _) hx
  rw [h0] at pl
  obtain ⟨r', b, e, q1, q2⟩ := reload_climbing hk hw hu hg ha h1 pl
  refine ⟨r', b, e, q1, fun hb => ?_⟩
  obtain ⟨hy, lo, c1, c2, c3, c4⟩ := q2 hb
  have below : ∀ t, k.spacing.magnitude / 2 * w.magnitude ≤ t → 0 ≤ g t → t ≤ x := by
    intro t ht hp
    by_contra hn
    have := ha _ _ hx.le (not_le.1 hn)
    linarith
  by_cases hp : 0 ≤ g r'.catenaryReloaded.tensionHorizontal
  · exact Or.inl ⟨below _ q1 hp, hp, hy⟩
  · right
    have lx := below _ c1 c2.le
    have hxh : x < r'.catenaryReloaded.tensionHorizontal := by
      by_contra hn
      rcases (not_lt.1 hn).lt_or_eq with q | q
      · have := ha _ _ q1 q
        linarith
      · rw [q] at hp; linarith
    rw [abs_le]
    constructor <;> linarith

/-- **C92** (partial). Reload a catenary under its own load on its own cable model, its tension being larger than the
least one, however large.  If the difference of the lengths decreases with the tension and success is reported, the
tension found is either at most the original one, the catenary being less than 0.1 longer than the cable, or within
0.01 of it.

Missing: that success is reported, and how far the tension can be below the original one. -/
theorem C92_above_partial {r : CatenaryReloader} {k : Catenary3d} (R : k.Reachable) (hk : r.catenary = some k)
    (hw : r.weight = some k.weightUnit) (hm : r.modelReloaded = r.modelReference) (hu : r.isUpdated = false) {g : ℝ → ℝ}
    (hg : ∀ h, k.spacing.magnitude / 2 * k.weightUnit.magnitude ≤ h →
      gap k r.modelReference r.modelReloaded k.weightUnit h = .val (g h))
    (ha : ∀ h h', k.spacing.magnitude / 2 * k.weightUnit.magnitude ≤ h → h < h' → g h' < g h)
    (h1 : 0.01 < k.spacing.magnitude / 2 * k.weightUnit.magnitude)
    (hl : k.spacing.magnitude / 2 * k.weightUnit.magnitude < k.tensionHorizontal) :
    ∃ r' b, r.update = .ok r' b ∧
      (b = true → (r'.catenaryReloaded.tensionHorizontal ≤ k.tensionHorizontal ∧
          0 ≤ g r'.catenaryReloaded.tensionHorizontal ∧ g r'.catenaryReloaded.tensionHorizontal < 0.1) ∨
        |r'.catenaryReloaded.tensionHorizontal - k.tensionHorizontal| ≤ 0.01) := by
  have h0 : g k.tensionHorizontal = 0 := by
    have := hg _ hl.le
    rw [hm] at this
    exact gap_self R this
  obtain ⟨r', b, e, -, q⟩ := C61_above hk hw hu hg ha h1 h0 hl
  exact ⟨r', b, e, q⟩

/-- C154: a cable with the model `m` would fit exactly at the tension `x`.  A reloader with a model that reports at
least as much strain, and more under larger loads, never reports a tension that exceeds `x` by more than 0.01, if the
catenary is the longer one at the least tension. -/
theorem C154_reported {s : CatenaryReloader} {k : Catenary3d} {w : V3} (R : k.Reachable) (V : k.validate.1 = true)
    (wx : w.x = 0) (wy : 0 ≤ w.y) (wz : 0 < w.z) (hk : s.catenary = some k) (hw : s.weight = some w)
    (hu : s.isUpdated = false) {m : Option ElongationModel} {x : ℝ}
    (hx : k.spacing.magnitude / 2 * w.magnitude ≤ x) (hm : gap k s.modelReference m w x = .val 0)
    (hs : ∀ B, Slacker B m s.modelReloaded) (hn : ∀ B, Slacker B s.modelReloaded s.modelReloaded) {g : ℝ → ℝ}
    (hg : ∀ h, k.spacing.magnitude / 2 * w.magnitude ≤ h →
      gap k s.modelReference s.modelReloaded w h = .val (g h))
    (h1 : 0.01 < k.spacing.magnitude / 2 * w.magnitude) (pl : 0 < g (k.spacing.magnitude / 2 * w.magnitude)) :
    ∃ s' b, s.update = .ok s' b ∧ (b = true → s'.catenaryReloaded.tensionHorizontal ≤ x + 0.01) := by
  have ha : ∀ h h', k.spacing.magnitude / 2 * w.magnitude ≤ h → h < h' → g h' < g h := fun h h' p q =>
    gap_slacker R V wx wy wz (hn _) p q (le_refl _) (hg h p) (hg h' (p.trans q.le))
  obtain ⟨s', b, e, -, q⟩ := reload_climbing hk hw hu hg ha h1 pl
  refine ⟨s', b, e, fun hb => ?_⟩
  obtain ⟨-, lo, c1, c2, c3, c4⟩ := q hb
  have : lo ≤ x := by
    by_contra hlt
    have := gap_slacker R V wx wy wz (hs _) hx (not_le.1 hlt) (le_refl _) hm (hg lo c1)
    linarith
  linarith

/-! ## Example: a Hooke cable beyond its limit -/

theorem hooke_modulus {e : ℝ} (he : 100000 ≤ e) {t : PolynomialType} (ht : t ≠ .null) :
    (exComponent e e).modulusExtrapolate t = e := by
  have key : (exComponent e e).modulusOf [0, e, 0, 0, 0] 100 = e := by
    unfold CableComponent.modulusOf CableComponent.slopePolynomial
    rw [if_neg (by simp)]
    have : ∀ x : ℝ, evalY (derivCoefficients [0, e, 0, 0, 0]) x = e := by
      intro x
      simp [derivCoefficients, derivLoop, evalY, yLoop]
    simp only [this]
    rw [if_neg (by norm_num [exComponent]; linarith)]
    norm_num [exComponent]
  cases t with
  | null => exact absurd rfl ht
  | creep => exact key
  | loadStrain => exact key

theorem hooke_load_all {e x : ℝ} (he : 100000 ≤ e) {t : PolynomialType} (ht : t ≠ .null) (h0 : 0 ≤ x) :
    (exComponent e e).load t (hookePoints e) 0 x = e * x := by
  have he0 : 0 < e := by linarith
  have hp : 0 < 100 / e := by positivity
  rcases le_total x (100 / e) with h1 | h1
  · exact hooke_load he0 ht h0 h1
  unfold CableComponent.load hookePoints
  simp only
  rw [if_neg (by linarith), if_neg (by rintro ⟨_, h⟩; linarith), if_neg (by rintro ⟨_, h⟩; linarith), if_pos h1,
    if_neg ht, hooke_modulus he ht]
  unfold CableComponent.loadLinear
  simp only
  field_simp
  ring

/-- The Hooke cable obeys Hooke's law under all loads. -/
theorem hooke_strain_all {e l : ℝ} (he : 100000 ≤ e) (h0 : 0 ≤ l) :
    strainThrough (some (hookeModel e)) l = .val (l / (2 * e)) := by
  have he0 : 0 < e := by linarith
  by_cases h1 : l < 200
  · exact hooke_strain he0 h0 h1
  have h1 := not_lt.1 h1
  have hs : (PolynomialType.loadStrain) ≠ .null := by rintro ⟨⟩
  rw [strainThrough_seen]
  show seen ((givenCable ElongationModel.new (hookeCable e) ⟨0, .loadStrain, 0⟩ ⟨0, .loadStrain⟩).strain .combined l) = _
  rw [seen_strain, hooke_known he0 hs rfl]
  have both : ∀ x : ℝ, 0 ≤ x → bothOf CableComponent.load (hookeCable e) ⟨0, .loadStrain⟩
      (some (0, hookePoints e), some (0, hookePoints e)) x = 2 * (e * x) := by
    intro x hx
    have ha : ansOf CableComponent.load (exComponent e e) ⟨0, .loadStrain⟩ (some (0, hookePoints e)) x = e * x := by
      unfold ansOf
      rw [if_pos (hooke_enabled he0)]
      exact hooke_load_all he hs hx
    show ansOf CableComponent.load (exComponent e e) ⟨0, .loadStrain⟩ (some (0, hookePoints e)) x +
      ansOf CableComponent.load (exComponent e e) ⟨0, .loadStrain⟩ (some (0, hookePoints e)) x = _
    rw [ha]
    ring
  simp only [strainOf]
  rw [hooke_points he0 hs]
  set f := bothOf CableComponent.load (hookeCable e) ⟨0, .loadStrain⟩
    (some (0, hookePoints e), some (0, hookePoints e)) with hf
  have hp : 0 < 100 / e := by positivity
  have key : strainCombined f [⟨0, 0⟩, ⟨0, 0⟩, ⟨0, 0⟩, ⟨0, 0⟩, ⟨100 / e, 200⟩, ⟨100 / e, 200⟩] l =
      .val (l / (2 * e)) := by
    unfold strainCombined strainStart
    simp only [List.head?_cons, List.getLast?_cons_cons, List.getLast?_singleton]
    rw [if_neg (by linarith), if_pos h1]
    simp only
    have fr : f (100 / e + 0.0005) = 200 + 0.001 * e := by
      rw [both _ (by positivity)]; field_simp; ring
    have hx : 100 / e + (l - 200) / ((200 + 0.001 * e - 200) / (100 / e + 0.0005 - 100 / e)) = l / (2 * e) := by
      have : (200 + 0.001 * e - 200) / (100 / e + 0.0005 - 100 / e) = 2 * e := by
        rw [show 100 / e + 0.0005 - 100 / e = (0.0005 : ℝ) by ring]
        norm_num
        ring
      rw [this]
      field_simp
      ring
    have hfx : f (l / (2 * e)) = l := by
      rw [both _ (by positivity)]; field_simp
    have hge : 100 / e ≤ l / (2 * e) := by
      rw [div_le_div_iff₀ he0 (by positivity)]; nlinarith
    rw [fr]
    have hst : (StrainSearch.step f l ⟨⟨100 / e, 200⟩, ⟨100 / e + 0.0005, 200 + 0.001 * e⟩, ⟨-999999, -999999⟩, 1⟩).current =
        ⟨l / (2 * e), l⟩ ∧
        (StrainSearch.step f l ⟨⟨100 / e, 200⟩, ⟨100 / e + 0.0005, 200 + 0.001 * e⟩, ⟨-999999, -999999⟩, 1⟩).iter = 2 := by
      unfold StrainSearch.step
      simp only
      rw [hx, hfx]
      split_ifs <;> exact ⟨rfl, rfl⟩
    have hlo : strainLoop f l 99 ⟨⟨100 / e, 200⟩, ⟨100 / e + 0.0005, 200 + 0.001 * e⟩, ⟨-999999, -999999⟩, 1⟩ =
        StrainSearch.step f l ⟨⟨100 / e, 200⟩, ⟨100 / e + 0.0005, 200 + 0.001 * e⟩, ⟨-999999, -999999⟩, 1⟩ := by
      rw [strainLoop, if_pos (by simp only; rw [abs_of_neg (by linarith)]; norm_num; linarith), strainLoop,
        if_neg (by rw [hst.1]; norm_num)]
    rw [hlo, hst.1, hst.2]
    norm_num
  rw [key]

theorem hooke_slacker_all {e e' : ℝ} (he : 100000 ≤ e') (h : e' ≤ e) (B : ℝ) :
    Slacker B (some (hookeModel e)) (some (hookeModel e')) := by
  intro l l' a b h0 h1 h2 ha hb
  rw [hooke_strain_all (he.trans h) h0] at ha
  rw [hooke_strain_all he (h0.trans h1)] at hb
  cases ha
  cases hb
  exact div_le_div₀ (h0.trans h1) h1 (by linarith) (by linarith)

/-- The difference of the lengths for a cable with the stiffness `e'` instead of `e`. -/
noncomputable def softGap (e e' s w h x : ℝ) : ℝ :=
  (levelSpan s w x).length - CableStrainer.elongate (levelSpan s w h).length
    ((levelSpan s w h).tensionAverage / (2 * e)) ((levelSpan s w x).tensionAverage / (2 * e'))

theorem soft_gap {e e' s w h x : ℝ} (he : 100000 ≤ e) (he' : 100000 ≤ e') (hs : 0 < s) (hw : 0 < w)
    (hh : s / 2 * w ≤ h) (hx : s / 2 * w ≤ x) :
    gap (levelSpan s w h) (some (hookeModel e)) (some (hookeModel e')) ⟨0, 0, w⟩ x = .val (softGap e e' s w h x) := by
  have p : 0 < s / 2 * w := by positivity
  obtain ⟨a1, -⟩ := levelSpan_tension hs hw hh
  obtain ⟨b1, -⟩ := levelSpan_tension hs hw hx
  unfold gap trialStrainer CableStrainer.lengthFinish
  simp only [level_trial]
  rw [hooke_strain_all he (by linarith), hooke_strain_all he' (by linarith)]
  rfl

/-- C61_above and C92_above_partial apply: a span of 100 with a tension of 300, six times the least one, reloaded under
its own load. -/
example : ∃ r' b, (levelReloader 1000000 100 1 300 1).update = .ok r' b ∧
    (b = true → (r'.catenaryReloaded.tensionHorizontal ≤ 300 ∧
        0 ≤ softGap 1000000 1000000 100 1 300 r'.catenaryReloaded.tensionHorizontal ∧
        softGap 1000000 1000000 100 1 300 r'.catenaryReloaded.tensionHorizontal < 0.1) ∨
      |r'.catenaryReloaded.tensionHorizontal - 300| ≤ 0.01) := by
  have hm := level_magnitudes (s := 100) (v := 1) (by norm_num) (by norm_num) 1 300
  have V := level_valid (s := 100) (w := 1) (h := 300) (by norm_num) (by norm_num) (by norm_num)
  have hg : ∀ h, (levelSpan 100 1 300).spacing.magnitude / 2 * (V3.mk 0 0 1).magnitude ≤ h →
      gap (levelSpan 100 1 300) (some (hookeModel 1000000)) (some (hookeModel 1000000)) ⟨0, 0, 1⟩ h =
        .val (softGap 1000000 1000000 100 1 300 h) := by
    intro h hh
    rw [hm] at hh
    exact soft_gap (by norm_num) (by norm_num) (by norm_num) (by norm_num) (by norm_num) hh
  refine C92_above_partial (k := levelSpan 100 1 300) (levelSpan_reachable _ _ _) rfl rfl rfl rfl hg ?_ ?_ ?_
  · intro h h' p q
    exact gap_slacker (levelSpan_reachable _ _ _) V rfl (le_refl _) (show (0 : ℝ) < 1 by norm_num)
      (hooke_slacker_all (by norm_num) (le_refl _) _) p q (le_refl _) (hg h p) (hg h' (p.trans q.le))
  · show 0.01 < (levelSpan 100 1 300).spacing.magnitude / 2 * (V3.mk 0 0 1).magnitude
    rw [hm]; norm_num
  · show (levelSpan 100 1 300).spacing.magnitude / 2 * (V3.mk 0 0 1).magnitude < 300
    rw [hm]; norm_num

/-- C154_reported applies: the same span reloaded with a cable half as stiff. -/
example : ∃ s' b, CatenaryReloader.update ⟨some (levelSpan 100 1 300), some (hookeModel 1000000),
      some (hookeModel 500000), some ⟨0, 0, 1⟩, .new, .new, false⟩ = .ok s' b ∧
    (b = true → s'.catenaryReloaded.tensionHorizontal ≤ 300 + 0.01) := by
  have hm := level_magnitudes (s := 100) (v := 1) (by norm_num) (by norm_num) 1 300
  have V := level_valid (s := 100) (w := 1) (h := 300) (by norm_num) (by norm_num) (by norm_num)
  refine C154_reported (k := levelSpan 100 1 300) (w := ⟨0, 0, 1⟩) (m := some (hookeModel 1000000))
    (levelSpan_reachable _ _ _) V rfl (le_refl _) (by norm_num) rfl rfl rfl (by rw [hm]; norm_num) ?_
    (hooke_slacker_all (by norm_num) (by norm_num)) (hooke_slacker_all (by norm_num) (le_refl _))
    (g := softGap 1000000 500000 100 1 300) ?_ (by rw [hm]; norm_num) ?_
  · rw [soft_gap (by norm_num) (by norm_num) (by norm_num) (by norm_num) (by norm_num) (by norm_num)]
    unfold softGap CableStrainer.elongate
    simp
  · intro h hh
    rw [hm] at hh
    exact soft_gap (by norm_num) (by norm_num) (by norm_num) (by norm_num) (by norm_num) hh
  · rw [hm]
    obtain ⟨a1, a2⟩ := levelSpan_tension (s := 100) (w := 1) (h := 300) (by norm_num) (by norm_num) (by norm_num)
    obtain ⟨b1, b2⟩ := levelSpan_tension (s := 100) (w := 1) (h := 100 / 2 * 1) (by norm_num) (by norm_num) (le_refl _)
    have m1 := (levelSpan_mono (s := 100) (w := 1) (h := 100 / 2 * 1) (h' := 300) (by norm_num) (by norm_num) (le_refl _)
      (by norm_num)).1
    have t := elongate_le (a := (levelSpan 100 1 300).tensionAverage / (2 * 1000000))
      (accepted_length (levelSpan_reachable _ _ _) V) (show (levelSpan 100 1 (100 / 2 * 1)).tensionAverage / (2 * 500000) ≤
        (levelSpan 100 1 300).tensionAverage / (2 * 1000000) by linarith)
    have e0 : CableStrainer.elongate (levelSpan 100 1 300).length ((levelSpan 100 1 300).tensionAverage / (2 * 1000000))
        ((levelSpan 100 1 300).tensionAverage / (2 * 1000000)) = (levelSpan 100 1 300).length := by
      simp [CableStrainer.elongate]
    rw [e0] at t
    unfold softGap
    linarith

end Verif.Props
