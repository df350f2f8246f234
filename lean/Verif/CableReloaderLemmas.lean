import Verif.CableReloader

set_option linter.unusedSectionVars false

/-!
# Lemmas about the catenary reloader

The search of the reloader as a function of the catenary, the two models and the load.
-/

namespace Verif.CatenaryReloader

open Verif

/-- A catenary over the span of `k` under the load `w` with horizontal tension `h`. -/
noncomputable def trial (k : Catenary3d) (w : V3) (h : ℝ) : Catenary3d :=
  ((Catenary3d.new.setSpacing k.spacing).setTension h).setWeight w

/-- The strainer that carries the cable of `k` over to `trial k w h`. -/
noncomputable def trialStrainer (k : Catenary3d) (ref rel : Option ElongationModel) (w : V3) (h : ℝ) : CableStrainer :=
  ⟨k.length, (trial k w h).tensionAverage, k.tensionAverage, rel, ref⟩

/-- Catenary length less cable length. -/
noncomputable def gap (k : Catenary3d) (ref rel : Option ElongationModel) (w : V3) (h : ℝ) : Res ℝ :=
  match (trialStrainer k ref rel w h).lengthFinish with
  | .val l => .val ((trial k w h).length - l)
  | .throws => .throws
  | .ub => .ub

/-- The reloader while it tries the tension `h`. -/
noncomputable def trying (r : CatenaryReloader) (k : Catenary3d) (w : V3) (h : ℝ) : CatenaryReloader :=
  { r with catenaryReloaded := trial k w h, strainer := trialStrainer k r.modelReference r.modelReloaded w h }

theorem difference_trying (r : CatenaryReloader) (k : Catenary3d) (w : V3) (h h' : ℝ) :
    (r.trying k w h).lengthDifference h' =
      (r.trying k w h', gap k r.modelReference r.modelReloaded w h') := rfl

theorem difference_prepare (r : CatenaryReloader) (k : Catenary3d) (w : V3) (h : ℝ) :
    (r.prepare k w).lengthDifference h = (r.trying k w h, gap k r.modelReference r.modelReloaded w h) := rfl

open Classical in
/-- The loop, keeping only the tension tried last. -/
noncomputable def loopOn (f : ℝ → Res ℝ) : ℕ → ℝ → ReloadSearch → Outcome ℝ ReloadSearch
  | 0, h, s => .ok h s
  | fuel + 1, h, s =>
    if 0.01 < |s.left.x - s.right.x| then
      match f s.tension with
      | .val y => loopOn f fuel s.tension (s.place ⟨s.tension, y⟩)
      | .throws => .throws s.tension
      | .ub => .ub
    else .ok h s

open Classical in
/-- The search, keeping only the tension tried last. -/
noncomputable def searchOn (f : ℝ → Res ℝ) (x : ℝ) : Outcome ℝ Bool :=
  match f x with
  | .val yl =>
    match f (2 * x) with
    | .val yr =>
      match loopOn f 100 (2 * x) ⟨⟨x, yl⟩, ⟨2 * x, yr⟩, ⟨-999999, -999999⟩, 0⟩ with
      | .ok h s => .ok h (if s.iter < 100 then decide (s.current.y < 0.1) else false)
      | .throws h => .throws h
      | .ub => .ub
    | .throws => .throws (2 * x)
    | .ub => .ub
  | .throws => .throws x
  | .ub => .ub

/-- Replace the state of an outcome. -/
def mapState {S T A : Type} (g : S → T) : Outcome S A → Outcome T A
  | .ok s a => .ok (g s) a
  | .throws s => .throws (g s)
  | .ub => .ub

theorem loop_eq (r : CatenaryReloader) (k : Catenary3d) (w : V3) (fuel : ℕ) : ∀ h s,
    (r.trying k w h).loop fuel s =
      mapState (r.trying k w) (loopOn (gap k r.modelReference r.modelReloaded w) fuel h s) := by
  induction fuel with
  | zero => intro h s; rfl
  | succ n ih =>
    intro h s
    unfold loop loopOn
    by_cases hc : (0.01 : ℝ) < |s.left.x - s.right.x|
    · rw [if_pos hc, if_pos hc, difference_trying]
      cases gap k r.modelReference r.modelReloaded w s.tension with
      | val y => exact ih _ _
      | throws => rfl
      | ub => rfl
    · rw [if_neg hc, if_neg hc]; rfl

theorem solveFrom_eq (r : CatenaryReloader) (k : Catenary3d) (w : V3) (x : ℝ) :
    (r.prepare k w).solveFrom x =
      mapState (r.trying k w) (searchOn (gap k r.modelReference r.modelReloaded w) x) := by
  unfold solveFrom searchOn
  rw [difference_prepare]
  cases gap k r.modelReference r.modelReloaded w x with
  | val yl =>
    simp only
    rw [difference_trying]
    cases gap k r.modelReference r.modelReloaded w (2 * x) with
    | val yr =>
      simp only
      rw [loop_eq]
      cases loopOn (gap k r.modelReference r.modelReloaded w) 100 (2 * x)
        ⟨⟨x, yl⟩, ⟨2 * x, yr⟩, ⟨-999999, -999999⟩, 0⟩ <;> rfl
    | throws => rfl
    | ub => rfl
  | throws => rfl
  | ub => rfl

/-- What the reloader finds for its settings. -/
noncomputable def found (r : CatenaryReloader) (k : Catenary3d) (w : V3) : Outcome ℝ Bool :=
  searchOn (gap k r.modelReference r.modelReloaded w) (tensionLeast k w)

theorem solve_eq {r : CatenaryReloader} {k : Catenary3d} {w : V3} (hk : r.catenary = some k) (hw : r.weight = some w) :
    r.solve = mapState (r.trying k w) (r.found k w) := by
  unfold solve found
  rw [hk, hw]
  exact solveFrom_eq r k w _

/-! ## The loop -/

/-- After at least one pass the current point belongs to the tension tried last. -/
theorem loopOn_current (f : ℝ → Res ℝ) (fuel : ℕ) : ∀ h s h' s',
    loopOn f fuel h s = .ok h' s' → (f h = .val s.current.y ∨ (fuel ≠ 0 ∧ 0.01 < |s.left.x - s.right.x|)) →
      f h' = .val s'.current.y := by
  induction fuel with
  | zero =>
    intro h s h' s' e a
    cases e
    rcases a with a | ⟨a, -⟩
    · exact a
    · exact absurd rfl a
  | succ n ih =>
    intro h s h' s' e a
    unfold loopOn at e
    by_cases hc : (0.01 : ℝ) < |s.left.x - s.right.x|
    · rw [if_pos hc] at e
      cases hf : f s.tension with
      | val y =>
        rw [hf] at e
        refine ih _ _ _ _ e (Or.inl ?_)
        have : (s.place ⟨s.tension, y⟩).current = ⟨s.tension, y⟩ := by
          unfold ReloadSearch.place
          simp only
          split_ifs <;> rfl
        rw [this, hf]
      | throws => rw [hf] at e; cases e
      | ub => rw [hf] at e; cases e
    · rw [if_neg hc] at e
      cases e
      exact a.resolve_right fun b => hc b.2

/-- The points on both sides of the sign change. -/
structure Bracket (g : ℝ → ℝ) (s : ReloadSearch) : Prop where
  lt : s.left.x < s.right.x
  ly : s.left.y = g s.left.x
  ry : s.right.y = g s.right.x
  lp : 0 < g s.left.x
  rn : g s.right.x < 0

theorem Bracket.tension {g : ℝ → ℝ} {s : ReloadSearch} (b : Bracket g s) : s.tension = (s.left.x + s.right.x) / 2 := by
  unfold ReloadSearch.tension
  rw [if_pos]
  rw [b.ly, b.ry]
  exact ⟨b.lp, b.rn⟩

/-- A zero in the middle stops all progress. -/
theorem loopOn_stuck {f : ℝ → Res ℝ} {g : ℝ → ℝ} (fuel : ℕ) : ∀ h s, Bracket g s →
    0.01 < |s.left.x - s.right.x| → f s.tension = .val 0 → h = s.tension → s.current.y = 0 →
    ∃ s', loopOn f fuel h s = .ok s.tension s' ∧ s'.iter = s.iter + fuel ∧ s'.current.y = 0 := by
  induction fuel with
  | zero => intro h s b hc hf hh hy; subst hh; exact ⟨s, rfl, rfl, hy⟩
  | succ n ih =>
    intro h s b hc hf hh hy
    have ht := b.tension
    have hlt := b.lt
    have hp : s.place ⟨s.tension, 0⟩ = { s with current := ⟨s.tension, 0⟩, iter := s.iter + 1 } := by
      unfold ReloadSearch.place
      simp only
      rw [if_neg (by rw [ht]; linarith), if_pos ⟨by rw [ht]; linarith, by rw [ht]; linarith⟩,
        if_neg (lt_irrefl _), if_neg (lt_irrefl _)]
    obtain ⟨s', e, i, c⟩ := ih s.tension { s with current := ⟨s.tension, 0⟩, iter := s.iter + 1 }
      ⟨b.lt, b.ly, b.ry, b.lp, b.rn⟩ hc hf rfl rfl
    refine ⟨s', ?_, ?_, c⟩
    · unfold loopOn
      rw [if_pos hc, hf]
      simp only
      rw [hp]
      exact e
    · rw [i]; simp only; omega

/-- The loop between two points of opposite sign.  `P` is any property kept by halving. -/
theorem loopOn_bracket {f : ℝ → Res ℝ} {g : ℝ → ℝ} {a b : ℝ} (hf : ∀ h, a ≤ h → h ≤ b → f h = .val (g h))
    {P : ℝ → Prop} (hP : ∀ x y, P x → P y → P ((x + y) / 2)) (fuel : ℕ) :
    ∀ (m : ℕ) (h : ℝ) (s : ReloadSearch), Bracket g s → a ≤ s.left.x → s.right.x ≤ b → P s.left.x → P s.right.x →
      (h = s.left.x ∨ h = s.right.x) → s.right.x - s.left.x ≤ 0.01 * 2 ^ m → m ≤ fuel →
      ∃ h' s', loopOn f fuel h s = .ok h' s' ∧ P h' ∧ a ≤ h' ∧ h' ≤ b ∧
        ((Bracket g s' ∧ a ≤ s'.left.x ∧ s'.right.x ≤ b ∧ s'.right.x - s'.left.x ≤ 0.01 ∧
          (h' = s'.left.x ∨ h' = s'.right.x) ∧ s'.iter ≤ s.iter + m) ∨
         (g h' = 0 ∧ s'.iter = s.iter + fuel ∧ s'.current.y = 0)) := by
  induction fuel with
  | zero =>
    intro m h s B ha hb pa pb hh hm hmf
    have : m = 0 := by omega
    subst this
    have hlt := B.lt
    refine ⟨h, s, rfl, ?_, ?_, ?_, Or.inl ⟨B, ha, hb, by linarith, hh, by omega⟩⟩
    · rcases hh with rfl | rfl <;> assumption
    all_goals rcases hh with rfl | rfl <;> linarith
  | succ n ih =>
    intro m h s B ha hb pa pb hh hm hmf
    have hlt := B.lt
    have habs : |s.left.x - s.right.x| = s.right.x - s.left.x := by
      rw [abs_of_neg (by linarith)]; ring
    by_cases hc : (0.01 : ℝ) < s.right.x - s.left.x
    · have ht := B.tension
      have pt : P s.tension := by rw [ht]; exact hP _ _ pa pb
      have hm0 : m ≠ 0 := by rintro rfl; norm_num at hm; linarith
      obtain ⟨m, rfl⟩ := Nat.exists_eq_succ_of_ne_zero hm0
      have hfm := hf s.tension (by rw [ht]; linarith) (by rw [ht]; linarith)
      have hbnd : (s.right.x - s.left.x) / 2 ≤ 0.01 * 2 ^ m := by
        rw [pow_succ] at hm; linarith
      have hstep : loopOn f (n + 1) h s = loopOn f n s.tension (s.place ⟨s.tension, g s.tension⟩) := by
        rw [loopOn, if_pos (by rw [habs]; exact hc), hfm]
      rw [hstep]
      have hx1 : ¬ s.tension < s.left.x := by rw [ht]; linarith
      have hx2 : s.left.x < s.tension ∧ s.tension < s.right.x := by rw [ht]; constructor <;> linarith
      rcases lt_trichotomy (g s.tension) 0 with hy | hy | hy
      · have hp : s.place ⟨s.tension, g s.tension⟩ =
            { s with current := ⟨s.tension, g s.tension⟩, iter := s.iter + 1, right := ⟨s.tension, g s.tension⟩ } := by
          unfold ReloadSearch.place
          simp only
          rw [if_neg hx1, if_pos hx2, if_pos hy]
        rw [hp]
        obtain ⟨h', s', e, q0, q1, q2, q3⟩ := ih m s.tension _ (Bracket.mk (g := g) (s := { s with
          current := ⟨s.tension, g s.tension⟩, iter := s.iter + 1, right := ⟨s.tension, g s.tension⟩ })
          hx2.1 B.ly rfl B.lp hy) ha (by show s.tension ≤ b; linarith) pa pt (Or.inr rfl)
          (by show s.tension - s.left.x ≤ _; rw [ht]; linarith) (by omega)
        refine ⟨h', s', e, q0, q1, q2, ?_⟩
        rcases q3 with ⟨p1, p2, p3, p4, p5, p6⟩ | ⟨p1, p2, p3⟩
        · exact Or.inl ⟨p1, p2, p3, p4, p5, by simp only at p6; omega⟩
        · exact Or.inr ⟨p1, by simp only at p2; omega, p3⟩
      · have hp : s.place ⟨s.tension, g s.tension⟩ =
            { s with current := ⟨s.tension, g s.tension⟩, iter := s.iter + 1 } := by
          unfold ReloadSearch.place
          simp only
          rw [if_neg hx1, if_pos hx2, if_neg (by rw [hy]; exact lt_irrefl _), if_neg (by rw [hy]; exact lt_irrefl _)]
        rw [hp]
        obtain ⟨s', e, i, c⟩ := loopOn_stuck n s.tension { s with
          current := ⟨s.tension, g s.tension⟩, iter := s.iter + 1 } ⟨B.lt, B.ly, B.ry, B.lp, B.rn⟩
          (by show 0.01 < |s.left.x - s.right.x|; rw [habs]; exact hc) (f := f) (g := g)
          (by show f s.tension = _; rw [hfm, hy]) rfl hy
        refine ⟨s.tension, s', e, pt, by linarith, by linarith, Or.inr ⟨hy, ?_, c⟩⟩
        rw [i]; simp only; omega
      · have hp : s.place ⟨s.tension, g s.tension⟩ =
            { s with current := ⟨s.tension, g s.tension⟩, iter := s.iter + 1, left := ⟨s.tension, g s.tension⟩ } := by
          unfold ReloadSearch.place
          simp only
          rw [if_neg hx1, if_pos hx2, if_neg (by linarith), if_pos hy]
        rw [hp]
        obtain ⟨h', s', e, q0, q1, q2, q3⟩ := ih m s.tension _ (Bracket.mk (g := g) (s := { s with
          current := ⟨s.tension, g s.tension⟩, iter := s.iter + 1, left := ⟨s.tension, g s.tension⟩ })
          hx2.2 rfl B.ry hy B.rn) (by show a ≤ s.tension; linarith) hb pt pb (Or.inl rfl)
          (by show s.right.x - s.tension ≤ _; rw [ht]; linarith) (by omega)
        refine ⟨h', s', e, q0, q1, q2, ?_⟩
        rcases q3 with ⟨p1, p2, p3, p4, p5, p6⟩ | ⟨p1, p2, p3⟩
        · exact Or.inl ⟨p1, p2, p3, p4, p5, by simp only at p6; omega⟩
        · exact Or.inr ⟨p1, by simp only at p2; omega, p3⟩
    · refine ⟨h, s, ?_, ?_, ?_, ?_, Or.inl ⟨B, ha, hb, by linarith, hh, by omega⟩⟩
      · rw [loopOn, if_neg (by rw [habs]; exact hc)]
      · rcases hh with rfl | rfl <;> assumption
      · rcases hh with rfl | rfl <;> linarith
      · rcases hh with rfl | rfl <;> linarith

end Verif.CatenaryReloader
