import Verif.Props.CableReloader

/-!
# Reloading a reloaded catenary

C92: the result of a reload, reloaded to the loading it has.
-/

set_option linter.unusedSectionVars false

namespace Verif.Props
open Verif Verif.CatenaryReloader Verif.ElongationModel

/-- The tensions a search with the least tension `a` tries: the ends of the range, and the midpoints of intervals wider
than 0.01. -/
def TriedFrom (a x : ℝ) : Prop := ∃ n i : ℕ, x = a * (1 + i / 2 ^ n) ∧ (n = 0 ∨ 0.01 < a / 2 ^ (n - 1))

/-- The interval of a search after `k` halvings. -/
def Halved (a : ℝ) (k i : ℕ) (s : ReloadSearch) : Prop :=
  s.left.x = a * (1 + i / 2 ^ k) ∧ s.right.x = a * (1 + (i + 1) / 2 ^ k)

theorem halved_width {a : ℝ} {k i : ℕ} {s : ReloadSearch} (h : Halved a k i s) : s.right.x - s.left.x = a / 2 ^ k := by
  rw [h.1, h.2]; field_simp; ring

theorem halved_middle {a : ℝ} {k i : ℕ} {s : ReloadSearch} (h : Halved a k i s) :
    (s.left.x + s.right.x) / 2 = a * (1 + (2 * i + 1 : ℕ) / 2 ^ (k + 1)) := by
  rw [h.1, h.2, pow_succ]; push_cast; field_simp; ring

/-- One pass of a search between two points of opposite sign. -/
theorem loopOn_pass {f : ℝ → Res ℝ} {g : ℝ → ℝ} {a : ℝ} {k i n : ℕ} {h : ℝ} {s : ReloadSearch} (B : Bracket g s)
    (H : Halved a k i s) (hc : 0.01 < a / 2 ^ k) (hf : f s.tension = .val (g s.tension)) :
    ∃ s1, loopOn f (n + 1) h s = loopOn f n s.tension s1 ∧ s1.iter = s.iter + 1 ∧
      (g s.tension < 0 ∧ Bracket g s1 ∧ Halved a (k + 1) (2 * i) s1 ∨
       0 < g s.tension ∧ Bracket g s1 ∧ Halved a (k + 1) (2 * i + 1) s1 ∨
       g s.tension = 0 ∧ s1 = { s with current := ⟨s.tension, g s.tension⟩, iter := s.iter + 1 }) := by
  have hlt := B.lt
  have ht := B.tension
  have hw := halved_width H
  have hm := halved_middle H
  have habs : |s.left.x - s.right.x| = s.right.x - s.left.x := by
    rw [abs_of_neg (by linarith)]; ring
  have hx1 : ¬ s.tension < s.left.x := by rw [ht]; linarith
  have hx2 : s.left.x < s.tension ∧ s.tension < s.right.x := by rw [ht]; constructor <;> linarith
  refine ⟨s.place ⟨s.tension, g s.tension⟩, ?_, ?_, ?_⟩
  · rw [loopOn, if_pos (by rw [habs, hw]; exact hc), hf]
  · unfold ReloadSearch.place; simp only; split_ifs <;> rfl
  rcases lt_trichotomy (g s.tension) 0 with hy | hy | hy
  · have hp : s.place ⟨s.tension, g s.tension⟩ =
        { s with current := ⟨s.tension, g s.tension⟩, iter := s.iter + 1, right := ⟨s.tension, g s.tension⟩ } := by
      unfold ReloadSearch.place
      simp only
      rw [if_neg hx1, if_pos hx2, if_pos hy]
    rw [hp]
    refine Or.inl ⟨hy, ⟨hx2.1, B.ly, rfl, B.lp, hy⟩, ?_, ?_⟩
    · show s.left.x = _
      rw [H.1, pow_succ]; push_cast; field_simp
    · show s.tension = _
      rw [ht, hm]; push_cast; ring
  · have hp : s.place ⟨s.tension, g s.tension⟩ =
        { s with current := ⟨s.tension, g s.tension⟩, iter := s.iter + 1 } := by
      unfold ReloadSearch.place
      simp only
      rw [if_neg hx1, if_pos hx2, if_neg (by rw [hy]; exact lt_irrefl _), if_neg (by rw [hy]; exact lt_irrefl _)]
    exact Or.inr (Or.inr ⟨hy, hp⟩)
  · have hp : s.place ⟨s.tension, g s.tension⟩ =
        { s with current := ⟨s.tension, g s.tension⟩, iter := s.iter + 1, left := ⟨s.tension, g s.tension⟩ } := by
      unfold ReloadSearch.place
      simp only
      rw [if_neg hx1, if_pos hx2, if_neg (by linarith), if_pos hy]
    rw [hp]
    refine Or.inr (Or.inl ⟨hy, ⟨hx2.2, rfl, B.ry, hy, B.rn⟩, ?_, ?_⟩)
    · show s.tension = _
      rw [ht, hm]
    · show s.right.x = _
      rw [H.2, pow_succ]; push_cast; field_simp; ring

/-- A search ends at a tension it has tried. -/
theorem loopOn_tried {f : ℝ → Res ℝ} {g : ℝ → ℝ} {a : ℝ} (hf : ∀ h, a ≤ h → h ≤ 2 * a → f h = .val (g h)) (fuel : ℕ) :
    ∀ (k i : ℕ) (h : ℝ) (s : ReloadSearch), Bracket g s → Halved a k i s → a ≤ s.left.x → s.right.x ≤ 2 * a →
      TriedFrom a h → ∀ h' s', loopOn f fuel h s = .ok h' s' → TriedFrom a h' := by
  induction fuel with
  | zero => intro k i h s B H ha hb hh h' s' e; cases e; exact hh
  | succ n ih =>
    intro k i h s B H ha hb hh h' s' e
    have hlt := B.lt
    have ht := B.tension
    have hw := halved_width H
    by_cases hc : 0.01 < a / 2 ^ k
    · have htr : TriedFrom a s.tension := ⟨k + 1, 2 * i + 1, by rw [ht, halved_middle H], Or.inr hc⟩
      have hfm := hf s.tension (by rw [ht]; linarith) (by rw [ht]; linarith)
      obtain ⟨s1, e1, -, h1⟩ := loopOn_pass (n := n) (h := h) B H hc hfm
      rw [e1] at e
      rcases h1 with ⟨hy, B1, H1⟩ | ⟨hy, B1, H1⟩ | ⟨hy, rfl⟩
      · exact ih _ _ _ _ B1 H1 (by rw [H1.1]; rw [H.1] at ha; convert ha using 2; rw [pow_succ]; push_cast; field_simp)
          (by have := halved_middle H
              rw [H1.2]
              push_cast at this ⊢
              rw [← this]
              linarith) htr _ _ e
      · exact ih _ _ _ _ B1 H1 (by rw [H1.1, ← halved_middle H]; linarith)
          (by have h2 := hb
              rw [H.2] at h2
              rw [H1.2]
              convert h2 using 2
              rw [pow_succ]; push_cast; field_simp; ring) htr _ _ e
      · exact ih k i _ { s with current := ⟨s.tension, g s.tension⟩, iter := s.iter + 1 } ⟨B.lt, B.ly, B.ry, B.lp, B.rn⟩ H ha
          hb htr _ _ e
    · have habs : |s.left.x - s.right.x| = s.right.x - s.left.x := by
        rw [abs_of_neg (by linarith)]; ring
      rw [loopOn, if_neg (by rw [habs, hw]; exact hc)] at e
      cases e
      exact hh

/-- A search for a tension that it tries meets it and does not come to an end. -/
theorem loopOn_meets {f : ℝ → Res ℝ} {g : ℝ → ℝ} {a x : ℝ} (a0 : 0 < a)
    (hf : ∀ h, a ≤ h → h ≤ 2 * a → f h = .val (g h)) (hx : g x = 0)
    (hl : ∀ h, a ≤ h → h < x → 0 < g h) (hr : ∀ h, x < h → h ≤ 2 * a → g h < 0)
    {n j : ℕ} (hj : x = a * (1 + j / 2 ^ n)) (hn : n = 0 ∨ 0.01 < a / 2 ^ (n - 1)) (d : ℕ) :
    ∀ (k i fuel : ℕ) (h : ℝ) (s : ReloadSearch), n ≤ k + d → d < fuel → Bracket g s → Halved a k i s → a ≤ s.left.x →
      s.right.x ≤ 2 * a → s.left.x < x → x < s.right.x →
      ∃ s', loopOn f fuel h s = .ok x s' ∧ s'.iter = s.iter + fuel := by
  have key : ∀ (k i : ℕ) (s : ReloadSearch), Halved a k i s → s.left.x < x → x < s.right.x → k < n := by
    intro k i s H h1 h2
    by_contra hk
    obtain ⟨m, rfl⟩ := Nat.exists_eq_add_of_le (not_lt.1 hk)
    rw [H.1, hj] at h1
    rw [H.2, hj] at h2
    have h1 := lt_of_mul_lt_mul_left h1 a0.le
    have h2 := lt_of_mul_lt_mul_left h2 a0.le
    have e : (j:ℝ) / 2 ^ n = (j * 2 ^ m : ℕ) / 2 ^ (n + m) := by rw [pow_add]; push_cast; field_simp
    rw [e] at h1 h2
    have p : (0:ℝ) < 2 ^ (n + m) := by positivity
    have h1 : (i:ℝ) / 2 ^ (n + m) < (j * 2 ^ m : ℕ) / 2 ^ (n + m) := by linarith
    have h2 : ((j * 2 ^ m : ℕ) : ℝ) / 2 ^ (n + m) < ((i + 1 : ℕ) : ℝ) / 2 ^ (n + m) := by push_cast at h2 ⊢; linarith
    have h1 := (div_lt_div_iff_of_pos_right p).1 h1
    have h2 := (div_lt_div_iff_of_pos_right p).1 h2
    have h1 : i < j * 2 ^ m := by exact_mod_cast h1
    have h2 : j * 2 ^ m < i + 1 := by exact_mod_cast h2
    omega
  induction d with
  | zero =>
    intro k i fuel h s hk _ B H _ _ h1 h2
    have := key k i s H h1 h2
    omega
  | succ d ih =>
    intro k i fuel h s hk hfu B H ha hb h1 h2
    have hkn := key k i s H h1 h2
    obtain ⟨fuel, rfl⟩ := Nat.exists_eq_succ_of_ne_zero (show fuel ≠ 0 by omega)
    have hlt := B.lt
    have ht := B.tension
    have hw := halved_width H
    have hc : 0.01 < a / 2 ^ k := by
      rcases hn with hn | hn
      · omega
      · refine lt_of_lt_of_le hn (div_le_div_of_nonneg_left a0.le (by positivity) ?_)
        exact pow_le_pow_right₀ (by norm_num) (by omega)
    have t1 : a ≤ s.tension := by rw [ht]; linarith
    have t2 : s.tension ≤ 2 * a := by rw [ht]; linarith
    have hfm := hf s.tension t1 t2
    obtain ⟨s1, e1, e2, h3⟩ := loopOn_pass (n := fuel) (h := h) B H hc hfm
    rw [e1]
    rcases lt_trichotomy s.tension x with hy | hy | hy
    · have hp := hl _ t1 hy
      rcases h3 with ⟨h3, -⟩ | ⟨-, B1, H1⟩ | ⟨h3, -⟩
      · linarith
      · have l1 : s1.left.x = s.tension := by rw [H1.1, ht, halved_middle H]
        have r1 : s1.right.x = s.right.x := by rw [H1.2, H.2, pow_succ]; push_cast; field_simp; ring
        obtain ⟨s', q1, q2⟩ := ih (k + 1) (2 * i + 1) fuel s.tension s1 (by omega) (by omega) B1 H1
          (by rw [l1]; exact t1) (by rw [r1]; exact hb) (by rw [l1]; exact hy) (by rw [r1]; exact h2)
        exact ⟨s', q1, by rw [q2, e2]; omega⟩
      · linarith
    · have h0 : g s.tension = 0 := by rw [hy]; exact hx
      rcases h3 with ⟨h3, -⟩ | ⟨h3, -⟩ | ⟨-, rfl⟩
      · linarith
      · linarith
      · have habs : |s.left.x - s.right.x| = s.right.x - s.left.x := by
          rw [abs_of_neg (by linarith)]; ring
        obtain ⟨s', q1, q2, -⟩ := loopOn_stuck (f := f) (g := g) fuel s.tension
          { s with current := ⟨s.tension, g s.tension⟩, iter := s.iter + 1 } ⟨B.lt, B.ly, B.ry, B.lp, B.rn⟩
          (by show 0.01 < |s.left.x - s.right.x|; rw [habs, hw]; exact hc)
          (by show f s.tension = _; rw [hfm, h0]) rfl h0
        refine ⟨s', ?_, by rw [q2]; simp only; omega⟩
        rw [← hy]
        exact q1
    · have hp := hr _ hy t2
      rcases h3 with ⟨-, B1, H1⟩ | ⟨h3, -⟩ | ⟨h3, -⟩
      · have l1 : s1.left.x = s.left.x := by rw [H1.1, H.1, pow_succ]; push_cast; field_simp
        have r1 : s1.right.x = s.tension := by rw [H1.2, ht, halved_middle H]; push_cast; ring
        obtain ⟨s', q1, q2⟩ := ih (k + 1) (2 * i) fuel s.tension s1 (by omega) (by omega) B1 H1
          (by rw [l1]; exact ha) (by rw [r1]; exact t2) (by rw [l1]; exact h1) (by rw [r1]; exact hy)
        exact ⟨s', q1, by rw [q2, e2]; omega⟩
      · linarith
      · linarith

/-- A reload gives a tension that its search has tried. -/
theorem reload_tried {r r' : CatenaryReloader} {k : Catenary3d} {w : V3} (hk : r.catenary = some k)
    (hw : r.weight = some w) (hu : r.isUpdated = false) {g : ℝ → ℝ}
    (hg : ∀ h, k.spacing.magnitude / 2 * w.magnitude ≤ h → h ≤ 2 * (k.spacing.magnitude / 2 * w.magnitude) →
      gap k r.modelReference r.modelReloaded w h = .val (g h))
    (h0 : 0 < k.spacing.magnitude / 2 * w.magnitude)
    (hl : 0 < g (k.spacing.magnitude / 2 * w.magnitude))
    (hr : g (2 * (k.spacing.magnitude / 2 * w.magnitude)) < 0) {b : Bool} (h : r.update = .ok r' b) :
    TriedFrom (k.spacing.magnitude / 2 * w.magnitude) r'.catenaryReloaded.tensionHorizontal := by
  obtain ⟨x, hf, hc, -⟩ := update_found hk hw hu h
  rw [hc, trial_tension]
  unfold CatenaryReloader.found searchOn at hf
  have ex : tensionLeast k w = k.spacing.magnitude / 2 * w.magnitude := rfl
  rw [ex] at hf
  set a := k.spacing.magnitude / 2 * w.magnitude
  rw [hg a (le_refl _) (by linarith), hg (2 * a) (by linarith) (le_refl _)] at hf
  simp only at hf
  cases h3 : loopOn (gap k r.modelReference r.modelReloaded w) 100 (2 * a)
      ⟨⟨a, g a⟩, ⟨2 * a, g (2 * a)⟩, ⟨-999999, -999999⟩, 0⟩ with
  | ok h' s =>
    rw [h3] at hf
    simp only [Outcome.ok.injEq] at hf
    rw [← hf.1]
    exact loopOn_tried hg 100 0 0 _ _ ⟨by show a < 2 * a; linarith, rfl, rfl, hl, hr⟩
      ⟨by simp, by simp; ring⟩ (le_refl _) (le_refl _) ⟨0, 1, by simp; ring, Or.inl rfl⟩ _ _ h3
  | throws h' => rw [h3] at hf; cases hf
  | ub => rw [h3] at hf; cases hf

/-- A reload whose tension is one that its search tries reports failure. -/
theorem reload_meets {r : CatenaryReloader} {k : Catenary3d} {w : V3} (hk : r.catenary = some k)
    (hw : r.weight = some w) (hu : r.isUpdated = false) {g : ℝ → ℝ}
    (hg : ∀ h, k.spacing.magnitude / 2 * w.magnitude ≤ h → h ≤ 2 * (k.spacing.magnitude / 2 * w.magnitude) →
      gap k r.modelReference r.modelReloaded w h = .val (g h))
    (h1 : k.spacing.magnitude / 2 * w.magnitude ≤ 2 ^ 90) {x : ℝ}
    (hx : TriedFrom (k.spacing.magnitude / 2 * w.magnitude) x) (h0 : g x = 0)
    (h2 : k.spacing.magnitude / 2 * w.magnitude < x) (h3 : x < 2 * (k.spacing.magnitude / 2 * w.magnitude))
    (hl : ∀ h, k.spacing.magnitude / 2 * w.magnitude ≤ h → h < x → 0 < g h)
    (hr : ∀ h, x < h → h ≤ 2 * (k.spacing.magnitude / 2 * w.magnitude) → g h < 0) :
    ∃ r', r.update = .ok r' false ∧ r'.catenaryReloaded.tensionHorizontal = x ∧
      r.tensionHorizontal = .ok r' (-999999) := by
  have ex : tensionLeast k w = k.spacing.magnitude / 2 * w.magnitude := rfl
  set a := k.spacing.magnitude / 2 * w.magnitude
  have a0 : 0 < a := by linarith
  obtain ⟨n, j, hj, hn⟩ := hx
  have hn97 : n ≤ 98 := by
    rcases hn with hn | hn
    · omega
    · by_contra hc
      have p : (0:ℝ) < 2 ^ (n - 1) := by positivity
      rw [lt_div_iff₀ p] at hn
      have : (2:ℝ) ^ 98 ≤ 2 ^ (n - 1) := pow_le_pow_right₀ (by norm_num) (by omega)
      norm_num at hn this h1
      linarith
  obtain ⟨s', e1, e2⟩ := loopOn_meets a0 hg h0 hl hr hj hn n 0 0 100 (2 * a)
    ⟨⟨a, g a⟩, ⟨2 * a, g (2 * a)⟩, ⟨-999999, -999999⟩, 0⟩ (by omega) (by omega)
    ⟨by show a < 2 * a; linarith, rfl, rfl, hl a (le_refl _) h2, hr _ h3 (le_refl _)⟩ ⟨by simp, by simp; ring⟩
    (le_refl _) (le_refl _) h2 h3
  have hfound : r.found k w = .ok x false := by
    unfold CatenaryReloader.found searchOn
    rw [ex, hg a (le_refl _) (by linarith), hg (2 * a) (by linarith) (le_refl _)]
    simp only
    rw [e1]
    simp only [e2]
    norm_num
  have hupd : r.update = .ok { r.trying k w x with isUpdated := false } false := by
    unfold CatenaryReloader.update
    rw [if_neg (by rw [hu]; decide), solve_eq hk hw, hfound]
    rfl
  refine ⟨_, hupd, rfl, ?_⟩
  unfold CatenaryReloader.tensionHorizontal
  rw [hupd]

/-- C92 is false of every result of a reload.  Let a reload to a unit load succeed, the catenary being the longer one at the
least tension and the cable at twice that.  Let another reloader take the result to the unit load it has, with the same
cable model before and after, where the difference of the lengths decreases.  It finds the tension it started from, and
reports failure. -/
theorem C92_reloaded_fails {r r' q : CatenaryReloader} {k : Catenary3d} {w : V3} (hk : r.catenary = some k)
    (hw : r.weight = some w) (hu : r.isUpdated = false) {g : ℝ → ℝ}
    (hg : ∀ h, k.spacing.magnitude / 2 * w.magnitude ≤ h → h ≤ 2 * (k.spacing.magnitude / 2 * w.magnitude) →
      gap k r.modelReference r.modelReloaded w h = .val (g h))
    (h1 : k.spacing.magnitude / 2 * w.magnitude ≤ 2 ^ 90)
    (hl : 0 < g (k.spacing.magnitude / 2 * w.magnitude))
    (hr : g (2 * (k.spacing.magnitude / 2 * w.magnitude)) < 0) (h : r.update = .ok r' true)
    (hq : q.catenary = some r'.catenaryReloaded) (hqw : q.weight = some w) (hqu : q.isUpdated = false)
    (hqm : q.modelReloaded = q.modelReference) {g' : ℝ → ℝ}
    (hg' : ∀ h, k.spacing.magnitude / 2 * w.magnitude ≤ h → h ≤ 2 * (k.spacing.magnitude / 2 * w.magnitude) →
      gap r'.catenaryReloaded q.modelReference q.modelReloaded w h = .val (g' h))
    (ha : ∀ h h', k.spacing.magnitude / 2 * w.magnitude ≤ h → h < h' →
      h' ≤ 2 * (k.spacing.magnitude / 2 * w.magnitude) → g' h' < g' h)
    (h2 : k.spacing.magnitude / 2 * w.magnitude < r'.catenaryReloaded.tensionHorizontal)
    (h3 : r'.catenaryReloaded.tensionHorizontal < 2 * (k.spacing.magnitude / 2 * w.magnitude)) :
    ∃ q', q.update = .ok q' false ∧
      q'.catenaryReloaded.tensionHorizontal = r'.catenaryReloaded.tensionHorizontal ∧
      q.tensionHorizontal = .ok q' (-999999) := by
  have hT := reload_tried hk hw hu hg (by linarith) hl hr h
  obtain ⟨x, -, hc, -⟩ := update_found hk hw hu h
  have es : r'.catenaryReloaded.spacing = k.spacing := by rw [hc]; rfl
  have ew : r'.catenaryReloaded.weightUnit = w := by rw [hc]; rfl
  have R : r'.catenaryReloaded.Reachable := by
    rw [hc]
    exact ⟨[.setSpacing k.spacing, .setTension x, .setWeight w], rfl⟩
  have hz : g' r'.catenaryReloaded.tensionHorizontal = 0 := by
    have := hg' _ h2.le h3.le
    rw [hqm] at this
    rw [← ew] at this
    exact gap_self R this
  refine reload_meets hq hqw hqu (g := g') ?_ ?_ ?_ hz ?_ ?_ ?_ ?_ <;> rw [es]
  · exact hg'
  · exact h1
  · exact hT
  · exact h2
  · exact h3
  · intro y y1 y2
    have := ha y _ y1 y2 h3.le
    linarith
  · intro y y1 y2
    have := ha _ y h2.le y1 y2
    linarith

/-- A level span under the load 1 with a tension that a search for it tries cannot be reloaded to the load 1. -/
theorem level_meets {r : CatenaryReloader} {x : ℝ} (hk : r.catenary = some (levelSpan 100 1 x))
    (hw : r.weight = some ⟨0, 0, 1⟩) (hu : r.isUpdated = false) (hm : HookeLike 1000000 r.modelReference)
    (hn : HookeLike 1000000 r.modelReloaded) (hx : TriedFrom 50 x) (h1 : 50 < x) (h2 : x < 100) :
    ∃ r', r.update = .ok r' false := by
  have e := level_magnitudes (s := 100) (v := 1) (by norm_num) (by norm_num) 1 x
  have e' : (100:ℝ) / 2 * 1 = 50 := by norm_num
  rw [e'] at e
  have ha : ∀ h h', 50 ≤ h → h < h' → levelGap 1000000 100 1 x 1 h' < levelGap 1000000 100 1 x 1 h := fun h h' q1 q2 =>
    level_gap_anti (by norm_num) (by norm_num) (by norm_num) (by linarith) (by norm_num) (by linarith) q2
  have h0 : levelGap 1000000 100 1 x 1 x = 0 := level_gap_self
  have := reload_meets hk hw hu (g := levelGap 1000000 100 1 x 1) (x := x) (by
      rw [e]
      intro h q1 q2
      exact level_gap_like hm hn (by norm_num) (by norm_num) (by linarith) (by norm_num) (by linarith)
        (by norm_num; linarith) (by norm_num at q2 ⊢; linarith)) (by rw [e]; norm_num) (by rw [e]; exact hx) h0
    (by rw [e]; exact h1) (by rw [e]; linarith)
    (fun h q1 q2 => by
      rw [e] at q1
      have := ha _ _ q1 q2
      linarith)
    (fun h q1 q2 => by
      have := ha _ _ h1.le q1
      linarith)
  obtain ⟨r', q, -⟩ := this
  exact ⟨r', q⟩

/-- A level span of 100 under the load 1 with the tension 70 can be reloaded to the load 1, and the result cannot. -/
example : ∃ r r' : CatenaryReloader, r.update = .ok r' true ∧ r.catenary = some (levelSpan 100 1 70) ∧
    |r'.catenaryReloaded.tensionHorizontal - 70| ≤ 0.01 ∧
    ∃ q q' : CatenaryReloader, q.catenary = some r'.catenaryReloaded ∧ q.weight = some r'.catenaryReloaded.weightUnit ∧
      q.modelReference = r.modelReference ∧ q.modelReloaded = r.modelReloaded ∧
      q.tensionHorizontal = .ok q' (-999999) := by
  have hm : HookeLike 1000000 (some (hookeModel 1000000)) := fun _ => hooke_strain (by norm_num)
  have e := level_magnitudes (s := 100) (v := 1) (by norm_num) (by norm_num) 1 70
  have e' : (100:ℝ) / 2 * 1 = 50 := by norm_num
  rw [e'] at e
  obtain ⟨r', h1, h2⟩ := level_reloads (r := levelReloader 1000000 100 1 70 1) rfl rfl rfl hm hm
  have h3 := abs_le.1 h2
  norm_num at h3
  have ha : ∀ y h h', 50 ≤ y → 50 ≤ h → h < h' → levelGap 1000000 100 1 y 1 h' < levelGap 1000000 100 1 y 1 h :=
    fun y h h' q0 q1 q2 =>
      level_gap_anti (by norm_num) (by norm_num) (by norm_num) (by linarith) (by norm_num) (by linarith) q2
  have hg : ∀ y h, 50 ≤ y → y ≤ 100 → 50 ≤ h → h ≤ 100 → gap (levelSpan 100 1 y) (some (hookeModel 1000000))
      (some (hookeModel 1000000)) ⟨0, 0, 1⟩ h = .val (levelGap 1000000 100 1 y 1 h) := fun y h q1 q2 q3 q4 =>
    level_gap_like hm hm (by norm_num) (by norm_num) (by linarith) (by norm_num) (by linarith)
        (by norm_num; linarith) (by norm_num; linarith)
  have h70 : levelGap 1000000 100 1 70 1 70 = 0 := level_gap_self
  obtain ⟨x, -, hc, -⟩ := update_found (r := levelReloader 1000000 100 1 70 1) rfl rfl rfl h1
  rw [level_trial] at hc
  have hx : r'.catenaryReloaded.tensionHorizontal = x := by rw [hc]; rfl
  rw [hx] at h3
  obtain ⟨q', f1, -, f3⟩ := C92_reloaded_fails (r := levelReloader 1000000 100 1 70 1) (r' := r')
    (q := ⟨some r'.catenaryReloaded, some (hookeModel 1000000), some (hookeModel 1000000), some ⟨0, 0, 1⟩, .new, .new,
      false⟩) rfl rfl rfl (g := levelGap 1000000 100 1 70 1)
    (by rw [e]; intro h q1 q2; exact hg 70 h (by norm_num) (by norm_num) q1 (by linarith)) (by rw [e]; norm_num)
    (by rw [e]; have := ha 70 50 70 (by norm_num) (le_refl _) (by norm_num); linarith)
    (by rw [e]; have := ha 70 70 (2 * 50) (by norm_num) (by norm_num) (by norm_num); linarith) h1 rfl rfl rfl rfl
    (g' := levelGap 1000000 100 1 x 1)
    (by rw [e, hc]; intro h q1 q2; exact hg x h (by linarith) (by linarith) q1 (by linarith))
    (by rw [e]; intro h h' q1 q2 _; exact ha x h h' (by linarith) q1 q2) (by rw [e, hx]; linarith)
    (by rw [e, hx]; linarith)
  exact ⟨_, r', h1, rfl, h2, ⟨some r'.catenaryReloaded, some (hookeModel 1000000), some (hookeModel 1000000),
    some ⟨0, 0, 1⟩, .new, .new, false⟩, q', rfl, by rw [hc]; rfl, rfl, rfl, f3⟩
