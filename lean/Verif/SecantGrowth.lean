import Verif.GrowthLemmas

/-! # Convergence of the secant loop from far away -/

set_option linter.unusedSectionVars false

namespace Verif

section
variable {f σ : ℝ → ℝ} {x0 : ℝ}

/-- A decreasing strictly convex function whose target is reached right of the starting interval: the loop succeeds if
some relation between the iteration number and the interval is kept by the steps and makes the interval narrow by the
99th iteration. -/
theorem secantSolve_dec_meets {F : Catenary3d → Prop} {g : Probe} (A : Answers F g f x0)
    (S : ∀ x y, x0 ≤ x → x0 ≤ y → x ≠ y → f x + σ x * (y - x) < f y) (neg : ∀ x, x0 ≤ x → σ x < 0)
    {right r : ℝ} (hx : x0 < right) (hr : right < r) (J : ℕ → ℝ → ℝ → Prop) (j0 : J 0 x0 right)
    (js : ∀ i a b x, i < 99 → x0 ≤ a → a < b → b < x → x < r → J i a b →
      (f a - f b) * (x - b) = (f b - f r) * (b - a) → J (i + 1) b x)
    (jn : ∀ a b, x0 ≤ a → a < b → b < r → J 99 a b → b - a ≤ 0.01)
    (hwide : 0.01 < right - x0) (k : Catenary3d) (hk : F k) :
    (secantSolve g (f r) ⟨x0, f x0⟩ ⟨right, f right⟩ k).1 = true ∧
    F (secantSolve g (f r) ⟨x0, f x0⟩ ⟨right, f right⟩ k).2 ∧
    x0 ≤ (secantSolve g (f r) ⟨x0, f x0⟩ ⟨right, f right⟩ k).2.tensionHorizontal := by
  have S' : Supported f σ x0 := by
    intro x y hx hy
    by_cases h : x = y
    · rw [h]; simp
    · exact (S x y hx hy h).le
  have anti : ∀ x y, x0 ≤ x → x < y → f y < f x := by
    intro x y hx hxy
    have := (supported_slopes S' hx hxy).2
    have := mul_neg_of_neg_of_pos (neg y (by linarith)) (by linarith : 0 < y - x)
    linarith
  let I : SecantState → Prop := fun s =>
    x0 ≤ s.left.x ∧ s.left.x < s.right.x ∧ s.right.x < r ∧ s.left.y = f s.left.x ∧
      s.right.y = f s.right.x ∧ J s.iter s.left.x s.right.x ∧ s.iter ≤ 99 ∧
      ((s.left.x = x0 ∧ s.right.x = right) ∨ s.current.x = s.right.x)
  have step : ∀ s, I s → 0.01 < |s.left.x - s.right.x| →
      x0 ≤ s.next (f r) ∧ I (s.advance (f r) ⟨s.next (f r), f (s.next (f r))⟩) := by
    rintro s ⟨l0, lr, rr, ly, ry, hj, hit, _⟩ hw
    have hit' : s.iter < 99 := by
      by_contra h
      have e : s.iter = 99 := by omega
      rw [e] at hj
      have := jn _ _ l0 lr rr hj
      rw [abs_of_neg (by linarith)] at hw
      linarith
    have hd : 0 < s.right.x - s.left.x := by linarith
    obtain ⟨m, hm⟩ : ∃ m, s.right.y - s.left.y = m * (s.right.x - s.left.x) :=
      ⟨(s.right.y - s.left.y) / (s.right.x - s.left.x), by field_simp⟩
    obtain ⟨b1, b2⟩ := supported_slopes S' l0 lr
    rw [← ly, ← ry, hm] at b1 b2
    have m2 : m ≤ σ s.right.x := le_of_mul_le_mul_right b2 hd
    have mneg : m < 0 := lt_of_le_of_lt m2 (neg _ (by linarith))
    have hnx := next_line s (f r) m lr hm mneg.ne
    set x := s.next (f r) with hxd
    have hch : s.right.y + m * (x - s.right.x) = f r := by linarith
    have a1 := anti s.right.x r (by linarith) rr
    have xr : s.right.x < x := by
      by_contra h
      have : 0 ≤ m * (x - s.right.x) := mul_nonneg_of_nonpos_of_nonpos mneg.le (by linarith)
      linarith
    have x0x : x0 ≤ x := by linarith
    have xlt : x < r := by
      by_contra h
      have h1 := S s.right.x x (by linarith) x0x (by linarith)
      have h2 := mul_le_mul_of_nonneg_right m2 (by linarith : 0 ≤ x - s.right.x)
      have h3 : f r < f x := by linarith
      rcases eq_or_lt_of_le (not_lt.1 h) with h | h
      · rw [h] at h3; exact lt_irrefl _ h3
      · have := anti r x (by linarith) h
        linarith
    refine ⟨x0x, ?_⟩
    unfold SecantState.advance
    simp only [not_lt.2 (by linarith : s.left.x ≤ x), if_false, not_lt.2 xr.le, and_false, xr, if_true]
    refine ⟨by simp only; linarith, xr, xlt, ry, rfl, ?_, by simp only; omega, Or.inr rfl⟩
    refine js s.iter _ _ _ hit' l0 lr xr xlt hj ?_
    rw [← ly, ← ry]
    have e1 : s.left.y - s.right.y = -m * (s.right.x - s.left.x) := by linarith
    have e2 : s.right.y - f r = -m * (x - s.right.x) := by linarith
    rw [e1, e2]
    ring
  have hI : I ⟨⟨x0, f x0⟩, ⟨right, f right⟩, ⟨-999999, -999999⟩, 0⟩ :=
    ⟨le_refl _, hx, hr, rfl, rfl, j0, by simp, Or.inl ⟨rfl, rfl⟩⟩
  unfold secantSolve
  simp only
  obtain ⟨⟨h1, h2, _, _, _, _, h, hcur⟩, hF⟩ := secantLoop_inv A (f r) I step 101 _ k hI hk
  have hex := secantLoop_exit g (f r) 101 ⟨⟨x0, f x0⟩, ⟨right, f right⟩, ⟨-999999, -999999⟩, 0⟩ k (by omega)
  rw [if_pos (by omega)]
  refine ⟨rfl, A.set _ hF _, ?_⟩
  rcases hcur with ⟨c1, c2⟩ | hcur
  · exfalso
    apply hex
    rw [c1, c2, abs_of_neg (by linarith)]
    linarith
  · show x0 ≤ (SecantState.current _).x
    rw [hcur]
    linarith

end

/-! ## A lower bound of the progress -/

/-- A bound that grows by the factor `α` up to a half, then by `β` up to nine tenths, after which the distance to 1
shrinks by the factor `γ`. -/
noncomputable def climb (u α β γ : ℝ) (n1 n2 i : ℕ) : ℝ :=
  if i < n1 then u * α ^ i
  else if i < n1 + n2 then 0.5 + β * (i - n1 : ℕ)
  else 1 - 0.1 * γ ^ (i - (n1 + n2) - 1)

/-- One step of the bound. `p` is the previous point and `c` the current one. -/
theorem climb_step {u α β γ : ℝ} {n1 n2 : ℕ} (u0 : 0 < u) (α1 : 1 ≤ α) (g0 : 0 ≤ γ) (g1 : γ ≤ 1)
    (hn : 0 < n2) (a1 : u * α ^ (n1 - 1) ≤ 0.5) (a2 : 0.5 ≤ u * α ^ n1) (b0 : 0 ≤ β) (b1 : 0.5 + β * (n2 - 1 : ℕ) ≤ 0.9)
    (b2 : 0.9 ≤ 0.5 + β * n2) {i : ℕ} {p c d : ℝ} (hp : 1 ≤ i → climb u α β γ n1 n2 (i - 1) ≤ p)
    (hc : climb u α β γ n1 n2 i ≤ c) (hcd : c ≤ d)
    (s1 : c < 0.5 → α * c ≤ d) (s2 : 0.5 ≤ c → c < 0.9 → c + β ≤ d)
    (s3 : 0.9 ≤ p → 0.9 ≤ c → 1 - d ≤ γ * (1 - c)) : climb u α β γ n1 n2 (i + 1) ≤ d := by
  have half : ∀ i, i < n1 → u * α ^ i ≤ 0.5 := by
    intro i hi
    refine le_trans (mul_le_mul_of_nonneg_left (pow_le_pow_right₀ α1 (by omega : i ≤ n1 - 1)) u0.le) a1
  have nine : ∀ i, n1 ≤ i → i < n1 + n2 → 0.5 + β * (i - n1 : ℕ) ≤ 0.9 := by
    intro i h1 h2
    have : ((i - n1 : ℕ) : ℝ) ≤ ((n2 - 1 : ℕ) : ℝ) := by exact_mod_cast (by omega : i - n1 ≤ n2 - 1)
    nlinarith
  have pow1 : ∀ k : ℕ, γ ^ k ≤ 1 := fun k => pow_le_one₀ g0 g1
  by_cases h1 : i + 1 < n1
  · have hi : i < n1 := by omega
    unfold climb at hc ⊢
    rw [if_pos h1]
    rw [if_pos hi] at hc
    by_cases h : c < 0.5
    · refine le_trans ?_ (s1 h)
      rw [pow_succ]
      have := mul_le_mul_of_nonneg_left hc (by linarith : 0 ≤ α)
      linarith
    · have := half _ h1
      linarith
  by_cases h2 : i + 1 = n1
  · have hi : i < n1 := by omega
    have g : climb u α β γ n1 n2 (i + 1) = 0.5 := by
      unfold climb
      rw [if_neg h1, if_pos (by omega), h2]
      simp
    rw [g]
    unfold climb at hc
    rw [if_pos hi] at hc
    by_cases h : c < 0.5
    · refine le_trans (le_trans a2 ?_) (s1 h)
      rw [← h2, pow_succ]
      have := mul_le_mul_of_nonneg_left hc (by linarith : 0 ≤ α)
      linarith
    · linarith
  by_cases h3 : i + 1 < n1 + n2
  · have hi : n1 ≤ i := by omega
    have hi' : i < n1 + n2 := by omega
    unfold climb at hc ⊢
    rw [if_neg h1, if_pos h3]
    rw [if_neg (by omega), if_pos hi'] at hc
    have e : ((i + 1 - n1 : ℕ) : ℝ) = ((i - n1 : ℕ) : ℝ) + 1 := by
      rw [show i + 1 - n1 = (i - n1) + 1 by omega]; push_cast; ring
    have c0 : (0.5:ℝ) ≤ c := by
      have : 0 ≤ β * ((i - n1 : ℕ) : ℝ) := by positivity
      linarith
    by_cases h : c < 0.9
    · have := s2 c0 h
      rw [e]
      linarith
    · have := nine (i + 1) (by omega) h3
      linarith
  by_cases h4 : i + 1 = n1 + n2
  · have g : climb u α β γ n1 n2 (i + 1) = 0.9 := by
      unfold climb
      rw [if_neg h1, if_neg h3, h4]
      simp
      norm_num
    rw [g]
    have hi : n1 ≤ i := by omega
    unfold climb at hc
    rw [if_neg (by omega), if_pos (by omega)] at hc
    have c0 : (0.5:ℝ) ≤ c := by
      have : 0 ≤ β * ((i - n1 : ℕ) : ℝ) := by positivity
      linarith
    by_cases h : c < 0.9
    · have := s2 c0 h
      have e : (n2 : ℝ) = ((i - n1 : ℕ) : ℝ) + 1 := by
        rw [show n2 = (i - n1) + 1 by omega]; push_cast; ring
      rw [e] at b2
      linarith
    · linarith
  · have hi : n1 + n2 ≤ i := by omega
    have big : ∀ j, n1 + n2 ≤ j → 0.9 ≤ climb u α β γ n1 n2 j := by
      intro j hj
      unfold climb
      rw [if_neg (by omega), if_neg (by omega)]
      have := pow1 (j - (n1 + n2) - 1)
      linarith
    have c9 := le_trans (big i hi) hc
    by_cases h5 : i = n1 + n2
    · have g : climb u α β γ n1 n2 (i + 1) = 0.9 := by
        unfold climb
        rw [if_neg h1, if_neg h3, h5]
        simp
        norm_num
      rw [g]
      linarith
    · have p9 := le_trans (big (i - 1) (by omega)) (hp (by omega))
      have := s3 p9 c9
      unfold climb at hc ⊢
      rw [if_neg (by omega), if_neg (by omega)] at hc ⊢
      rw [show i + 1 - (n1 + n2) - 1 = (i - (n1 + n2) - 1) + 1 by omega, pow_succ]
      nlinarith

/-- The steps of the secant loop make the relation of `secantSolve_dec_meets`, given bounds on one step. `κ` bounds the
ratio of the ends of the interval. -/
theorem climb_meets {f : ℝ → ℝ} {x0 r κ u α β γ : ℝ} {n1 n2 : ℕ} (u0 : 0 < u) (α1 : 1 ≤ α) (g0 : 0 ≤ γ) (g1 : γ ≤ 1)
    (hn : 0 < n2) (hn1 : 0 < n1) (a1 : u * α ^ (n1 - 1) ≤ 0.5) (a2 : 0.5 ≤ u * α ^ n1) (b0 : 0 ≤ β)
    (b1 : 0.5 + β * (n2 - 1 : ℕ) ≤ 0.9) (b2 : 0.9 ≤ 0.5 + β * n2) (hN : n1 + n2 ≤ 98) (r0 : 0 < r)
    (hfast : r * (0.1 * γ ^ (98 - (n1 + n2) - 1)) ≤ 0.01) {right : ℝ} (hur : u * r ≤ right) (hκ : right ≤ κ * x0)
    (up : ∀ a b x, x0 ≤ a → a < b → b < x → x < r → b ≤ κ * a →
      (f a - f b) * (x - b) = (f b - f r) * (b - a) → x ≤ κ * b)
    (s1 : ∀ a b x, x0 ≤ a → a < b → b < x → x < r → b ≤ κ * a →
      (f a - f b) * (x - b) = (f b - f r) * (b - a) → b < 0.5 * r → α * b ≤ x)
    (s2 : ∀ a b x, x0 ≤ a → a < b → b < x → x < r → b ≤ κ * a →
      (f a - f b) * (x - b) = (f b - f r) * (b - a) → 0.5 * r ≤ b → b < 0.9 * r → b + β * r ≤ x)
    (s3 : ∀ a b x, x0 ≤ a → a < b → b < x → x < r → b ≤ κ * a →
      (f a - f b) * (x - b) = (f b - f r) * (b - a) → 0.9 * r ≤ a → r - x ≤ γ * (r - b)) :
    ∃ J : ℕ → ℝ → ℝ → Prop, J 0 x0 right ∧
      (∀ i a b x, i < 99 → x0 ≤ a → a < b → b < x → x < r → J i a b →
        (f a - f b) * (x - b) = (f b - f r) * (b - a) → J (i + 1) b x) ∧
      (∀ a b, x0 ≤ a → a < b → b < r → J 99 a b → b - a ≤ 0.01) := by
  refine ⟨fun i a b => b ≤ κ * a ∧ climb u α β γ n1 n2 i ≤ b / r ∧ (1 ≤ i → climb u α β γ n1 n2 (i - 1) ≤ a / r),
    ⟨hκ, ?_, by simp⟩, ?_, ?_⟩
  · unfold climb
    rw [if_pos hn1, pow_zero, mul_one, le_div_iff₀ r0]
    exact hur
  · rintro i a b x - h0 hab hbx hxr ⟨hb, hc, hp⟩ e
    refine ⟨up a b x h0 hab hbx hxr hb e, ?_, fun _ => by simpa using hc⟩
    refine climb_step u0 α1 g0 g1 hn a1 a2 b0 b1 b2 hp hc (div_le_div_of_nonneg_right hbx.le r0.le) ?_ ?_ ?_
    · intro h
      rw [div_lt_iff₀ r0] at h
      rw [← mul_div_assoc]
      exact div_le_div_of_nonneg_right (s1 a b x h0 hab hbx hxr hb e h) r0.le
    · intro h h'
      rw [le_div_iff₀ r0] at h
      rw [div_lt_iff₀ r0] at h'
      rw [le_div_iff₀ r0, add_mul, div_mul_cancel₀ _ r0.ne']
      exact s2 a b x h0 hab hbx hxr hb e h h'
    · intro h _
      rw [le_div_iff₀ r0] at h
      have := s3 a b x h0 hab hbx hxr hb e h
      have e1 : 1 - x / r = (r - x) / r := by field_simp
      have e2 : γ * (1 - b / r) = γ * (r - b) / r := by field_simp
      rw [e1, e2]
      exact div_le_div_of_nonneg_right this r0.le
  · rintro a b h0 hab hbr ⟨-, -, hp⟩
    have hp := hp (by norm_num)
    unfold climb at hp
    rw [if_neg (by omega), if_neg (by omega), le_div_iff₀ r0] at hp
    simp only [Nat.reduceSub] at hp
    linarith

/-! ## The steps for lengths and sags -/

/-- An inequality between differences of powers of `K/a`, `K/b`, `K/r`, in terms of `a`, `b`, `r`. -/
theorem inverse_powers {K a b r D E : ℝ} (n : ℕ) (hK : 0 < K) (ha : 0 < a) (hb : 0 < b) (hr : 0 < r) :
    (D * ((K / b) ^ n - (K / r) ^ n) ≤ E * ((K / a) ^ n - (K / b) ^ n) ↔
      D * (r ^ n - b ^ n) * a ^ n ≤ E * (b ^ n - a ^ n) * r ^ n) := by
  have p : 0 < K ^ n / (a ^ n * b ^ n * r ^ n) := by positivity
  rw [← mul_le_mul_iff_of_pos_left p (b := D * (r ^ n - b ^ n) * a ^ n)]
  have e1 : D * ((K / b) ^ n - (K / r) ^ n) = K ^ n / (a ^ n * b ^ n * r ^ n) * (D * (r ^ n - b ^ n) * a ^ n) := by
    rw [div_pow, div_pow]
    have := (pow_pos ha n).ne'
    have := (pow_pos hb n).ne'
    have := (pow_pos hr n).ne'
    field_simp
  have e2 : E * ((K / a) ^ n - (K / b) ^ n) = K ^ n / (a ^ n * b ^ n * r ^ n) * (E * (b ^ n - a ^ n) * r ^ n) := by
    rw [div_pow, div_pow]
    have := (pow_pos ha n).ne'
    have := (pow_pos hb n).ne'
    have := (pow_pos hr n).ne'
    field_simp
  rw [e1, e2]

theorem inverse_powers' {K a b r D E : ℝ} (n : ℕ) (hK : 0 < K) (ha : 0 < a) (hb : 0 < b) (hr : 0 < r) :
    (E * ((K / a) ^ n - (K / b) ^ n) ≤ D * ((K / b) ^ n - (K / r) ^ n) ↔
      E * (b ^ n - a ^ n) * r ^ n ≤ D * (r ^ n - b ^ n) * a ^ n) := by
  have := inverse_powers (D := -D) (E := -E) n hK ha hb hr
  constructor
  · intro h; linarith [this.1 (by linarith)]
  · intro h; linarith [this.2 (by linarith)]

section
variable {a b r x D E : ℝ} (ha : 0 < a) (hab : a < b) (hbx : b < x) (hxr : x < r) (hD : 0 < D)
  (e : D * (x - b) = E * (b - a))
include ha hab hbx hxr hD e

/-- A cubic lower bound of a step. -/
theorem step_cubic (h : D * (r ^ 3 - b ^ 3) * a ^ 3 ≤ E * (b ^ 3 - a ^ 3) * r ^ 3) :
    (r ^ 3 - b ^ 3) * a ^ 3 ≤ (x - b) * (a ^ 2 + a * b + b ^ 2) * r ^ 3 := by
  have : D * ((r ^ 3 - b ^ 3) * a ^ 3) ≤ D * ((x - b) * (a ^ 2 + a * b + b ^ 2) * r ^ 3) := by
    calc D * ((r ^ 3 - b ^ 3) * a ^ 3) ≤ E * (b ^ 3 - a ^ 3) * r ^ 3 := by linarith
      _ = E * (b - a) * (a ^ 2 + a * b + b ^ 2) * r ^ 3 := by ring
      _ = _ := by rw [← e]; ring
  exact le_of_mul_le_mul_left this hD

theorem step_square (h : D * (r ^ 2 - b ^ 2) * a ^ 2 ≤ E * (b ^ 2 - a ^ 2) * r ^ 2) :
    (r ^ 2 - b ^ 2) * a ^ 2 ≤ (x - b) * (a + b) * r ^ 2 := by
  have : D * ((r ^ 2 - b ^ 2) * a ^ 2) ≤ D * ((x - b) * (a + b) * r ^ 2) := by
    calc D * ((r ^ 2 - b ^ 2) * a ^ 2) ≤ E * (b ^ 2 - a ^ 2) * r ^ 2 := by linarith
      _ = E * (b - a) * (a + b) * r ^ 2 := by ring
      _ = _ := by rw [← e]; ring
  exact le_of_mul_le_mul_left this hD

theorem step_square' (h : E * (b ^ 2 - a ^ 2) * r ^ 2 ≤ D * (r ^ 2 - b ^ 2) * a ^ 2) : x ≤ 1.5 * b := by
  have h1 : D * ((x - b) * (a + b) * r ^ 2) ≤ D * ((r ^ 2 - b ^ 2) * a ^ 2) := by
    calc D * ((x - b) * (a + b) * r ^ 2) = E * (b - a) * (a + b) * r ^ 2 := by rw [← e]; ring
      _ = E * (b ^ 2 - a ^ 2) * r ^ 2 := by ring
      _ ≤ _ := by linarith
  have h2 := le_of_mul_le_mul_left h1 hD
  have r0 : 0 < r ^ 2 := by have : 0 < r := by linarith
                            positivity
  have h3 : (x - b) * (a + b) * r ^ 2 ≤ a ^ 2 * r ^ 2 := by nlinarith [sq_nonneg (a * b)]
  have h4 := le_of_mul_le_mul_right h3 r0
  nlinarith

theorem step_linear' (h : E * (b ^ 1 - a ^ 1) * r ^ 1 ≤ D * (r ^ 1 - b ^ 1) * a ^ 1) : x ≤ 2 * b := by
  simp only [pow_one] at h
  have h1 : D * ((x - b) * r) ≤ D * ((r - b) * a) := by
    calc D * ((x - b) * r) = E * (b - a) * r := by rw [← e]; ring
      _ ≤ _ := by linarith
  have h2 := le_of_mul_le_mul_left h1 hD
  have h3 : (x - b) * r ≤ a * r := by nlinarith
  have h4 := le_of_mul_le_mul_right h3 (by linarith)
  linarith

end

section
variable {a b r x : ℝ} (ha : 0 < a) (hab : a < b) (hbx : b < x) (hxr : x < r)
include ha hab hbx hxr

/-- A step in terms of `c b (1 - u³) ≤ x - b`. -/
theorem cubic_progress {c : ℝ} (h : (r ^ 3 - b ^ 3) * a ^ 3 ≤ (x - b) * (a ^ 2 + a * b + b ^ 2) * r ^ 3)
    (hc : c * b * (a ^ 2 + a * b + b ^ 2) ≤ a ^ 3) : c * b * (1 - (b / r) ^ 3) ≤ x - b := by
  have hr : 0 < r := by linarith
  have hb : 0 < b := by linarith
  have Q : 0 < a ^ 2 + a * b + b ^ 2 := by positivity
  have r3 : 0 < r ^ 3 := by positivity
  have hd : 0 ≤ r ^ 3 - b ^ 3 := sub_nonneg.2 (pow_le_pow_left₀ hb.le (by linarith) 3)
  have h1 := le_trans (mul_le_mul_of_nonneg_left hc hd) h
  have h2 : (a ^ 2 + a * b + b ^ 2) * ((r ^ 3 - b ^ 3) * (c * b)) ≤ (a ^ 2 + a * b + b ^ 2) * ((x - b) * r ^ 3) := by
    linarith
  have h3 := le_of_mul_le_mul_left h2 Q
  rw [div_pow, show c * b * (1 - b ^ 3 / r ^ 3) = (r ^ 3 - b ^ 3) * (c * b) / r ^ 3 by field_simp, div_le_iff₀ r3]
  exact h3

theorem square_progress {c : ℝ} (h : (r ^ 2 - b ^ 2) * a ^ 2 ≤ (x - b) * (a + b) * r ^ 2)
    (hc : c * b * (a + b) ≤ a ^ 2) : c * b * (1 - (b / r) ^ 2) ≤ x - b := by
  have hr : 0 < r := by linarith
  have hb : 0 < b := by linarith
  have Q : 0 < a + b := by positivity
  have r3 : 0 < r ^ 2 := by positivity
  have hd : 0 ≤ r ^ 2 - b ^ 2 := sub_nonneg.2 (pow_le_pow_left₀ hb.le (by linarith) 2)
  have h1 := le_trans (mul_le_mul_of_nonneg_left hc hd) h
  have h2 : (a + b) * ((r ^ 2 - b ^ 2) * (c * b)) ≤ (a + b) * ((x - b) * r ^ 2) := by
    linarith
  have h3 := le_of_mul_le_mul_left h2 Q
  rw [div_pow, show c * b * (1 - b ^ 2 / r ^ 2) = (r ^ 2 - b ^ 2) * (c * b) / r ^ 2 by field_simp, div_le_iff₀ r3]
  exact h3

/-- Bounds on a step for a function that is concave in the third power of the inverse. -/
theorem cubic_steps (h : (r ^ 3 - b ^ 3) * a ^ 3 ≤ (x - b) * (a ^ 2 + a * b + b ^ 2) * r ^ 3) (hk : b ≤ 1.5 * a) :
    (b < 0.5 * r → 1.1225 * b ≤ x) ∧ (0.5 * r ≤ b → b < 0.9 * r → b + 0.034 * r ≤ x) ∧
      (0.9 * r ≤ a → r - x ≤ 0.35 * (r - b)) := by
  have hr : 0 < r := by linarith
  have hb : 0 < b := by linarith
  have hbr : b = b / r * r := by field_simp
  have u1 : b / r < 1 := by rw [div_lt_one hr]; linarith
  have u0 : 0 < b / r := by positivity
  set u := b / r with hu
  clear_value u
  have slow : 0.1403 * b * (a ^ 2 + a * b + b ^ 2) ≤ a ^ 3 := by
    obtain ⟨t, ht, rfl⟩ : ∃ t, t = a / b ∧ a = t * b := ⟨a / b, rfl, by field_simp⟩
    have t0 : 2 / 3 ≤ t := by nlinarith
    have t1 : t ≤ 1 := by nlinarith
    have : 0.1403 * (t ^ 2 + t + 1) ≤ t ^ 3 := by nlinarith [sq_nonneg (t - 2/3)]
    have := mul_le_mul_of_nonneg_right this (by positivity : 0 ≤ b ^ 3)
    linarith
  have P := hu ▸ cubic_progress ha hab hbx hxr h slow
  refine ⟨fun h1 => ?_, fun h1 h2 => ?_, fun h1 => ?_⟩
  · have : u < 0.5 := by rw [hu, div_lt_iff₀ hr]; exact h1
    have : u ^ 3 ≤ 0.125 := by
      have := pow_le_pow_left₀ u0.le this.le 3
      norm_num at this ⊢
      linarith
    nlinarith
  · have a1 : 0.5 ≤ u := by rw [hu, le_div_iff₀ hr]; exact h1
    have a2 : u < 0.9 := by rw [hu, div_lt_iff₀ hr]; exact h2
    have a3 : 0.2439 ≤ u * (1 - u ^ 3) := by
      nlinarith [mul_nonneg (sub_nonneg.2 a1) (sub_nonneg.2 a2.le), sq_nonneg u, sq_nonneg (u - 0.5),
        mul_nonneg (mul_nonneg (sub_nonneg.2 a1) (sub_nonneg.2 a2.le)) u0.le,
        mul_nonneg (mul_nonneg (sub_nonneg.2 a1) (sub_nonneg.2 a2.le)) (sq_nonneg u)]
    have := mul_le_mul_of_nonneg_right a3 hr.le
    rw [hbr] at P ⊢
    nlinarith
  · have a1 : 0.9 ≤ u := by rw [hu, le_div_iff₀ hr]; linarith
    have fast : 0.2689 * b * (a ^ 2 + a * b + b ^ 2) ≤ a ^ 3 := by
      have hba : 0.9 * b ≤ a := by linarith
      obtain ⟨t, ht, rfl⟩ : ∃ t, t = a / b ∧ a = t * b := ⟨a / b, rfl, by field_simp⟩
      have t0 : 0.9 ≤ t := by nlinarith
      have t1 : t ≤ 1 := by nlinarith
      have : 0.2689 * (t ^ 2 + t + 1) ≤ t ^ 3 := by nlinarith [sq_nonneg (t - 0.9)]
      have := mul_le_mul_of_nonneg_right this (by positivity : 0 ≤ b ^ 3)
      linarith
    have P := hu ▸ cubic_progress ha hab hbx hxr h fast
    have a2 : 2.439 ≤ u * (1 + u + u ^ 2) := by nlinarith
    have a3 : 2.439 * (1 - u) ≤ u * (1 - u ^ 3) := by
      have := mul_le_mul_of_nonneg_right a2 (by linarith : 0 ≤ 1 - u)
      linarith
    have := mul_le_mul_of_nonneg_right a3 hr.le
    rw [hbr] at P ⊢
    nlinarith

/-- Bounds on a step for a function that is concave in the square of the inverse. -/
theorem square_steps (h : (r ^ 2 - b ^ 2) * a ^ 2 ≤ (x - b) * (a + b) * r ^ 2) (hk : b ≤ 2 * a) :
    (b < 0.5 * r → 1.125 * b ≤ x) ∧ (0.5 * r ≤ b → b < 0.9 * r → b + 0.0285 * r ≤ x) ∧
      (0.9 * r ≤ a → r - x ≤ 0.28 * (r - b)) := by
  have hr : 0 < r := by linarith
  have hb : 0 < b := by linarith
  have hbr : b = b / r * r := by field_simp
  have u1 : b / r < 1 := by rw [div_lt_one hr]; linarith
  have u0 : 0 < b / r := by positivity
  set u := b / r with hu
  clear_value u
  have slow : 1 / 6 * b * (a + b) ≤ a ^ 2 := by nlinarith
  have P := hu ▸ square_progress ha hab hbx hxr h slow
  refine ⟨fun h1 => ?_, fun h1 h2 => ?_, fun h1 => ?_⟩
  · have : u < 0.5 := by rw [hu, div_lt_iff₀ hr]; exact h1
    have : u ^ 2 ≤ 0.25 := by nlinarith
    nlinarith
  · have a1 : 0.5 ≤ u := by rw [hu, le_div_iff₀ hr]; exact h1
    have a2 : u < 0.9 := by rw [hu, div_lt_iff₀ hr]; exact h2
    have a3 : 0.171 ≤ u * (1 - u ^ 2) := by
      nlinarith [mul_nonneg (sub_nonneg.2 a1) (sub_nonneg.2 a2.le),
        mul_nonneg (mul_nonneg (sub_nonneg.2 a1) (sub_nonneg.2 a2.le)) u0.le]
    have := mul_le_mul_of_nonneg_right a3 hr.le
    rw [hbr] at P ⊢
    nlinarith
  · have a1 : 0.9 ≤ u := by rw [hu, le_div_iff₀ hr]; linarith
    have fast : 0.426 * b * (a + b) ≤ a ^ 2 := by
      have hba : 0.9 * b ≤ a := by linarith
      nlinarith
    have P := hu ▸ square_progress ha hab hbx hxr h fast
    have a2 : 1.71 ≤ u * (1 + u) := by nlinarith
    have a3 : 1.71 * (1 - u) ≤ u * (1 - u ^ 2) := by
      have := mul_le_mul_of_nonneg_right a2 (by linarith : 0 ≤ 1 - u)
      linarith
    have := mul_le_mul_of_nonneg_right a3 hr.le
    rw [hbr] at P ⊢
    nlinarith

end

/-! ## Lengths -/

section
open Real Growth

/-- The length in terms of `z`. -/
noncomputable def lengthAt (y X z : ℝ) : ℝ := √(y ^ 2 + X ^ 2 * (sinh z * sinh z / z ^ 2))

theorem lengthAt_deriv {y X z : ℝ} (hX : 0 < X) (hz : 0 < z) :
    HasDerivAt (lengthAt y X) (X ^ 2 * (sinh z * (z * cosh z - sinh z)) / z ^ 3 / lengthAt y X z) z := by
  have hs : 0 < sinh z := sinh_pos_iff.2 hz
  have hp : 0 < y ^ 2 + X ^ 2 * (sinh z * sinh z / z ^ 2) := by positivity
  have h1 : HasDerivAt (fun z => sinh z * sinh z / z ^ 2) (2 * (sinh z * (z * cosh z - sinh z)) / z ^ 3) z := by
    have := ((dSinh z).mul (dSinh z)).div (hasDerivAt_pow 2 z) (by positivity)
    refine HasDerivAt.congr_deriv this ?_
    rw [div_eq_div_iff (by positivity) (by positivity)]
    simp only [Nat.cast_ofNat, Nat.add_one_sub_one, pow_one, Pi.mul_apply]
    ring
  have h2 := ((h1.const_mul (X ^ 2)).const_add (y ^ 2)).sqrt hp.ne'
  refine HasDerivAt.congr_deriv h2 ?_
  have : 0 < lengthAt y X z := Real.sqrt_pos.2 hp
  unfold lengthAt at this ⊢
  field_simp

theorem lengthAt_pos {y X z : ℝ} (hX : 0 < X) (hz : 0 < z) : 0 < lengthAt y X z := by
  have hs : 0 < sinh z := sinh_pos_iff.2 hz
  exact Real.sqrt_pos.2 (by positivity)

theorem sinh_div_mono {x y : ℝ} (hx : 0 < x) (hxy : x ≤ y) : sinh x / x ≤ sinh y / y := by
  have := div_pow_mono dSinh 0 (fun z h0 => by have := cosh_over h0.le; push_cast; linarith) hx hxy
  simpa using this

theorem lengthAt_mono {Y X x y : ℝ} (hx : 0 < x) (hxy : x ≤ y) : lengthAt Y X x ≤ lengthAt Y X y := by
  refine Real.sqrt_le_sqrt ?_
  have h := sinh_div_mono hx hxy
  have h0 : 0 ≤ sinh x / x := div_nonneg (sinh_nonneg_iff.2 hx.le) hx.le
  have e : ∀ z : ℝ, sinh z * sinh z / z ^ 2 = (sinh z / z) ^ 2 := fun z => by rw [div_pow]; ring
  rw [e, e]
  have := pow_le_pow_left₀ h0 h 2
  nlinarith [sq_nonneg X, mul_le_mul_of_nonneg_left this (sq_nonneg X)]

theorem length_slope_anti {Y X x y : ℝ} (hX : 0 < X) (hx : 0 < x) (hxy : x ≤ y) (hy : y ≤ 1) :
    X ^ 2 * (sinh y * (y * cosh y - sinh y)) / y ^ 3 / lengthAt Y X y / y ^ 2 ≤
      X ^ 2 * (sinh x * (x * cosh x - sinh x)) / x ^ 3 / lengthAt Y X x / x ^ 2 := by
  have h1 := square_anti hx hxy hy
  have h2 := lengthAt_mono (Y := Y) (X := X) hx hxy
  have p1 := lengthAt_pos (y := Y) hX hx
  have y0 : 0 < y := by linarith
  have p2 := lengthAt_pos (y := Y) hX y0
  have e : ∀ z : ℝ, 0 < z → X ^ 2 * (sinh z * (z * cosh z - sinh z)) / z ^ 3 / lengthAt Y X z / z ^ 2 =
      X ^ 2 * (sinh z * (z * cosh z - sinh z) / z ^ 5) / lengthAt Y X z := by
    intro z hz
    have := lengthAt_pos (y := Y) hX hz
    field_simp
  rw [e y y0, e x hx]
  have n0 : 0 ≤ sinh x * (x * cosh x - sinh x) / x ^ 5 :=
    div_nonneg (mul_nonneg (sinh_nonneg_iff.2 hx.le) (cosh_over hx.le)) (by positivity)
  exact div_le_div₀ (by positivity) (mul_le_mul_of_nonneg_left h1 (by positivity)) p1 h2

theorem length_slope_mono {Y X x y : ℝ} (hX : 0 < X) (hx : 0 < x) (hxy : x ≤ y) :
    X ^ 2 * (sinh x * (x * cosh x - sinh x)) / x ^ 3 / lengthAt Y X x / x ^ 1 ≤
      X ^ 2 * (sinh y * (y * cosh y - sinh y)) / y ^ 3 / lengthAt Y X y / y ^ 1 := by
  have h1 := chord_mono hx hxy
  have y0 : 0 < y := by linarith
  have h2 := sinh_div_mono hx hxy
  have p1 := lengthAt_pos (y := Y) hX hx
  have p2 := lengthAt_pos (y := Y) hX y0
  have e : ∀ z : ℝ, 0 < z → X ^ 2 * (sinh z * (z * cosh z - sinh z)) / z ^ 3 / lengthAt Y X z / z ^ 1 =
      X ^ 2 * ((z * cosh z - sinh z) / z ^ 3 * (sinh z / z / lengthAt Y X z)) := by
    intro z hz
    have := lengthAt_pos (y := Y) hX hz
    field_simp
  rw [e y y0, e x hx]
  have g0 : 0 ≤ sinh x / x := div_nonneg (sinh_nonneg_iff.2 hx.le) hx.le
  have n0 : 0 ≤ (x * cosh x - sinh x) / x ^ 3 := div_nonneg (cosh_over hx.le) (by positivity)
  have h3 : sinh x / x / lengthAt Y X x ≤ sinh y / y / lengthAt Y X y := by
    rw [div_le_div_iff₀ p1 p2]
    apply le_of_sq_le_sq _ (mul_nonneg (le_trans g0 h2) p1.le)
    have sq : ∀ z : ℝ, 0 < z → lengthAt Y X z ^ 2 = Y ^ 2 + X ^ 2 * (sinh z / z) ^ 2 := by
      intro z hz
      unfold lengthAt
      have hs : 0 < sinh z := sinh_pos_iff.2 hz
      rw [Real.sq_sqrt (by positivity), div_pow]
      ring
    rw [mul_pow, mul_pow, sq y y0, sq x hx]
    have := mul_le_mul_of_nonneg_right (pow_le_pow_left₀ g0 h2 2) (sq_nonneg Y)
    nlinarith
  have := mul_le_mul h1 h3 (div_nonneg g0 p1.le) (le_trans n0 h1)
  exact mul_le_mul_of_nonneg_left this (by positivity)

/-- The sag of a level span in terms of `z`. -/
theorem sagAt_deriv {z : ℝ} (hz : 0 < z) :
    HasDerivAt (fun z => (cosh z - 1) / z) ((z * sinh z - cosh z + 1) / z ^ 2) z := by
  have := ((dCosh z).sub_const 1).div (dId z) hz.ne'
  refine HasDerivAt.congr_deriv this ?_
  ring

end

namespace Catenary3d
variable {k0 : Catenary3d} (S : k0.Span)
include S

theorem lengthFn_at {h : ℝ} (hh : 0 < h) : k0.lengthFn h =
    lengthAt k0.spacing2d.y k0.spacing2d.x (k0.spacing2d.x / 2 * k0.weightUnit.magnitude / h) := by
  have hw := S.w_pos
  have hx := S.s2_pos
  unfold lengthFn lengthAt
  have e : k0.spacing2d.x / 2 / (h / k0.weightUnit.magnitude) = k0.spacing2d.x / 2 * k0.weightUnit.magnitude / h := by
    field_simp
  rw [e]
  congr 2
  field_simp

theorem levelSag_at {h : ℝ} (hh : 0 < h) : k0.levelSag h =
    k0.spacing2d.x / 2 * ((Real.cosh (k0.spacing2d.x / 2 * k0.weightUnit.magnitude / h) - 1) /
      (k0.spacing2d.x / 2 * k0.weightUnit.magnitude / h)) := by
  have hw := S.w_pos
  have hx := S.s2_pos
  unfold levelSag
  have e : k0.spacing2d.x / 2 / (h / k0.weightUnit.magnitude) = k0.spacing2d.x / 2 * k0.weightUnit.magnitude / h := by
    field_simp
  rw [e]
  field_simp

variable {a b r : ℝ} (ha : k0.spacing.magnitude / 2 * k0.weightUnit.magnitude ≤ a) (hab : a < b) (hbr : b < r)
include ha hab hbr

theorem inverse_facts : 0 < k0.spacing2d.x / 2 * k0.weightUnit.magnitude ∧ 0 < a ∧
    0 < k0.spacing2d.x / 2 * k0.weightUnit.magnitude / r ∧
    k0.spacing2d.x / 2 * k0.weightUnit.magnitude / r < k0.spacing2d.x / 2 * k0.weightUnit.magnitude / b ∧
    k0.spacing2d.x / 2 * k0.weightUnit.magnitude / b < k0.spacing2d.x / 2 * k0.weightUnit.magnitude / a ∧
    k0.spacing2d.x / 2 * k0.weightUnit.magnitude / a ≤ 1 := by
  have hw := S.w_pos
  have hx := S.s2_pos
  have hs := S.s2_le
  have K : 0 < k0.spacing2d.x / 2 * k0.weightUnit.magnitude := by positivity
  have a0 : 0 < a := by
    have := S.s_pos
    have : 0 < k0.spacing.magnitude / 2 * k0.weightUnit.magnitude := by positivity
    linarith
  refine ⟨K, a0, div_pos K (by linarith), div_lt_div_of_pos_left K (by linarith) hbr, div_lt_div_of_pos_left K a0 hab, ?_⟩
  rw [div_le_one a0]
  have := mul_le_mul_of_nonneg_right hs hw.le
  linarith

/-- The length is concave in the third power of the inverse tension. -/
theorem length_cubic : (k0.lengthFn a - k0.lengthFn b) * (r ^ 3 - b ^ 3) * a ^ 3 ≤
    (k0.lengthFn b - k0.lengthFn r) * (b ^ 3 - a ^ 3) * r ^ 3 := by
  obtain ⟨K, a0, z0, z1, z2, z3⟩ := inverse_facts S ha hab hbr
  rw [← inverse_powers 3 K a0 (by linarith) (by linarith), lengthFn_at S a0, lengthFn_at S (by linarith : 0 < b),
    lengthFn_at S (by linarith : 0 < r)]
  exact Growth.concave_in (n := 2) z0 z1 z2 (fun z hz => lengthAt_deriv S.s2_pos hz)
    (fun x y hx hxy hy => length_slope_anti S.s2_pos hx hxy (le_trans hy z3))

/-- The length is convex in the square of the inverse tension. -/
theorem length_square : (k0.lengthFn b - k0.lengthFn r) * (b ^ 2 - a ^ 2) * r ^ 2 ≤
    (k0.lengthFn a - k0.lengthFn b) * (r ^ 2 - b ^ 2) * a ^ 2 := by
  obtain ⟨K, a0, z0, z1, z2, z3⟩ := inverse_facts S ha hab hbr
  rw [← inverse_powers' 2 K a0 (by linarith) (by linarith), lengthFn_at S a0, lengthFn_at S (by linarith : 0 < b),
    lengthFn_at S (by linarith : 0 < r)]
  exact Growth.convex_in (n := 1) z0 z1 z2 (fun z hz => lengthAt_deriv S.s2_pos hz)
    (fun x y hx hxy => length_slope_mono S.s2_pos hx hxy)

/-- The sag is concave in the square of the inverse tension. -/
theorem sag_square : (k0.levelSag a - k0.levelSag b) * (r ^ 2 - b ^ 2) * a ^ 2 ≤
    (k0.levelSag b - k0.levelSag r) * (b ^ 2 - a ^ 2) * r ^ 2 := by
  obtain ⟨K, a0, z0, z1, z2, z3⟩ := inverse_facts S ha hab hbr
  rw [← inverse_powers 2 K a0 (by linarith) (by linarith), levelSag_at S a0, levelSag_at S (by linarith : 0 < b),
    levelSag_at S (by linarith : 0 < r)]
  have := Growth.concave_in (n := 1) z0 z1 z2 (fun z hz => sagAt_deriv hz)
    (fun x y hx hxy hy => by
      have := Growth.sag_anti hx hxy (le_trans hy z3)
      have e : ∀ z : ℝ, (z * Real.sinh z - Real.cosh z + 1) / z ^ 2 / z ^ 1 =
        (z * Real.sinh z - Real.cosh z + 1) / z ^ 3 := fun z => by rw [div_div]; ring
      rw [e, e]
      exact this)
  have := mul_le_mul_of_nonneg_left this (by have := S.s2_pos; positivity : 0 ≤ k0.spacing2d.x / 2)
  linarith

/-- The sag is convex in the inverse tension. -/
theorem sag_linear : (k0.levelSag b - k0.levelSag r) * (b ^ 1 - a ^ 1) * r ^ 1 ≤
    (k0.levelSag a - k0.levelSag b) * (r ^ 1 - b ^ 1) * a ^ 1 := by
  obtain ⟨K, a0, z0, z1, z2, z3⟩ := inverse_facts S ha hab hbr
  rw [← inverse_powers' 1 K a0 (by linarith) (by linarith), levelSag_at S a0, levelSag_at S (by linarith : 0 < b),
    levelSag_at S (by linarith : 0 < r)]
  have := Growth.convex_in (n := 0) z0 z1 z2 (fun z hz => sagAt_deriv hz)
    (fun x y hx hxy => by simpa using Growth.sag_mono hx hxy)
  have := mul_le_mul_of_nonneg_left this (by have := S.s2_pos; positivity : 0 ≤ k0.spacing2d.x / 2)
  linarith

end Catenary3d

end Verif
