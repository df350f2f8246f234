import Mathlib.Tactic.Linarith
import Mathlib.Tactic.FieldSimp
import Mathlib.Tactic.Positivity
import Verif.CatenarySolver

/-! # The secant loop on convex functions -/

set_option linter.unusedSectionVars false

namespace Verif

/-- `f` lies above a line through each of its points right of `x0`. -/
def Supported (f σ : ℝ → ℝ) (x0 : ℝ) : Prop :=
  ∀ x y, x0 ≤ x → x0 ≤ y → f x + σ x * (y - x) ≤ f y

/-- The probes of catenaries in the family `F` answer `f`, for tensions right of `x0`. -/
structure Answers (F : Catenary3d → Prop) (g : Probe) (f : ℝ → ℝ) (x0 : ℝ) : Prop where
  eval : ∀ k, F k → ∀ h, x0 ≤ h → g (k.setTension h) = f h
  next : ∀ k, F k → ∀ h, F (Catenary3d.Event.query.next (k.setTension h))
  set : ∀ k, F k → ∀ h, F (k.setTension h)

/-- The loop stops early only on a narrow interval. -/
theorem secantLoop_exit (g : Probe) (t : ℝ) (n : ℕ) (s : SecantState) (k : Catenary3d)
    (h : (secantLoop g t n s k).1.iter < s.iter + n) :
    ¬ 0.01 < |(secantLoop g t n s k).1.left.x - (secantLoop g t n s k).1.right.x| := by
  induction n generalizing s k with
  | zero => exact absurd h (by simp [secantLoop])
  | succ n ih =>
    unfold secantLoop at h ⊢
    split
    · rename_i hw
      rw [if_pos hw] at h
      simp only at h ⊢
      apply ih
      have e : ∀ c, (s.advance t c).iter = s.iter + 1 := by
        intro c; unfold SecantState.advance; split_ifs <;> rfl
      rw [e]
      omega
    · rename_i hw; exact hw

/-- A loop invariant. -/
theorem secantLoop_inv {F : Catenary3d → Prop} {g : Probe} {f : ℝ → ℝ} {x0 : ℝ} (A : Answers F g f x0)
    (t : ℝ) (I : SecantState → Prop)
    (step : ∀ s, I s → 0.01 < |s.left.x - s.right.x| →
      x0 ≤ s.next t ∧ I (s.advance t ⟨s.next t, f (s.next t)⟩))
    (n : ℕ) (s : SecantState) (k : Catenary3d) (hs : I s) (hk : F k) :
    I (secantLoop g t n s k).1 ∧ F (secantLoop g t n s k).2 := by
  induction n generalizing s k with
  | zero => exact ⟨hs, hk⟩
  | succ n ih =>
    unfold secantLoop
    split
    · rename_i hw
      obtain ⟨h1, h2⟩ := step s hs hw
      simp only [probe, A.eval k hk _ h1]
      exact ih _ _ h2 (A.next k hk _)
    · exact ⟨hs, hk⟩

/-- The abscissa where the line through the two points reaches the target. -/
theorem next_line (s : SecantState) (t m : ℝ) (hx : s.left.x < s.right.x)
    (hm : s.right.y - s.left.y = m * (s.right.x - s.left.x)) (hm0 : m ≠ 0) :
    m * (s.next t - s.left.x) = t - s.left.y := by
  have h0 : s.right.x - s.left.x ≠ 0 := by linarith
  unfold SecantState.next
  simp only
  have e : (s.right.y - s.left.y) / (s.right.x - s.left.x) = m := by
    rw [hm]; field_simp
  rw [e]
  field_simp
  ring

section
variable {f σ : ℝ → ℝ} {x0 K t : ℝ}

/-- Invariant for a decreasing convex function. -/
structure DecInv (f : ℝ → ℝ) (x0 K t : ℝ) (s : SecantState) : Prop where
  l0 : x0 ≤ s.left.x
  lr : s.left.x < s.right.x
  ly : s.left.y = f s.left.x
  ry : s.right.y = f s.right.x
  tl : t ≤ s.left.y
  res : 0.01 < |s.left.x - s.right.x| ∨ s.iter = 0 ∨
    (x0 ≤ s.current.x ∧ |f s.current.x - t| ≤ K * (s.right.x - s.left.x))

theorem supported_slopes (S : Supported f σ x0) {x y : ℝ} (hx : x0 ≤ x) (hxy : x < y) :
    σ x * (y - x) ≤ f y - f x ∧ f y - f x ≤ σ y * (y - x) := by
  have h1 := S x y hx (by linarith)
  have h2 := S y x (by linarith) hx
  constructor <;> linarith

theorem dec_step (S : Supported f σ x0) (lo : ∀ x, x0 ≤ x → -K ≤ σ x) (neg : ∀ x, x0 ≤ x → σ x < 0)
    (s : SecantState) (I : DecInv f x0 K t s) (hw : 0.01 < |s.left.x - s.right.x|) :
    x0 ≤ s.next t ∧ DecInv f x0 K t (s.advance t ⟨s.next t, f (s.next t)⟩) := by
  obtain ⟨l0, lr, ly, ry, tl, _⟩ := I
  have hr0 : x0 ≤ s.right.x := by linarith
  have hd : 0 < s.right.x - s.left.x := by linarith
  -- slope of the secant
  obtain ⟨m, hm⟩ : ∃ m, s.right.y - s.left.y = m * (s.right.x - s.left.x) :=
    ⟨(s.right.y - s.left.y) / (s.right.x - s.left.x), by field_simp⟩
  obtain ⟨b1, b2⟩ := supported_slopes S l0 lr
  rw [← ly, ← ry, hm] at b1 b2
  have m1 : σ s.left.x ≤ m := le_of_mul_le_mul_right b1 hd
  have m2 : m ≤ σ s.right.x := le_of_mul_le_mul_right b2 hd
  have mneg : m < 0 := lt_of_le_of_lt m2 (neg _ hr0)
  have mK : -m ≤ K := by have := lo _ l0; linarith
  have hn := next_line s t m lr hm mneg.ne
  set x := s.next t with hx
  have xl : s.left.x ≤ x := by
    by_contra h
    have : 0 < m * (x - s.left.x) := mul_pos_of_neg_of_neg mneg (by linarith)
    linarith
  have x0x : x0 ≤ x := le_trans l0 xl
  refine ⟨x0x, ?_⟩
  -- chord value at x is t
  have hc : s.right.y + m * (x - s.right.x) = t := by linarith
  unfold SecantState.advance
  simp only [not_lt.2 xl, if_false]
  have stall : ∀ i c, DecInv f x0 K t ⟨s.left, s.right, c, i⟩ := fun i c =>
    ⟨l0, lr, ly, ry, tl, Or.inl hw⟩
  split_ifs with h1 h2 h3 h4
  · -- narrowed from the right
    obtain ⟨h1a, h1b⟩ := h1
    refine ⟨l0, h1a, ly, rfl, tl, Or.inr (Or.inr ⟨x0x, ?_⟩)⟩
    obtain ⟨c1, c2⟩ := supported_slopes S l0 h1a
    have hlo := lo _ l0
    rw [abs_of_nonpos (by linarith)]
    simp only
    have : -K * (x - s.left.x) ≤ σ s.left.x * (x - s.left.x) := mul_le_mul_of_nonneg_right hlo (by linarith)
    linarith
  · -- impossible: convexity
    obtain ⟨h1a, h1b⟩ := h1
    exfalso
    obtain ⟨c1, c2⟩ := supported_slopes S l0 h1a
    obtain ⟨d1, d2⟩ := supported_slopes S x0x h1b
    have e1 : f x - s.left.y > m * (x - s.left.x) := by linarith
    have e2 : σ x > m := by
      rw [← ly] at c2
      by_contra hh
      have := mul_le_mul_of_nonneg_right (not_lt.1 hh) (by linarith : 0 ≤ x - s.left.x)
      linarith
    have e3 := mul_lt_mul_of_pos_right e2 (by linarith : 0 < s.right.x - x)
    rw [← ry] at d1
    have e4 : m * (s.right.x - x) + m * (x - s.left.x) = m * (s.right.x - s.left.x) := by ring
    linarith
  · exact stall _ _
  · -- extrapolated
    refine ⟨hr0, h4, ry, rfl, ?_, Or.inr (Or.inr ⟨x0x, ?_⟩)⟩
    · have : 0 < -m * (x - s.right.x) := mul_pos (by linarith) (by linarith)
      show t ≤ s.right.y
      linarith
    · obtain ⟨c1, c2⟩ := supported_slopes S hr0 h4
      rw [← ry] at c1 c2
      have e1 := mul_le_mul_of_nonneg_right m2 (by linarith : 0 ≤ x - s.right.x)
      have e2 := mul_neg_of_neg_of_pos (neg _ x0x) (by linarith : 0 < x - s.right.x)
      have e3 := mul_le_mul_of_nonneg_right mK (by linarith : 0 ≤ x - s.right.x)
      simp only
      rw [abs_of_nonneg (by linarith)]
      linarith
  · exact stall _ _

/-- Invariant for an increasing convex function. -/
structure IncInv (f : ℝ → ℝ) (x0 K t : ℝ) (s : SecantState) : Prop where
  l0 : x0 ≤ s.left.x
  lr : s.left.x < s.right.x
  ly : s.left.y = f s.left.x
  ry : s.right.y = f s.right.x
  lt : s.left.y ≤ t
  res : 0.01 < |s.left.x - s.right.x| ∨ s.iter = 0 ∨
    (x0 ≤ s.current.x ∧ |f s.current.x - t| ≤ K * (s.right.x - s.left.x))

theorem inc_step (S : Supported f σ x0) (hi : ∀ x, x0 ≤ x → σ x ≤ K) (pos : ∀ x, x0 ≤ x → 0 < σ x)
    (s : SecantState) (I : IncInv f x0 K t s) (hw : 0.01 < |s.left.x - s.right.x|) :
    x0 ≤ s.next t ∧ IncInv f x0 K t (s.advance t ⟨s.next t, f (s.next t)⟩) := by
  obtain ⟨l0, lr, ly, ry, lt, _⟩ := I
  have hr0 : x0 ≤ s.right.x := by linarith
  have hd : 0 < s.right.x - s.left.x := by linarith
  obtain ⟨m, hm⟩ : ∃ m, s.right.y - s.left.y = m * (s.right.x - s.left.x) :=
    ⟨(s.right.y - s.left.y) / (s.right.x - s.left.x), by field_simp⟩
  obtain ⟨b1, b2⟩ := supported_slopes S l0 lr
  rw [← ly, ← ry, hm] at b1 b2
  have m1 : σ s.left.x ≤ m := le_of_mul_le_mul_right b1 hd
  have m2 : m ≤ σ s.right.x := le_of_mul_le_mul_right b2 hd
  have mpos : 0 < m := lt_of_lt_of_le (pos _ l0) m1
  have mK : m ≤ K := le_trans m2 (hi _ hr0)
  have hn := next_line s t m lr hm mpos.ne'
  set x := s.next t with hx
  have xl : s.left.x ≤ x := by
    by_contra h
    have : m * (x - s.left.x) < 0 := mul_neg_of_pos_of_neg mpos (by linarith)
    linarith
  have x0x : x0 ≤ x := le_trans l0 xl
  refine ⟨x0x, ?_⟩
  have hc : s.right.y + m * (x - s.right.x) = t := by linarith
  unfold SecantState.advance
  simp only [not_lt.2 xl, if_false]
  have stall : ∀ i c, IncInv f x0 K t ⟨s.left, s.right, c, i⟩ := fun i c =>
    ⟨l0, lr, ly, ry, lt, Or.inl hw⟩
  split_ifs with h1 h2 h3 h4
  · -- below the target: the right end moves
    obtain ⟨h1a, h1b⟩ := h1
    refine ⟨l0, h1a, ly, rfl, lt, Or.inr (Or.inr ⟨x0x, ?_⟩)⟩
    obtain ⟨c1, c2⟩ := supported_slopes S l0 h1a
    rw [← ly] at c1
    have hp := mul_pos (pos _ l0) (by linarith : 0 < x - s.left.x)
    rw [abs_of_nonpos (by linarith)]
    simp only
    have := mul_le_mul_of_nonneg_right mK (by linarith : 0 ≤ x - s.left.x)
    linarith
  · -- impossible: convexity
    obtain ⟨h1a, h1b⟩ := h1
    exfalso
    obtain ⟨c1, c2⟩ := supported_slopes S l0 h1a
    obtain ⟨d1, d2⟩ := supported_slopes S x0x h1b
    have e1 : f x - s.left.y > m * (x - s.left.x) := by linarith
    have e2 : σ x > m := by
      rw [← ly] at c2
      by_contra hh
      have := mul_le_mul_of_nonneg_right (not_lt.1 hh) (by linarith : 0 ≤ x - s.left.x)
      linarith
    have e3 := mul_lt_mul_of_pos_right e2 (by linarith : 0 < s.right.x - x)
    rw [← ry] at d1
    have e4 : m * (s.right.x - x) + m * (x - s.left.x) = m * (s.right.x - s.left.x) := by ring
    linarith
  · exact stall _ _
  · -- extrapolated
    refine ⟨hr0, h4, ry, rfl, ?_, Or.inr (Or.inr ⟨x0x, ?_⟩)⟩
    · have : 0 < m * (x - s.right.x) := mul_pos mpos (by linarith)
      show s.right.y ≤ t
      linarith
    · obtain ⟨c1, c2⟩ := supported_slopes S hr0 h4
      rw [← ry] at c1 c2
      have e1 := mul_le_mul_of_nonneg_right m2 (by linarith : 0 ≤ x - s.right.x)
      have e3 := mul_le_mul_of_nonneg_right (hi _ x0x) (by linarith : 0 ≤ x - s.right.x)
      have e4 := mul_pos mpos (by linarith : 0 < x - s.right.x)
      simp only
      rw [abs_of_nonneg (by linarith)]
      linarith
  · exact stall _ _

/-- A successful solve either did not iterate or ends within `0.01 K` of the target. -/
theorem secantSolve_residual {F : Catenary3d → Prop} {g : Probe} (A : Answers F g f x0) (hK : 0 ≤ K)
    (I : SecantState → Prop)
    (step : ∀ s, I s → 0.01 < |s.left.x - s.right.x| →
      x0 ≤ s.next t ∧ I (s.advance t ⟨s.next t, f (s.next t)⟩))
    (lr : ∀ s, I s → s.left.x < s.right.x)
    (res : ∀ s, I s → 0.01 < |s.left.x - s.right.x| ∨ s.iter = 0 ∨
      (x0 ≤ s.current.x ∧ |f s.current.x - t| ≤ K * (s.right.x - s.left.x)))
    (zero : ∀ s, I s → s.iter = 0 → s.current.x = -999999)
    {left right : V2} {k : Catenary3d} (hi : I ⟨left, right, ⟨-999999, -999999⟩, 0⟩) (hk : F k)
    (ok : (secantSolve g t left right k).1 = true) :
    F (secantSolve g t left right k).2 ∧
    ((secantSolve g t left right k).2.tensionHorizontal = -999999 ∨
      (x0 ≤ (secantSolve g t left right k).2.tensionHorizontal ∧
        |f (secantSolve g t left right k).2.tensionHorizontal - t| ≤ 0.01 * K)) := by
  unfold secantSolve at ok ⊢
  simp only at ok ⊢
  split at ok
  · rename_i hit
    rw [if_pos hit]
    simp only
    obtain ⟨h1, h2⟩ := secantLoop_inv A t I step 101 _ k hi hk
    have hex := secantLoop_exit g t 101 ⟨left, right, ⟨-999999, -999999⟩, 0⟩ k (by omega)
    refine ⟨A.set _ h2 _, ?_⟩
    set s := (secantLoop g t 101 ⟨left, right, ⟨-999999, -999999⟩, 0⟩ k).1
    have ht : ∀ k : Catenary3d, (k.setTension s.current.x).tensionHorizontal = s.current.x := fun _ => rfl
    rw [ht]
    rcases res s h1 with h | h | ⟨h, h'⟩
    · exact absurd h hex
    · exact Or.inl (zero s h1 h)
    · right
      refine ⟨h, le_trans h' ?_⟩
      have hl := lr s h1
      rw [abs_of_neg (by linarith)] at hex
      have : s.right.x - s.left.x ≤ 0.01 := by linarith
      have := mul_le_mul_of_nonneg_left this hK
      linarith
  · cases ok

theorem secantSolve_dec {F : Catenary3d → Prop} {g : Probe} (A : Answers F g f x0) (hK : 0 ≤ K)
    (S : Supported f σ x0) (lo : ∀ x, x0 ≤ x → -K ≤ σ x) (neg : ∀ x, x0 ≤ x → σ x < 0)
    {right : ℝ} (hr : x0 < right) (ht : t ≤ f x0) {k : Catenary3d} (hk : F k)
    (ok : (secantSolve g t ⟨x0, f x0⟩ ⟨right, f right⟩ k).1 = true) :
    let k' := (secantSolve g t ⟨x0, f x0⟩ ⟨right, f right⟩ k).2
    F k' ∧ (k'.tensionHorizontal = -999999 ∨
      (x0 ≤ k'.tensionHorizontal ∧ |f k'.tensionHorizontal - t| ≤ 0.01 * K)) := by
  refine secantSolve_residual A hK
    (fun s => DecInv f x0 K t s ∧ (s.iter = 0 → s.current.x = -999999)) ?_
    (fun s h => h.1.lr) (fun s h => h.1.res) (fun s h => h.2) ?_ hk ok
  · intro s h hw
    obtain ⟨h1, h2⟩ := dec_step S lo neg s h.1 hw
    refine ⟨h1, h2, ?_⟩
    intro h
    unfold SecantState.advance at h
    split_ifs at h
  · exact ⟨⟨le_refl _, hr, rfl, rfl, ht, Or.inr (Or.inl rfl)⟩, fun _ => rfl⟩

theorem secantSolve_inc {F : Catenary3d → Prop} {g : Probe} (A : Answers F g f x0) (hK : 0 ≤ K)
    (S : Supported f σ x0) (hi : ∀ x, x0 ≤ x → σ x ≤ K) (pos : ∀ x, x0 ≤ x → 0 < σ x)
    {right : ℝ} (hr : x0 < right) (ht : f x0 ≤ t) {k : Catenary3d} (hk : F k)
    (ok : (secantSolve g t ⟨x0, f x0⟩ ⟨right, f right⟩ k).1 = true) :
    let k' := (secantSolve g t ⟨x0, f x0⟩ ⟨right, f right⟩ k).2
    F k' ∧ (k'.tensionHorizontal = -999999 ∨
      (x0 ≤ k'.tensionHorizontal ∧ |f k'.tensionHorizontal - t| ≤ 0.01 * K)) := by
  refine secantSolve_residual A hK
    (fun s => IncInv f x0 K t s ∧ (s.iter = 0 → s.current.x = -999999)) ?_
    (fun s h => h.1.lr) (fun s h => h.1.res) (fun s h => h.2) ?_ hk ok
  · intro s h hw
    obtain ⟨h1, h2⟩ := inc_step S hi pos s h.1 hw
    refine ⟨h1, h2, ?_⟩
    intro h
    unfold SecantState.advance at h
    split_ifs at h
  · exact ⟨⟨le_refl _, hr, rfl, rfl, ht, Or.inr (Or.inl rfl)⟩, fun _ => rfl⟩

/-- A decreasing convex function whose target is reached inside the starting interval, more than 0.01
from its left end: the loop exhausts its iterations. -/
theorem secantSolve_dec_fails {F : Catenary3d → Prop} {g : Probe} (A : Answers F g f x0)
    (S : Supported f σ x0) (neg : ∀ x, x0 ≤ x → σ x < 0)
    {right r : ℝ} (hr0 : x0 + 0.01 < r) (hr : r ≤ right) (k : Catenary3d) (hk : F k) :
    (secantSolve g (f r) ⟨x0, f x0⟩ ⟨right, f right⟩ k).1 = false := by
  have anti : ∀ x y, x0 ≤ x → x < y → f y < f x := by
    intro x y hx hxy
    have := (supported_slopes S hx hxy).2
    have := mul_neg_of_neg_of_pos (neg y (by linarith)) (by linarith : 0 < y - x)
    linarith
  let I : SecantState → Prop := fun s =>
    s.left = ⟨x0, f x0⟩ ∧ r ≤ s.right.x ∧ s.right.y = f s.right.x
  have step : ∀ s, I s → 0.01 < |s.left.x - s.right.x| →
      x0 ≤ s.next (f r) ∧ I (s.advance (f r) ⟨s.next (f r), f (s.next (f r))⟩) := by
    rintro s ⟨hl, hrr, ry⟩ hw
    have lx : s.left.x = x0 := by rw [hl]
    have ly : s.left.y = f x0 := by rw [hl]
    have lr : s.left.x < s.right.x := by linarith
    have hd : 0 < s.right.x - s.left.x := by linarith
    obtain ⟨m, hm⟩ : ∃ m, s.right.y - s.left.y = m * (s.right.x - s.left.x) :=
      ⟨(s.right.y - s.left.y) / (s.right.x - s.left.x), by field_simp⟩
    have a1 := anti x0 s.right.x (le_refl _) (by linarith)
    have mneg : m < 0 := by
      by_contra h
      have := mul_nonneg (not_lt.1 h) hd.le
      linarith
    have hn := next_line s (f r) m lr hm mneg.ne
    have a2 := anti x0 r (le_refl _) (by linarith)
    have a3 : f s.right.x ≤ f r := by
      rcases eq_or_lt_of_le hrr with h | h
      · rw [h]
      · exact (anti r _ (by linarith) h).le
    set x := s.next (f r) with hx
    have xl : s.left.x < x := by
      by_contra h
      have : 0 ≤ m * (x - s.left.x) := mul_nonneg_of_nonpos_of_nonpos mneg.le (by linarith)
      linarith
    have xr : x ≤ s.right.x := by
      by_contra h
      have := mul_lt_mul_of_neg_left (by linarith : s.right.x - s.left.x < x - s.left.x) mneg
      linarith
    have x0x : x0 ≤ x := by linarith
    -- below the chord
    have below : f x ≤ f r := by
      rcases eq_or_lt_of_le xr with h | h
      · rw [h]; exact a3
      · have h1 := S x s.left.x x0x (by linarith)
        have h2 := S x s.right.x x0x (by linarith)
        have h1' := mul_le_mul_of_nonneg_left h1 (by linarith : 0 ≤ s.right.x - x)
        have h2' := mul_le_mul_of_nonneg_left h2 (by linarith : 0 ≤ x - s.left.x)
        have e : (s.right.x - s.left.x) * f x ≤ (s.right.x - s.left.x) * f r := by
          have : f s.left.x = s.left.y := by rw [lx, ly]
          rw [this] at h1'
          rw [← ry] at h2'
          have e1 : s.right.y = s.left.y + m * (s.right.x - s.left.x) := by linarith
          have e2 : f r = s.left.y + m * (x - s.left.x) := by linarith
          rw [e2]
          rw [e1] at h2'
          nlinarith
        exact le_of_mul_le_mul_left e hd
    have rx : r ≤ x := by
      by_contra h
      have := anti x r x0x (by linarith)
      linarith
    refine ⟨x0x, ?_⟩
    unfold SecantState.advance
    simp only [not_lt.2 xl.le, if_false, not_lt.2 below, not_lt.2 xr]
    split_ifs
    · exact ⟨hl, rx, rfl⟩
    · exact ⟨hl, hrr, ry⟩
    · exact ⟨hl, hrr, ry⟩
  have hI : I ⟨⟨x0, f x0⟩, ⟨right, f right⟩, ⟨-999999, -999999⟩, 0⟩ := ⟨rfl, hr, rfl⟩
  unfold secantSolve
  simp only
  split
  · rename_i hit
    obtain ⟨⟨hl, hrr, _⟩, _⟩ := secantLoop_inv A (f r) I step 101 _ k hI hk
    have hex := secantLoop_exit g (f r) 101 ⟨⟨x0, f x0⟩, ⟨right, f right⟩, ⟨-999999, -999999⟩, 0⟩ k (by omega)
    exfalso
    apply hex
    rw [hl, abs_of_neg (by linarith)]
    linarith
  · rfl

/-- A decreasing strictly convex function whose target is reached right of the starting interval: the
loop succeeds if the linear bound on its convergence suffices. -/
theorem secantSolve_dec_succeeds {F : Catenary3d → Prop} {g : Probe} (A : Answers F g f x0)
    (S : ∀ x y, x0 ≤ x → x0 ≤ y → x ≠ y → f x + σ x * (y - x) < f y) (neg : ∀ x, x0 ≤ x → σ x < 0)
    {right r ρ : ℝ} (hx : x0 < right) (hr : right < r) (h0 : 0 ≤ ρ) (h1 : ρ ≤ 1) (hρ : σ r ≤ ρ * σ x0)
    (hfast : (1 - ρ) ^ 98 * (r - right) ≤ 0.01) (hwide : 0.01 < right - x0) (k : Catenary3d) (hk : F k) :
    (secantSolve g (f r) ⟨x0, f x0⟩ ⟨right, f right⟩ k).1 = true ∧
    F (secantSolve g (f r) ⟨x0, f x0⟩ ⟨right, f right⟩ k).2 ∧
    x0 ≤ (secantSolve g (f r) ⟨x0, f x0⟩ ⟨right, f right⟩ k).2.tensionHorizontal := by
  have S' : Supported f σ x0 := by
    intro x y hx hy
    by_cases h : x = y
    · rw [h]; simp
    · exact (S x y hx hy h).le
  have anti : ∀ x y, x0 ≤ x → x < y → f y < f x := by
    intro x y hx hxy
    have := (supported_slopes S' hx hxy).2
    have := mul_neg_of_neg_of_pos (neg y (by linarith)) (by linarith : 0 < y - x)
    linarith
  let I : SecantState → Prop := fun s =>
    x0 ≤ s.left.x ∧ s.left.x < s.right.x ∧ s.right.x < r ∧ s.left.y = f s.left.x ∧
      s.right.y = f s.right.x ∧ r - s.right.x ≤ (1 - ρ) ^ s.iter * (r - right) ∧
      (99 ≤ s.iter → s.right.x - s.left.x ≤ 0.01) ∧ s.iter ≤ 99 ∧
      ((s.left.x = x0 ∧ s.right.x = right) ∨ s.current.x = s.right.x)
  have step : ∀ s, I s → 0.01 < |s.left.x - s.right.x| →
      x0 ≤ s.next (f r) ∧ I (s.advance (f r) ⟨s.next (f r), f (s.next (f r))⟩) := by
    rintro s ⟨l0, lr, rr, ly, ry, hc, hn, hit, _⟩ hw
    have hit' : s.iter < 99 := by
      by_contra h
      have := hn (by omega)
      rw [abs_of_neg (by linarith)] at hw
      linarith
    have hd : 0 < s.right.x - s.left.x := by linarith
    obtain ⟨m, hm⟩ : ∃ m, s.right.y - s.left.y = m * (s.right.x - s.left.x) :=
      ⟨(s.right.y - s.left.y) / (s.right.x - s.left.x), by field_simp⟩
    obtain ⟨b1, b2⟩ := supported_slopes S' l0 lr
    rw [← ly, ← ry, hm] at b1 b2
    have m1 : σ s.left.x ≤ m := le_of_mul_le_mul_right b1 hd
    have m2 : m ≤ σ s.right.x := le_of_mul_le_mul_right b2 hd
    have mneg : m < 0 := lt_of_le_of_lt m2 (neg _ (by linarith))
    have m0 : σ x0 ≤ m := by
      rcases eq_or_lt_of_le l0 with h | h
      · rw [h]; exact m1
      · obtain ⟨q1, q2⟩ := supported_slopes S' (le_refl x0) h
        have : σ x0 ≤ σ s.left.x := le_of_mul_le_mul_right (le_trans q1 q2) (by linarith)
        linarith
    have hnx := next_line s (f r) m lr hm mneg.ne
    set x := s.next (f r) with hxd
    have hch : s.right.y + m * (x - s.right.x) = f r := by linarith
    have a1 := anti s.right.x r (by linarith) rr
    have xr : s.right.x < x := by
      by_contra h
      have : 0 ≤ m * (x - s.right.x) := mul_nonneg_of_nonpos_of_nonpos mneg.le (by linarith)
      linarith
    have x0x : x0 ≤ x := by linarith
    have xlt : x < r := by
      by_contra h
      have h1 := S s.right.x x (by linarith) x0x (by linarith)
      have h2 := mul_le_mul_of_nonneg_right m2 (by linarith : 0 ≤ x - s.right.x)
      have h3 : f r < f x := by linarith
      rcases eq_or_lt_of_le (not_lt.1 h) with h | h
      · rw [h] at h3; exact lt_irrefl _ h3
      · have := anti r x (by linarith) h
        linarith
    refine ⟨x0x, ?_⟩
    unfold SecantState.advance
    simp only [not_lt.2 (by linarith : s.left.x ≤ x), if_false, not_lt.2 xr.le, and_false, xr, if_true]
    refine ⟨by simp only; linarith, xr, xlt, ry, rfl, ?_, ?_, by simp only; omega, Or.inr rfl⟩
    · simp only
      have e1 := (supported_slopes S' (by linarith : x0 ≤ s.right.x) rr).2
      rw [← ry] at e1
      -- progress
      have e2 : m * (x - s.right.x) ≤ m * (ρ * (r - s.right.x)) := by
        have t1 : m * (x - s.right.x) ≤ σ r * (r - s.right.x) := by linarith
        have t2 : σ r * (r - s.right.x) ≤ ρ * σ x0 * (r - s.right.x) :=
          mul_le_mul_of_nonneg_right hρ (by linarith)
        have t3 : ρ * σ x0 * (r - s.right.x) ≤ m * (ρ * (r - s.right.x)) := by
          have := mul_le_mul_of_nonneg_right m0 (mul_nonneg h0 (by linarith : 0 ≤ r - s.right.x))
          linarith
        linarith
      have e3 : ρ * (r - s.right.x) ≤ x - s.right.x := (mul_le_mul_left_of_neg mneg).1 e2
      rw [pow_succ]
      have e4 := mul_le_mul_of_nonneg_right hc (by linarith : 0 ≤ 1 - ρ)
      linarith
    · simp only
      intro hi
      have : s.iter = 98 := by omega
      rw [this] at hc
      linarith
  have hI : I ⟨⟨x0, f x0⟩, ⟨right, f right⟩, ⟨-999999, -999999⟩, 0⟩ :=
    ⟨le_refl _, hx, hr, rfl, rfl, by simp, by simp, by simp, Or.inl ⟨rfl, rfl⟩⟩
  unfold secantSolve
  simp only
  obtain ⟨⟨h1, h2, _, _, _, _, _, h, hcur⟩, hF⟩ := secantLoop_inv A (f r) I step 101 _ k hI hk
  have hex := secantLoop_exit g (f r) 101 ⟨⟨x0, f x0⟩, ⟨right, f right⟩, ⟨-999999, -999999⟩, 0⟩ k (by omega)
  rw [if_pos (by omega)]
  refine ⟨rfl, A.set _ hF _, ?_⟩
  rcases hcur with ⟨c1, c2⟩ | hcur
  · exfalso
    apply hex
    rw [c1, c2, abs_of_neg (by linarith)]
    linarith
  · show x0 ≤ (SecantState.current _).x
    rw [hcur]
    linarith

/-- An increasing strictly convex function with slopes in `[μ, K]`, whose target is reached inside the
starting interval: the loop succeeds if the linear bound on its convergence suffices. -/
theorem secantSolve_inc_succeeds {F : Catenary3d → Prop} {g : Probe} (A : Answers F g f x0)
    (S : ∀ x y, x0 ≤ x → x0 ≤ y → x ≠ y → f x + σ x * (y - x) < f y) {μ q : ℝ} (hμ : 0 < μ)
    (lo : ∀ x, x0 ≤ x → μ ≤ σ x) (hi : ∀ x, x0 ≤ x → σ x ≤ K) (hq : 1 - μ / K ≤ q) (q0 : 0 ≤ q)
    {right r : ℝ} (hr0 : x0 < r) (hr : r < right) (hfast : q ^ 49 * (r - x0) ≤ 0.01)
    (hwide : 0.01 < right - x0) (k : Catenary3d) (hk : F k) :
    (secantSolve g (f r) ⟨x0, f x0⟩ ⟨right, f right⟩ k).1 = true ∧
    F (secantSolve g (f r) ⟨x0, f x0⟩ ⟨right, f right⟩ k).2 ∧
    x0 ≤ (secantSolve g (f r) ⟨x0, f x0⟩ ⟨right, f right⟩ k).2.tensionHorizontal := by
  have hK : 0 < K := lt_of_lt_of_le hμ (le_trans (lo x0 (le_refl _)) (hi x0 (le_refl _)))
  have S' : Supported f σ x0 := by
    intro x y hx hy
    by_cases h : x = y
    · rw [h]; simp
    · exact (S x y hx hy h).le
  have mono : ∀ x y, x0 ≤ x → x < y → f x < f y := by
    intro x y hx hxy
    have := (supported_slopes S' hx hxy).1
    have := mul_pos (lt_of_lt_of_le hμ (lo x hx)) (by linarith : 0 < y - x)
    linarith
  let I : SecantState → Prop := fun s =>
    x0 ≤ s.left.x ∧ s.left.x < s.right.x ∧ s.left.x < r ∧ s.left.y = f s.left.x ∧
      s.right.y = f s.right.x ∧ (99 ≤ s.iter → s.right.x - s.left.x ≤ 0.01) ∧ s.iter ≤ 99 ∧
      ((s.left.x = x0 ∧ s.right.x = right) ∨ s.current.x = s.right.x) ∧
      ∃ n, (r < s.right.x ∧ s.iter = 2 * n ∧ r - s.left.x ≤ q ^ n * (r - x0)) ∨
        (s.right.x < r ∧ s.iter = 2 * n + 1 ∧ r - s.right.x ≤ q ^ (n + 1) * (r - x0))
  have step : ∀ s, I s → 0.01 < |s.left.x - s.right.x| →
      x0 ≤ s.next (f r) ∧ I (s.advance (f r) ⟨s.next (f r), f (s.next (f r))⟩) := by
    rintro s ⟨l0, lr, lr', ly, ry, hn, hit, _, n, hcase⟩ hw
    have hit' : s.iter < 99 := by
      by_contra h
      have := hn (by omega)
      rw [abs_of_neg (by linarith)] at hw
      linarith
    have hd : 0 < s.right.x - s.left.x := by linarith
    obtain ⟨m, hm⟩ : ∃ m, s.right.y - s.left.y = m * (s.right.x - s.left.x) :=
      ⟨(s.right.y - s.left.y) / (s.right.x - s.left.x), by field_simp⟩
    obtain ⟨b1, b2⟩ := supported_slopes S' l0 lr
    rw [← ly, ← ry, hm] at b1 b2
    have m1 : σ s.left.x ≤ m := le_of_mul_le_mul_right b1 hd
    have m2 : m ≤ σ s.right.x := le_of_mul_le_mul_right b2 hd
    have mpos : 0 < m := lt_of_lt_of_le hμ (le_trans (lo _ l0) m1)
    have mK : m ≤ K := le_trans m2 (hi _ (by linarith))
    have hnx := next_line s (f r) m lr hm mpos.ne'
    have al := mono s.left.x r l0 lr'
    set x := s.next (f r) with hxd
    have xl : s.left.x < x := by
      by_contra h
      have : m * (x - s.left.x) ≤ 0 := mul_nonpos_of_nonneg_of_nonpos mpos.le (by linarith)
      linarith
    have x0x : x0 ≤ x := by linarith
    refine ⟨x0x, ?_⟩
    have hch : s.right.y + m * (x - s.right.x) = f r := by linarith
    unfold SecantState.advance
    simp only [not_lt.2 xl.le, if_false, xl, true_and]
    rcases hcase with ⟨hrr, hiter, hdist⟩ | ⟨hrr, hiter, hdist⟩
    · -- the target lies in the interval
      have ar := mono r s.right.x (by linarith) hrr
      have xr : x < s.right.x := by
        by_contra h
        have : 0 ≤ m * (x - s.right.x) := mul_nonneg mpos.le (by linarith)
        linarith
      have below : f x < f r := by
        have h1 := S x s.left.x x0x l0 xl.ne'
        have h2 := S x s.right.x x0x (by linarith) xr.ne
        have h1' := mul_lt_mul_of_pos_left h1 (by linarith : 0 < s.right.x - x)
        have h2' := mul_lt_mul_of_pos_left h2 (by linarith : 0 < x - s.left.x)
        have e : (s.right.x - s.left.x) * f x < (s.right.x - s.left.x) * f r := by
          rw [← ly] at h1'
          rw [← ry] at h2'
          have e1 : s.right.y = s.left.y + m * (s.right.x - s.left.x) := by linarith
          have e2 : f r = s.left.y + m * (x - s.left.x) := by linarith
          rw [e2]
          rw [e1] at h2'
          nlinarith
        exact lt_of_mul_lt_mul_left e hd.le
      have xr' : x < r := by
        by_contra h
        rcases eq_or_lt_of_le (not_lt.1 h) with h | h
        · rw [h] at below; exact lt_irrefl _ below
        · have := mono r x (by linarith) h; linarith
      simp only [xr, if_true, below]
      refine ⟨l0, xl, lr', ly, rfl, ?_, by simp only; omega, Or.inr rfl, n, Or.inr ⟨xr', by simp only; omega, ?_⟩⟩
      · simp only
        intro h
        have : n = 49 := by omega
        rw [this] at hdist
        linarith
      · simp only
        -- progress
        have e1 := (supported_slopes S' l0 lr').1
        rw [← ly] at e1
        have e2 := mul_le_mul_of_nonneg_right (lo _ l0) (by linarith : 0 ≤ r - s.left.x)
        have e3 := mul_le_mul_of_nonneg_right mK (by linarith : 0 ≤ x - s.left.x)
        have e4 : μ / K * (r - s.left.x) ≤ x - s.left.x := by
          rw [div_mul_eq_mul_div, div_le_iff₀ hK]
          linarith
        have e5 : r - x ≤ q * (r - s.left.x) := by
          have := mul_le_mul_of_nonneg_right hq (by linarith : 0 ≤ r - s.left.x)
          linarith
        have e6 := mul_le_mul_of_nonneg_left hdist q0
        rw [pow_succ]
        linarith
    · -- the target lies right of the interval
      have ar := mono s.right.x r (by linarith) hrr
      have xr : s.right.x < x := by
        by_contra h
        have : m * (x - s.right.x) ≤ 0 := mul_nonpos_of_nonneg_of_nonpos mpos.le (by linarith)
        linarith
      have above : f r < f x := by
        have h1 := S s.right.x x (by linarith) x0x xr.ne
        have h2 := mul_le_mul_of_nonneg_right m2 (by linarith : 0 ≤ x - s.right.x)
        linarith
      have xr' : r < x := by
        by_contra h
        rcases eq_or_lt_of_le (not_lt.1 h) with h | h
        · rw [h] at above; exact lt_irrefl _ above
        · have := mono x r (by linarith) h; linarith
      simp only [not_lt.2 xr.le, if_false, xr, if_true]
      refine ⟨by simp only; linarith, xr, hrr, ry, rfl, ?_, by simp only; omega, Or.inr rfl, n + 1,
        Or.inl ⟨xr', by simp only; omega, hdist⟩⟩
      simp only
      intro h
      omega
  have hI : I ⟨⟨x0, f x0⟩, ⟨right, f right⟩, ⟨-999999, -999999⟩, 0⟩ :=
    ⟨le_refl _, by simp only; linarith, hr0, rfl, rfl, by simp, by simp, Or.inl ⟨rfl, rfl⟩, 0,
      Or.inl ⟨hr, rfl, by simp⟩⟩
  unfold secantSolve
  simp only
  obtain ⟨⟨h1, h2, _, _, _, _, h, hcur, _⟩, hF⟩ := secantLoop_inv A (f r) I step 101 _ k hI hk
  have hex := secantLoop_exit g (f r) 101 ⟨⟨x0, f x0⟩, ⟨right, f right⟩, ⟨-999999, -999999⟩, 0⟩ k (by omega)
  rw [if_pos (by omega)]
  refine ⟨rfl, A.set _ hF _, ?_⟩
  rcases hcur with ⟨c1, c2⟩ | hcur
  · exfalso
    apply hex
    rw [c1, c2, abs_of_neg (by linarith)]
    linarith
  · show x0 ≤ (SecantState.current _).x
    rw [hcur]
    linarith

end
end Verif
