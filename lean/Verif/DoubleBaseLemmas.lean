import Verif.DoubleBase
import Verif.DoubleLemmas

/-!
# Facts about the functions in `double` arithmetic
-/

set_option linter.unusedSectionVars false

namespace Verif.Double

theorem rnd_faithful (x : ℝ) : Faithful (rnd x) x := ⟨rnd_isDouble x, fun _ h h' => le_rnd h h', fun _ h h' => rnd_le h h'⟩

theorem Faithful.exact {r x : ℝ} (h : Faithful r x) (hx : IsDouble x) : r = x :=
  le_antisymm (h.2.2 x hx le_rfl) (h.2.1 x hx le_rfl)

theorem Faithful.nonneg {r x : ℝ} (h : Faithful r x) (hx : 0 ≤ x) : 0 ≤ r := h.2.1 0 isDouble_zero hx

theorem Faithful.nonpos {r x : ℝ} (h : Faithful r x) (hx : x ≤ 0) : r ≤ 0 := h.2.2 0 isDouble_zero hx

/-- A faithful result is less than a unit in the last place away. -/
theorem Faithful.error {r x : ℝ} (h : Faithful r x) : |r - x| ≤ 2 ^ lastPlace x := by
  have hp := two_zpow_pos (lastPlace x)
  have hb := abs_lt_place x
  rw [zpow_add₀ (by norm_num)] at hb
  have h53 : (2 : ℝ) ^ (53 : ℤ) = 2 ^ 53 := by norm_num
  rw [h53] at hb
  set k := ⌊x / 2 ^ lastPlace x⌋ with hk
  have h1 : (k : ℝ) * 2 ^ lastPlace x ≤ x := by rw [← le_div_iff₀ hp]; exact Int.floor_le _
  have h2 : x ≤ ((k + 1 : ℤ) : ℝ) * 2 ^ lastPlace x := by
    rw [← div_le_iff₀ hp]; push_cast; exact (Int.lt_floor_add_one _).le
  have hq : |x / 2 ^ lastPlace x| < 2 ^ 53 := by rw [abs_div, abs_of_pos hp, div_lt_iff₀ hp]; linarith
  rw [abs_lt] at hq
  have l1 : -2 ^ 53 ≤ k := Int.le_floor.mpr (by push_cast; linarith [hq.1])
  have l2 : k < 2 ^ 53 := Int.floor_lt.mpr (by push_cast; linarith [hq.2])
  have d1 : IsDouble ((k : ℝ) * 2 ^ lastPlace x) := ⟨k, _, abs_le.mpr ⟨l1, by omega⟩, lastPlace_ge x, rfl⟩
  have d2 : IsDouble (((k + 1 : ℤ) : ℝ) * 2 ^ lastPlace x) :=
    ⟨k + 1, _, abs_le.mpr ⟨by omega, by omega⟩, lastPlace_ge x, rfl⟩
  have a := h.2.1 _ d1 h1
  have b := h.2.2 _ d2 h2
  push_cast at h2 b
  rw [abs_le]
  constructor <;> nlinarith

theorem Faithful.relative {r x : ℝ} (h : Faithful r x) (hx : (2 : ℝ) ^ (-1022 : ℤ) ≤ |x|) : |r - x| ≤ 2 * u * |x| := by
  have h0 : x ≠ 0 := by
    rintro rfl
    rw [abs_zero] at hx
    exact absurd (two_zpow_pos (-1022)) (not_lt.mpr hx)
  have hlog : lastPlace x = Int.log 2 |x| - 52 := by
    have : -1022 ≤ Int.log 2 |x| := (Int.zpow_le_iff_le_log (b := 2) (by norm_num) (abs_pos.mpr h0)).mp (by exact_mod_cast hx)
    unfold lastPlace; omega
  have h1 := h.error
  have h2 := Int.zpow_log_le_self (b := 2) (by norm_num) (abs_pos.mpr h0)
  push_cast at h2
  have h3 : (2 : ℝ) ^ lastPlace x = 2 * u * 2 ^ Int.log 2 |x| := by
    have : (2 : ℝ) * u = 2 ^ (-52 : ℤ) := by unfold u; norm_num
    rw [hlog, this, ← zpow_add₀ (by norm_num)]
    congr 1; omega
  rw [h3] at h1
  nlinarith [u_pos]

/-- The error of a faithful result, without a condition on its size. -/
theorem Faithful.error_le {r x : ℝ} (h : Faithful r x) : |r - x| ≤ 2 * u * |x| + 2 ^ (-1074 : ℤ) := by
  have hη := two_zpow_pos (-1074)
  have hu := u_pos
  rcases le_or_gt ((2 : ℝ) ^ (-1022 : ℤ)) |x| with hx | hx
  · linarith [h.relative hx]
  rcases eq_or_ne x 0 with rfl | h0
  · rw [h.exact isDouble_zero]; simp [hη.le]
  have hlog : lastPlace x = -1074 := by
    have : Int.log 2 |x| < -1022 :=
      (Int.lt_zpow_iff_log_lt (b := 2) (by norm_num) (abs_pos.mpr h0)).mp (by exact_mod_cast hx)
    unfold lastPlace; omega
  have h1 := h.error
  rw [hlog] at h1
  have : 0 ≤ 2 * u * |x| := by positivity
  linarith

theorem Faithful.close {r x : ℝ} (h : Faithful r x) (hx : (2 : ℝ) ^ (-1022 : ℤ) ≤ |x|) : Close 3 r x := by
  have hu := u_pos
  have hu' := u_small
  have h0 : x ≠ 0 := by
    rintro rfl
    rw [abs_zero] at hx
    exact absurd (two_zpow_pos (-1022)) (not_lt.mpr hx)
  have h1 : |r / x - 1| ≤ 2 * u := by
    have e : r / x - 1 = (r - x) / x := by field_simp
    rw [e, abs_div, div_le_iff₀ (abs_pos.mpr h0)]; exact h.relative hx
  rw [abs_le] at h1
  refine ⟨r / x, by field_simp, ?_, ?_⟩
  · have : (1 - u) ^ 3 ≤ 1 - 2 * u := by
      have e : 1 - 2 * u - (1 - u) ^ 3 = u * (1 - 3 * u + u ^ 2) := by ring
      have : 0 ≤ u * (1 - 3 * u + u ^ 2) := mul_nonneg hu.le (by nlinarith)
      linarith
    linarith [h1.1]
  · have h2 : (1 - u) ^ 3 * (1 + 2 * u) ≤ 1 := by nlinarith [pow_pos hu 3, pow_pos hu 4]
    have h3 : 0 < (1 - u) ^ 3 := pow_pos one_sub_u_pos 3
    nlinarith [h1.2]

variable (L : Library)

theorem Library.pow_one {x : ℝ} (hx : IsDouble x) : L.pow x 1 = x := by
  have h := L.pow_faithful x 1 hx (.inr (by norm_num))
  rw [zpow_one] at h
  exact h.exact hx

theorem Close.zpow {k : ℕ} {a b : ℝ} (h : Close k a b) (n : ℤ) : Close (k * n.natAbs) (a ^ n) (b ^ n) := by
  have key : ∀ (m : ℕ) {a b : ℝ}, Close k a b → Close (k * m) (a ^ m) (b ^ m) := by
    intro m a b h
    induction m with
    | zero => simpa using Close.refl 1
    | succ m ih => rw [pow_succ, pow_succ, Nat.mul_succ]; exact ih.mul h
  rcases Int.natAbs_eq n with hn | hn
  · rw [hn, zpow_natCast, zpow_natCast, Int.natAbs_natCast]; exact key _ h
  · rw [hn, zpow_neg, zpow_neg, zpow_natCast, zpow_natCast, Int.natAbs_neg, Int.natAbs_natCast]; exact (key _ h).inv

/-- A factor of a size that the conversions use. -/
def Factor (f : ℝ) : Prop := 2 ^ (-20 : ℤ) ≤ f ∧ f ≤ 2 ^ (20 : ℤ)

theorem Factor.zpow {f : ℝ} (h : Factor f) (e : ℤ) :
    (2 : ℝ) ^ (-20 * |e|) ≤ f ^ e ∧ f ^ e ≤ (2 : ℝ) ^ (20 * |e|) := by
  have hf : 0 < f := (two_zpow_pos _).trans_le h.1
  have key : ∀ (n : ℕ) (g : ℝ), Factor g → (2 : ℝ) ^ (-20 * (n : ℤ)) ≤ g ^ n ∧ g ^ n ≤ (2 : ℝ) ^ (20 * (n : ℤ)) := by
    intro n g hg
    have g0 : 0 < g := (two_zpow_pos _).trans_le hg.1
    rw [zpow_mul, zpow_mul, zpow_natCast, zpow_natCast]
    exact ⟨pow_le_pow_left₀ (two_zpow_pos _).le hg.1 n, pow_le_pow_left₀ g0.le hg.2 n⟩
  have hi : Factor f⁻¹ := by
    constructor
    · rw [le_inv_comm₀ (two_zpow_pos _) hf, ← zpow_neg]; exact h.2
    · rw [inv_le_comm₀ hf (two_zpow_pos _), ← zpow_neg]; exact h.1
  rcases le_total 0 e with he | he
  · obtain ⟨n, rfl⟩ := Int.eq_ofNat_of_zero_le he
    rw [abs_of_nonneg he, zpow_natCast]; exact key n f h
  · obtain ⟨n, hn⟩ := Int.eq_ofNat_of_zero_le (neg_nonneg.mpr he)
    rw [abs_of_nonpos he, hn, show e = -(n : ℤ) by omega, zpow_neg, ← inv_zpow, zpow_natCast]
    exact key n _ hi

/-- A conversion, with a factor that is itself rounded twice, is the exact one up to a few roundings. -/
theorem convert_close {value f F : ℝ} {e : ℤ} (b : Bool) (hf : IsDouble f) (hfF : Close 2 f F) (hF : Factor F)
    (he : |e| ≤ 10) (hv : value = 0 ∨ 2 ^ (-800 : ℤ) ≤ |value|) :
    Close (2 * e.natAbs + 5) (convert L value f e b) (Units.convert value F e b) := by
  have hF0 : 0 < F := (two_zpow_pos _).trans_le hF.1
  have hpow : Close (2 * e.natAbs) (f ^ e) (F ^ e) := hfF.zpow e
  have hn : e.natAbs ≤ 10 := by rw [Int.abs_eq_natAbs] at he; omega
  have hFe := hF.zpow e
  have hlow : (2 : ℝ) ^ (-200 : ℤ) ≤ F ^ e := (two_zpow_le (by omega)).trans hFe.1
  have hhigh : F ^ e ≤ (2 : ℝ) ^ (200 : ℤ) := hFe.2.trans (two_zpow_le (by omega))
  have hFe0 : 0 < F ^ e := zpow_pos hF0 e
  have hfe : (2 : ℝ) ^ (-1022 : ℤ) ≤ |f ^ e| := by
    have h1 := hpow.abs_ge (by omega)
    rw [abs_of_pos hFe0] at h1
    refine le_trans ?_ h1
    rw [le_div_iff₀ (by norm_num)]
    refine le_trans ?_ hlow
    rw [← zpow_add_one₀ (by norm_num)]
    exact two_zpow_le (by norm_num)
  have f0 : f ≠ 0 := fun h => hF0.ne' (hfF.zero_iff.mp h)
  have hL : Close (2 * e.natAbs + 3) (L.pow f e) (F ^ e) := by
    rw [add_comm]
    exact ((L.pow_faithful f e hf (.inl f0)).close hfe).trans hpow
  have hadj : ∃ g G : ℝ, convert L value f e b = rnd (value * g) ∧ Units.convert value F e b = value * G ∧
      Close (2 * e.natAbs + 4) g G ∧ (2 : ℝ) ^ (-200 : ℤ) ≤ G := by
    cases b
    · refine ⟨rnd (1 / L.pow f e), 1 / F ^ e, rfl, rfl, ?_, ?_⟩
      · have h1 : Close (2 * e.natAbs + 3) (1 / L.pow f e) (1 / F ^ e) := by simpa using hL.inv
        refine h1.rnd ?_
        have h2 := h1.abs_ge (by omega)
        refine le_trans ?_ h2
        rw [abs_of_pos (by positivity), le_div_iff₀ (by norm_num), le_div_iff₀ hFe0]
        calc (2 : ℝ) ^ (-1022 : ℤ) * 2 * F ^ e ≤ 2 ^ (-1022 : ℤ) * 2 * 2 ^ (200 : ℤ) :=
              mul_le_mul_of_nonneg_left hhigh (by positivity)
          _ = 2 ^ (-821 : ℤ) := by
              rw [← zpow_add_one₀ (by norm_num), ← zpow_add₀ (by norm_num)]; norm_num
          _ ≤ 2 ^ (0 : ℤ) := two_zpow_le (by norm_num)
          _ = 1 := zpow_zero _
      · rw [le_div_iff₀ hFe0]
        calc (2 : ℝ) ^ (-200 : ℤ) * F ^ e ≤ 2 ^ (-200 : ℤ) * 2 ^ (200 : ℤ) :=
              mul_le_mul_of_nonneg_left hhigh (by positivity)
          _ = 1 := by rw [← zpow_add₀ (by norm_num)]; norm_num
    · exact ⟨L.pow f e, F ^ e, rfl, rfl, hL.mono (by omega), hlow⟩
  obtain ⟨g, G, h1, h2, h3, h4⟩ := hadj
  rw [h1, h2]
  rcases hv with rfl | hv
  · rw [zero_mul, zero_mul, rnd_zero]; exact (Close.refl 0).mono (by omega)
  · have h5 : Close (2 * e.natAbs + 4) (value * g) (value * G) := by
      have := (Close.refl value).mul h3
      rwa [zero_add] at this
    refine h5.rnd ?_
    have h6 := h5.abs_ge (by omega)
    refine le_trans ?_ h6
    have hG : 0 < G := (two_zpow_pos _).trans_le h4
    rw [le_div_iff₀ (by norm_num), abs_mul, abs_of_pos hG]
    calc (2 : ℝ) ^ (-1022 : ℤ) * 2 = 2 ^ (-1021 : ℤ) := by rw [← zpow_add_one₀ (by norm_num)]; norm_num
      _ ≤ 2 ^ (-1000 : ℤ) := two_zpow_le (by norm_num)
      _ = 2 ^ (-800 : ℤ) * 2 ^ (-200 : ℤ) := by rw [← zpow_add₀ (by norm_num)]; norm_num
      _ ≤ |value| * G := mul_le_mul hv h4 (two_zpow_pos _).le (abs_nonneg _)

end Verif.Double
