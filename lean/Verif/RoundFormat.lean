import Verif.RoundModel
import Mathlib.Tactic.Linarith
import Mathlib.Tactic.NormNum
import Mathlib.Tactic.Positivity
import Mathlib.Tactic.Ring
import Mathlib.Tactic.FieldSimp
import Mathlib.Algebra.Order.Ring.Rat
import Mathlib.Data.Rat.Floor

/-! # `rnd64` is a rounding -/

set_option autoImplicit false

namespace Round

variable {K : Type*} [Field K] [LinearOrder K] [IsStrictOrderedRing K] [FloorRing K]

theorem rne_lower (x : K) : ⌊x⌋ ≤ rne x := by
  unfold rne
  by_cases h1 : x - ⌊x⌋ < 1 / 2
  · rw [if_pos h1]
  · rw [if_neg h1]
    by_cases h2 : 1 / 2 < x - ⌊x⌋
    · rw [if_pos h2]; omega
    · rw [if_neg h2]
      by_cases h3 : ⌊x⌋ % 2 = 0
      · rw [if_pos h3]
      · rw [if_neg h3]; omega

theorem rne_upper (x : K) : rne x ≤ ⌊x⌋ + 1 := by
  unfold rne
  by_cases h1 : x - ⌊x⌋ < 1 / 2
  · rw [if_pos h1]; omega
  · rw [if_neg h1]
    by_cases h2 : 1 / 2 < x - ⌊x⌋
    · rw [if_pos h2]
    · rw [if_neg h2]
      by_cases h3 : ⌊x⌋ % 2 = 0
      · rw [if_pos h3]; omega
      · rw [if_neg h3]

theorem rne_err (x : K) : |(rne x : K) - x| ≤ 1 / 2 := by
  have hl := Int.floor_le x
  have hu := Int.lt_floor_add_one x
  unfold rne
  by_cases h1 : x - ⌊x⌋ < 1 / 2
  · rw [if_pos h1, abs_le]; constructor <;> linarith
  · rw [if_neg h1]
    push Not at h1
    by_cases h2 : 1 / 2 < x - ⌊x⌋
    · rw [if_pos h2, abs_le]; push_cast; constructor <;> linarith
    · rw [if_neg h2]
      push Not at h2
      by_cases h3 : ⌊x⌋ % 2 = 0
      · rw [if_pos h3, abs_le]; constructor <;> linarith
      · rw [if_neg h3, abs_le]; push_cast; constructor <;> linarith

theorem rne_int (n : ℤ) : rne (n : K) = n := by
  unfold rne
  rw [Int.floor_intCast, sub_self, if_pos (by norm_num)]

theorem rne_mono {x y : K} (h : x ≤ y) : rne x ≤ rne y := by
  rcases lt_or_eq_of_le (Int.floor_mono h) with hf | hf
  · exact (rne_upper x).trans (by have := rne_lower y; omega)
  · unfold rne
    rw [← hf]
    by_cases h1 : x - ⌊x⌋ < 1 / 2
    · rw [if_pos h1]
      have := rne_lower y
      unfold rne at this
      rw [← hf] at this
      exact this
    · rw [if_neg h1]
      by_cases h2 : 1 / 2 < x - ⌊x⌋
      · have hy1 : ¬ y - ⌊x⌋ < 1 / 2 := by linarith
        have hy2 : 1 / 2 < y - ⌊x⌋ := by linarith
        rw [if_pos h2, if_neg hy1, if_pos hy2]
      · have hy1 : ¬ y - ⌊x⌋ < 1 / 2 := by linarith
        rw [if_neg h2, if_neg hy1]
        by_cases h3 : ⌊x⌋ % 2 = 0
        · rw [if_pos h3]
          by_cases h4 : 1 / 2 < y - ⌊x⌋
          · rw [if_pos h4]; omega
          · rw [if_neg h4]
        · rw [if_neg h3]
          by_cases h4 : 1 / 2 < y - ⌊x⌋
          · rw [if_pos h4]
          · rw [if_neg h4]

/-- The nearest integer when it is strictly nearest. -/
theorem rne_eq {x : K} {m : ℤ} (h : |x - m| < 1 / 2) : rne x = m := by
  have he := rne_err x
  rw [abs_le] at he
  rw [abs_lt] at h
  have h1 : ((rne x : ℤ) : K) < (m : K) + 1 := by linarith
  have h2 : (m : K) < (rne x : K) + 1 := by linarith
  have h1' : rne x < m + 1 := by exact_mod_cast h1
  have h2' : m < rne x + 1 := by exact_mod_cast h2
  omega

theorem rne_neg (x : K) : rne (-x) = -rne x := by
  by_cases h : |x - (rne x : K)| < 1 / 2
  · apply rne_eq
    push_cast
    rw [show -x - -(rne x : K) = -(x - rne x) by ring, abs_neg]
    exact h
  · have hl := Int.floor_le x
    have hu := Int.lt_floor_add_one x
    have he := rne_err x
    rw [abs_sub_comm] at he
    have hh : |x - (rne x : K)| = 1 / 2 := le_antisymm he (not_lt.1 h)
    -- a tie: `x` is a half
    have hx : x = ⌊x⌋ + 1 / 2 := by
      have h1 := rne_lower x
      have h2 := rne_upper x
      rcases (show rne x = ⌊x⌋ ∨ rne x = ⌊x⌋ + 1 by omega) with h3 | h3
      · rw [h3, abs_of_nonneg (by linarith)] at hh
        linarith
      · rw [h3] at hh
        push_cast at hh
        rw [abs_of_nonpos (by linarith)] at hh
        linarith
    have hn : ⌊-x⌋ = -⌊x⌋ - 1 := by
      rw [Int.floor_eq_iff]
      push_cast
      constructor <;> linarith
    have t1 : ¬ x - ⌊x⌋ < 1 / 2 := by linarith
    have t2 : ¬ 1 / 2 < x - ⌊x⌋ := by linarith
    have t3 : ¬ -x - (⌊-x⌋ : K) < 1 / 2 := by rw [hn]; push_cast; linarith
    have t4 : ¬ 1 / 2 < -x - (⌊-x⌋ : K) := by rw [hn]; push_cast; linarith
    unfold rne
    rw [if_neg t1, if_neg t2, if_neg t3, if_neg t4, hn]
    by_cases h5 : ⌊x⌋ % 2 = 0
    · rw [if_pos h5, if_neg (by omega)]; omega
    · rw [if_neg h5, if_pos (by omega)]; omega

theorem two_pos : (0 : K) < 2 := by norm_num

theorem zp (e : ℤ) : (0 : K) < 2 ^ e := zpow_pos two_pos e

theorem zle {a b : ℤ} (h : a ≤ b) : (2 : K) ^ a ≤ 2 ^ b :=
  zpow_le_zpow_right₀ (by norm_num) h

theorem zlt_of {a b : ℤ} (h : (2 : K) ^ a < 2 ^ b) : a < b := by
  by_contra hc
  exact absurd h (not_lt.2 (zle (not_lt.1 hc)))

theorem expo_ge (x : K) : -1074 ≤ expo x := by
  unfold expo
  by_cases h : x = 0
  · rw [if_pos h]
  · rw [if_neg h]; exact le_max_right _ _

/-- A number has at most 53 bits in front of its last place. -/
theorem lt_expo (x : K) : |x| < 2 ^ (expo x + 53) := by
  unfold expo
  by_cases h : x = 0
  · rw [if_pos h, h, abs_zero]; exact zp _
  · rw [if_neg h]
    have h1 := Int.lt_zpow_succ_log_self (b := 2) (by norm_num) |x|
    have h2 : (2 : K) ^ (Int.log 2 |x| + 1) ≤ 2 ^ (max (Int.log 2 |x| - 52) (-1074) + 53) :=
      zle (by have := le_max_left (Int.log 2 |x| - 52) (-1074); omega)
    have h3 : ((2 : ℕ) : K) = 2 := by norm_num
    rw [h3] at h1
    exact lt_of_lt_of_le h1 h2

/-- Above the least exponent it has exactly 53. -/
theorem expo_le (x : K) (h : -1074 < expo x) : 2 ^ (expo x + 52) ≤ |x| := by
  unfold expo at h ⊢
  by_cases h0 : x = 0
  · rw [if_pos h0] at h; omega
  · rw [if_neg h0] at h ⊢
    have he : max (Int.log 2 |x| - 52) (-1074) = Int.log 2 |x| - 52 := by
      rcases max_choice (Int.log 2 |x| - 52) (-1074) with e | e
      · exact e
      · rw [e] at h; omega
    rw [he, sub_add_cancel]
    have h1 := Int.zpow_log_le_self (b := 2) (by norm_num) (abs_pos.2 h0)
    have h3 : ((2 : ℕ) : K) = 2 := by norm_num
    rw [h3] at h1
    exact h1

theorem expo_le_of_lt {x : K} {e : ℤ} (he : -1074 ≤ e) (h : |x| < 2 ^ (e + 53)) : expo x ≤ e := by
  by_cases hx : -1074 < expo x
  · have := zlt_of (lt_of_le_of_lt (expo_le x hx) h)
    omega
  · omega

theorem expo_ge_of_le {x : K} {e : ℤ} (h : 2 ^ (e + 52) ≤ |x|) : e ≤ expo x := by
  have := zlt_of (lt_of_le_of_lt h (lt_expo x))
  omega

/-- A rounded number is at most an integral multiple of its last place that bounds the number. -/
theorem rnd_le_of {x : K} {m : ℤ} (h : x ≤ m * 2 ^ expo x) : rnd64 x ≤ m * 2 ^ expo x := by
  unfold rnd64
  have h1 : x / 2 ^ expo x ≤ (m : K) := by rwa [div_le_iff₀ (zp _)]
  have h2 := rne_mono h1
  rw [rne_int] at h2
  have h3 : ((rne (x / 2 ^ expo x) : ℤ) : K) ≤ m := by exact_mod_cast h2
  exact mul_le_mul_of_nonneg_right h3 (zp _).le

theorem le_rnd_of {x : K} {m : ℤ} (h : m * 2 ^ expo x ≤ x) : m * 2 ^ expo x ≤ rnd64 x := by
  unfold rnd64
  have h1 : (m : K) ≤ x / 2 ^ expo x := by rwa [le_div_iff₀ (zp _)]
  have h2 := rne_mono h1
  rw [rne_int] at h2
  have h3 : (m : K) ≤ ((rne (x / 2 ^ expo x) : ℤ) : K) := by exact_mod_cast h2
  exact mul_le_mul_of_nonneg_right h3 (zp _).le

theorem pow_split (k : ℕ) (e : ℤ) : (2 : K) ^ (e + k) = ((2 ^ k : ℤ) : K) * 2 ^ e := by
  rw [zpow_add₀ (by norm_num), zpow_natCast, mul_comm]
  push_cast
  ring

theorem rnd64_mono {x y : K} (h : x ≤ y) : rnd64 x ≤ rnd64 y := by
  rcases lt_trichotomy (expo x) (expo y) with hE | hE | hE
  · have hy := expo_le y (by have := expo_ge x; omega)
    have hx := lt_expo x
    have hxy : (2 : K) ^ (expo x + 53) ≤ 2 ^ (expo y + 52) := zle (by omega)
    have hyp : 0 < y := by
      by_contra hc
      rw [abs_of_nonpos (not_lt.1 hc)] at hy
      rw [abs_of_nonpos (h.trans (not_lt.1 hc))] at hx
      linarith
    rw [abs_of_pos hyp] at hy
    have e1 := pow_split (K := K) 53 (expo x)
    have e2 := pow_split (K := K) 52 (expo y)
    norm_cast at e1 e2
    have h1 : rnd64 x ≤ 2 ^ (expo x + 53) := by
      rw [show (expo x + 53 : ℤ) = expo x + (53 : ℕ) by norm_num, pow_split]
      apply rnd_le_of
      rw [← pow_split]
      exact (le_abs_self x).trans (by exact_mod_cast hx.le)
    have h2 : 2 ^ (expo y + 52) ≤ rnd64 y := by
      rw [show (expo y + 52 : ℤ) = expo y + (52 : ℕ) by norm_num, pow_split]
      apply le_rnd_of
      rw [← pow_split]
      exact_mod_cast hy
    linarith
  · unfold rnd64
    rw [← hE]
    have h1 : x / 2 ^ expo x ≤ y / 2 ^ expo x := div_le_div_of_nonneg_right h (zp _).le
    have h3 : ((rne (x / 2 ^ expo x) : ℤ) : K) ≤ (rne (y / 2 ^ expo x) : ℤ) := by
      exact_mod_cast rne_mono h1
    exact mul_le_mul_of_nonneg_right h3 (zp _).le
  · have hx := expo_le x (by have := expo_ge y; omega)
    have hy := lt_expo y
    have hxy : (2 : K) ^ (expo y + 53) ≤ 2 ^ (expo x + 52) := zle (by omega)
    have hxn : x < 0 := by
      by_contra hc
      rw [abs_of_nonneg (not_lt.1 hc)] at hx
      rw [abs_of_nonneg ((not_lt.1 hc).trans h)] at hy
      linarith
    rw [abs_of_neg hxn] at hx
    have h1 : rnd64 x ≤ -2 ^ (expo x + 52) := by
      rw [show (expo x + 52 : ℤ) = expo x + (52 : ℕ) by norm_num, pow_split, ← neg_mul, ← Int.cast_neg]
      apply rnd_le_of
      rw [Int.cast_neg, neg_mul, ← pow_split]
      have : (2 : K) ^ (expo x + ((52 : ℕ) : ℤ)) = 2 ^ (expo x + 52) := by norm_num
      rw [this]; linarith
    have h2 : -2 ^ (expo y + 53) ≤ rnd64 y := by
      rw [show (expo y + 53 : ℤ) = expo y + (53 : ℕ) by norm_num, pow_split, ← neg_mul, ← Int.cast_neg]
      apply le_rnd_of
      rw [Int.cast_neg, neg_mul, ← pow_split]
      have : (2 : K) ^ (expo y + ((53 : ℕ) : ℤ)) = 2 ^ (expo y + 53) := by norm_num
      rw [this]
      have := neg_abs_le y
      linarith
    linarith

/-- Numbers with at most 53 bits are kept. -/
theorem rnd64_exact (m : ℤ) (e : ℤ) (hm : |m| ≤ 2 ^ 53) (he : -1074 ≤ e) :
    rnd64 ((m : K) * 2 ^ e) = m * 2 ^ e := by
  set x : K := (m : K) * 2 ^ e with hx
  have key : ∃ k : ℤ, x = k * 2 ^ expo x := by
    rcases lt_or_eq_of_le hm with h | h
    · have hlt : |x| < 2 ^ (e + 53) := by
        rw [hx, abs_mul, abs_of_pos (zp (K := K) e)]
        have h1 : (|(m : K)|) < 2 ^ 53 := by
          rw [← Int.cast_abs]; exact_mod_cast h
        have h2 : (2 : K) ^ (e + 53) = 2 ^ 53 * 2 ^ e := by
          rw [zpow_add₀ (by norm_num), mul_comm]; norm_cast
        rw [h2]
        exact mul_lt_mul_of_pos_right h1 (zp e)
      have hle := expo_le_of_lt he hlt
      obtain ⟨k, hk⟩ := Int.eq_ofNat_of_zero_le (show 0 ≤ e - expo x by omega)
      refine ⟨m * 2 ^ k, ?_⟩
      have h3 : (2 : K) ^ e = 2 ^ k * 2 ^ expo x := by
        rw [show e = (k : ℤ) + expo x by omega, zpow_add₀ (by norm_num), zpow_natCast]
      rw [hx, ← hx]
      push_cast
      rw [mul_assoc, ← h3]
    · have habs : |x| = 2 ^ (e + 53) := by
        rw [hx, abs_mul, abs_of_pos (zp (K := K) e), ← Int.cast_abs, h, zpow_add₀ (by norm_num), mul_comm]
        norm_cast
      have h1 : expo x ≤ e + 1 := by
        apply expo_le_of_lt (by omega)
        rw [habs]
        exact zpow_lt_zpow_right₀ (by norm_num) (by omega)
      have h2 : e + 1 ≤ expo x := by
        apply expo_ge_of_le
        rw [habs]
        exact zle (by omega)
      have h3 : expo x = e + 1 := le_antisymm h1 h2
      rcases abs_eq (by norm_num : (0 : ℤ) ≤ 2 ^ 53) |>.1 h with hm' | hm'
      · refine ⟨2 ^ 52, ?_⟩
        rw [h3, hx, hm', zpow_add₀ (by norm_num)]
        push_cast
        rw [zpow_one]; ring
      · refine ⟨-2 ^ 52, ?_⟩
        rw [h3, hx, hm', zpow_add₀ (by norm_num)]
        push_cast
        rw [zpow_one]; ring
  obtain ⟨k, hk⟩ := key
  unfold rnd64
  have h1 : x / 2 ^ expo x = (k : K) := by
    rw [div_eq_iff (zp _).ne']; exact hk
  rw [h1, rne_int, ← hk]

theorem rnd64_int (m : ℤ) (hm : |m| ≤ 2 ^ 53) : rnd64 (m : K) = m := by
  have := rnd64_exact (K := K) m 0 hm (by norm_num)
  simpa using this

/-- Evaluation of a rounding: `m` is the nearest integral number of last places. -/
theorem rnd64_eq {x : K} {e m : ℤ} (he : -1074 ≤ e) (h1 : 2 ^ (e + 52) ≤ |x|)
    (h2 : |x| < 2 ^ (e + 53)) (h : |x / 2 ^ e - m| < 1 / 2) : rnd64 x = m * 2 ^ e := by
  have h3 : expo x = e := le_antisymm (expo_le_of_lt he h2) (expo_ge_of_le h1)
  unfold rnd64
  rw [h3, rne_eq h]

/-- The results have at most 53 bits. -/
theorem rnd64_format (x : K) : ∃ m e : ℤ, |m| ≤ 2 ^ 53 ∧ -1074 ≤ e ∧ rnd64 x = m * 2 ^ e := by
  refine ⟨rne (x / 2 ^ expo x), expo x, ?_, expo_ge x, rfl⟩
  have h1 : |x / 2 ^ expo x| < 2 ^ 53 := by
    rw [abs_div, abs_of_pos (zp (K := K) (expo x)), div_lt_iff₀ (zp _)]
    have := lt_expo x
    rw [zpow_add₀ (by norm_num), mul_comm] at this
    exact_mod_cast this
  rw [abs_lt] at h1
  rw [abs_le]
  constructor
  · have h2 := rne_mono (show ((-2 ^ 53 : ℤ) : K) ≤ x / 2 ^ expo x by push_cast; linarith)
    rw [rne_int] at h2
    exact h2
  · have h2 := rne_mono (show x / 2 ^ expo x ≤ ((2 ^ 53 : ℤ) : K) by push_cast; linarith)
    rw [rne_int] at h2
    exact h2

theorem rnd64_idem (x : K) : rnd64 (rnd64 x) = rnd64 x := by
  obtain ⟨m, e, hm, he, h⟩ := rnd64_format x
  rw [h]
  exact rnd64_exact m e hm he

theorem rnd64_neg (x : K) : rnd64 (-x) = -rnd64 x := by
  have h : expo (-x) = expo x := by
    unfold expo
    rw [abs_neg]
    simp only [neg_eq_zero]
  unfold rnd64
  rw [h, neg_div, rne_neg]
  push_cast
  ring

theorem rnd64_err_expo (x : K) : |rnd64 x - x| ≤ 2 ^ expo x / 2 := by
  have h := rne_err (x / 2 ^ expo x)
  have h1 : rnd64 x - x = ((rne (x / 2 ^ expo x) : K) - x / 2 ^ expo x) * 2 ^ expo x := by
    unfold rnd64
    rw [sub_mul, div_mul_cancel₀ _ (zp _).ne']
  rw [h1, abs_mul, abs_of_pos (zp (K := K) (expo x))]
  have := mul_le_mul_of_nonneg_right h (zp (K := K) (expo x)).le
  linarith

theorem rne_nearest (x : K) (k : ℤ) : |(rne x : K) - x| ≤ |(k : K) - x| := by
  by_cases h : |x - k| < 1 / 2
  · rw [rne_eq h]
  · rw [abs_sub_comm] at h
    exact (rne_err x).trans (not_lt.1 h)

theorem rnd64_nearest_multiple (x : K) (k : ℤ) : |rnd64 x - x| ≤ |(k : K) * 2 ^ expo x - x| := by
  have h1 : rnd64 x - x = ((rne (x / 2 ^ expo x) : K) - x / 2 ^ expo x) * 2 ^ expo x := by
    unfold rnd64
    rw [sub_mul, div_mul_cancel₀ _ (zp _).ne']
  have h2 : (k : K) * 2 ^ expo x - x = ((k : K) - x / 2 ^ expo x) * 2 ^ expo x := by
    rw [sub_mul, div_mul_cancel₀ _ (zp _).ne']
  rw [h1, h2, abs_mul, abs_mul]
  exact mul_le_mul_of_nonneg_right (rne_nearest _ k) (abs_nonneg _)

/-- The result is a nearest number of the format. -/
theorem rnd64_nearest (x : K) (m e : ℤ) (hm : |m| ≤ 2 ^ 53) (he : -1074 ≤ e) :
    |rnd64 x - x| ≤ |(m : K) * 2 ^ e - x| := by
  rcases le_or_gt (expo x) e with h | h
  · obtain ⟨k, hk⟩ := Int.eq_ofNat_of_zero_le (show 0 ≤ e - expo x by omega)
    have h3 : (2 : K) ^ e = 2 ^ k * 2 ^ expo x := by
      rw [show e = (k : ℤ) + expo x by omega, zpow_add₀ (by norm_num), zpow_natCast]
    have := rnd64_nearest_multiple x (m * 2 ^ k)
    push_cast at this
    rw [mul_assoc, ← h3] at this
    exact this
  · have hx := expo_le x (by omega)
    have e1 : (2 : K) ^ (expo x + 52) = ((2 ^ 52 : ℤ) : K) * 2 ^ expo x := by
      have := pow_split (K := K) 52 (expo x)
      exact_mod_cast this
    have hy : |(m : K) * 2 ^ e| ≤ 2 ^ (expo x + 52) := by
      rw [abs_mul, abs_of_pos (zp (K := K) e), ← Int.cast_abs]
      have h1 : ((|m| : ℤ) : K) ≤ 2 ^ 53 := by exact_mod_cast hm
      have h2 : (2 : K) ^ 53 * 2 ^ e = 2 ^ (e + 53) := by
        rw [zpow_add₀ (by norm_num), mul_comm]; norm_cast
      calc ((|m| : ℤ) : K) * 2 ^ e ≤ 2 ^ 53 * 2 ^ e := mul_le_mul_of_nonneg_right h1 (zp _).le
        _ = 2 ^ (e + 53) := h2
        _ ≤ _ := zle (by omega)
    generalize (m : K) * 2 ^ e = y at *
    have hy' := abs_le.1 hy
    rcases le_total 0 x with h0 | h0
    · rw [abs_of_nonneg h0] at hx
      have h1 := rnd64_nearest_multiple x (2 ^ 52)
      rw [← e1, abs_of_nonpos (sub_nonpos.2 hx)] at h1
      rw [abs_of_nonpos (show y - x ≤ 0 by linarith [hy'.2])]
      linarith [hy'.2]
    · rw [abs_of_nonpos h0] at hx
      have h1 := rnd64_nearest_multiple x (-2 ^ 52)
      have e2 : ((-2 ^ 52 : ℤ) : K) * 2 ^ expo x = -2 ^ (expo x + 52) := by
        rw [e1]; push_cast; ring
      rw [e2, abs_of_nonneg (show 0 ≤ -2 ^ (expo x + 52) - x by linarith)] at h1
      rw [abs_of_nonneg (show 0 ≤ y - x by linarith [hy'.1])]
      linarith [hy'.1]

/-- Half a last place, relatively. -/
def unit64 (K : Type*) [Field K] : K := 1 / 2 ^ 53

/-- Half of the least positive number of the format. -/
def tiny64 (K : Type*) [Field K] : K := 2 ^ (-1075 : ℤ)

theorem rnd64_rel {x : K} (h : -1074 < expo x) : |rnd64 x - x| ≤ unit64 K * |x| := by
  have h1 := rnd64_err_expo x
  have h2 := expo_le x h
  have h3 : (2 : K) ^ (expo x + 52) = 2 ^ expo x * 2 ^ 52 := by
    rw [zpow_add₀ (by norm_num)]; norm_cast
  rw [h3] at h2
  have h4 : (2 : K) ^ expo x / 2 = unit64 K * (2 ^ expo x * 2 ^ 52) := by
    unfold unit64; field_simp
  rw [h4] at h1
  refine h1.trans (mul_le_mul_of_nonneg_left h2 ?_)
  unfold unit64; positivity

theorem rnd64_err (x : K) : |rnd64 x - x| ≤ unit64 K * |x| + tiny64 K := by
  have ht : (0 : K) ≤ tiny64 K := (zp _).le
  have hu : (0 : K) ≤ unit64 K * |x| := by unfold unit64; positivity
  by_cases h : -1074 < expo x
  · have := rnd64_rel h
    linarith
  · have he : expo x = -1074 := by have := expo_ge x; omega
    have h1 := rnd64_err_expo x
    rw [he] at h1
    have h2 : (2 : K) ^ (-1074 : ℤ) / 2 = tiny64 K := by
      unfold tiny64
      rw [show (-1074 : ℤ) = -1075 + 1 by norm_num, zpow_add₀ (by norm_num), zpow_one]
      field_simp
    rw [h2] at h1
    linarith

theorem rnd64_multiple {x : K} (h : rnd64 x = x) : ∃ k : ℤ, x = k * 2 ^ (-1074 : ℤ) := by
  obtain ⟨m, e, _, he, hx⟩ := rnd64_format x
  obtain ⟨k, hk⟩ := Int.eq_ofNat_of_zero_le (show 0 ≤ e + 1074 by omega)
  refine ⟨m * 2 ^ k, ?_⟩
  rw [← h, hx]
  have h3 : (2 : K) ^ e = 2 ^ k * 2 ^ (-1074 : ℤ) := by
    rw [show e = (k : ℤ) + -1074 by omega, zpow_add₀ (by norm_num), zpow_natCast]
  push_cast
  rw [mul_assoc, ← h3]

theorem rnd64_add_err (x y : K) (hx : rnd64 x = x) (hy : rnd64 y = y) :
    |rnd64 (x + y) - (x + y)| ≤ unit64 K * |x + y| := by
  by_cases h : -1074 < expo (x + y)
  · exact rnd64_rel h
  · have he : expo (x + y) = -1074 := by have := expo_ge (x + y); omega
    obtain ⟨a, ha⟩ := rnd64_multiple hx
    obtain ⟨b, hb⟩ := rnd64_multiple hy
    have hs : x + y = ((a + b : ℤ) : K) * 2 ^ (-1074 : ℤ) := by
      rw [ha, hb]; push_cast; ring
    have h1 : rnd64 (x + y) = x + y := by
      unfold rnd64
      rw [he]
      have h2 : (x + y) / 2 ^ (-1074 : ℤ) = ((a + b : ℤ) : K) := by
        rw [div_eq_iff (zp _).ne']; exact hs
      rw [h2, rne_int, ← hs]
    rw [h1, sub_self, abs_zero]
    unfold unit64
    positivity

/-- The doubles. -/
def binary64 (K : Type*) [Field K] [LinearOrder K] [IsStrictOrderedRing K] [FloorRing K] :
    Rounding K where
  rnd := rnd64
  u := unit64 K
  η := tiny64 K
  mono := fun _ _ h => rnd64_mono h
  zero := by simpa using rnd64_int (K := K) 0 (by norm_num)
  idem := rnd64_idem
  odd := rnd64_neg
  u_nonneg := by unfold unit64; positivity
  u_small := by unfold unit64; norm_num
  η_nonneg := (zp _).le
  err := rnd64_err
  add_err := rnd64_add_err

/-- Exact arithmetic is a rounding too. -/
def exactArith (K : Type*) [Field K] [LinearOrder K] [IsStrictOrderedRing K] : Rounding K where
  rnd := fun x => x
  u := 0
  η := 0
  mono := fun _ _ h => h
  zero := rfl
  idem := fun _ => rfl
  odd := fun _ => rfl
  u_nonneg := le_rfl
  u_small := by norm_num
  η_nonneg := le_rfl
  err := by intro x; simp
  add_err := by intro x y _ _; simp

end Round
