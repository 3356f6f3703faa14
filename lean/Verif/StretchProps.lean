import Verif.StretchModel
import Mathlib.Tactic.Linarith
import Mathlib.Tactic.Positivity
import Mathlib.Tactic.FieldSimp
import Mathlib.Tactic.Ring
import Mathlib.Tactic.FinCases

/-!
# Contrast stretches: properties C203-C205
-/

set_option autoImplicit false
set_option linter.unusedSectionVars false

namespace Stretch

variable {ι : Type} [Fintype ι] [Nonempty ι]

theorem gmin_le (g : ι → ℝ) (c : ι) : gmin g ≤ g c := Finset.inf'_le _ (Finset.mem_univ c)

theorem le_gmax (g : ι → ℝ) (c : ι) : g c ≤ gmax g := Finset.le_sup' g (Finset.mem_univ c)

theorem exists_gmin (g : ι → ℝ) : ∃ c, gmin g = g c := by
  obtain ⟨c, -, h⟩ := Finset.exists_mem_eq_inf' (Finset.univ_nonempty (α := ι)) g
  exact ⟨c, h⟩

theorem exists_gmax (g : ι → ℝ) : ∃ c, gmax g = g c := by
  obtain ⟨c, -, h⟩ := Finset.exists_mem_eq_sup' (Finset.univ_nonempty (α := ι)) g
  exact ⟨c, h⟩

theorem gmin_le_gmax (g : ι → ℝ) : gmin g ≤ gmax g := by
  obtain ⟨c, h⟩ := exists_gmin g
  rw [h]; exact le_gmax g c

theorem normalize_of_ne (g : ι → ℝ) (h : gmin g ≠ gmax g) (c : ι) :
    normalize g c = (g c - gmin g) / (gmax g - gmin g) := by
  unfold normalize; rw [if_pos h]

theorem normalize_of_eq (g : ι → ℝ) (h : gmin g = gmax g) (c : ι) : normalize g c = 0 := by
  unfold normalize; rw [if_neg (not_not.2 h)]

theorem normalize_mem (g : ι → ℝ) (c : ι) : 0 ≤ normalize g c ∧ normalize g c ≤ 1 := by
  by_cases h : gmin g = gmax g
  · rw [normalize_of_eq g h]; norm_num
  · have hl : 0 < gmax g - gmin g := sub_pos.2 (lt_of_le_of_ne (gmin_le_gmax g) h)
    rw [normalize_of_ne g h]
    exact ⟨div_nonneg (sub_nonneg.2 (gmin_le g c)) hl.le, (div_le_one hl).2 (by linarith [le_gmax g c])⟩

theorem normalize_lt (g : ι → ℝ) (c d : ι) : normalize g c < normalize g d ↔ g c < g d := by
  by_cases h : gmin g = gmax g
  · rw [normalize_of_eq g h, normalize_of_eq g h]
    have : g c = g d := le_antisymm (by linarith [le_gmax g c, gmin_le g d]) (by linarith [le_gmax g d, gmin_le g c])
    rw [this]; simp
  · have hl : 0 < gmax g - gmin g := sub_pos.2 (lt_of_le_of_ne (gmin_le_gmax g) h)
    rw [normalize_of_ne g h, normalize_of_ne g h, div_lt_div_iff_of_pos_right hl]
    constructor <;> intro h <;> linarith

theorem normalize_low (g : ι → ℝ) (c : ι) (hc : ∀ d, g c ≤ g d) : normalize g c = 0 := by
  obtain ⟨e, he⟩ := exists_gmin g
  have hm : g c = gmin g := le_antisymm (he ▸ hc e) (gmin_le g c)
  by_cases h : gmin g = gmax g
  · exact normalize_of_eq g h c
  · rw [normalize_of_ne g h, hm, sub_self, zero_div]

theorem normalize_high (g : ι → ℝ) (c : ι) (hc : ∀ d, g d ≤ g c) (hne : ∃ d, g d ≠ g c) : normalize g c = 1 := by
  obtain ⟨e, he⟩ := exists_gmax g
  have hm : g c = gmax g := le_antisymm (le_gmax g c) (he ▸ hc e)
  have h : gmin g ≠ gmax g := by
    intro h
    obtain ⟨d, hd⟩ := hne
    exact hd (le_antisymm (hc d) (by linarith [gmin_le g d]))
  rw [normalize_of_ne g h, hm, div_self (sub_ne_zero.2 (Ne.symm h))]

/-! ### The curves -/

/-- Strictly increasing on the unit interval, from zero. -/
structure Curve (f : ℝ → ℝ) : Prop where
  mono : ∀ x y, 0 ≤ x → x < y → y ≤ 1 → f x < f y
  zero : f 0 = 0

theorem curve_linear : Curve fun x => x := ⟨fun _ _ _ h _ => h, rfl⟩

theorem curve_power {p : ℝ} (hp : 0 < p) : Curve fun x => x ^ p :=
  ⟨fun _ _ hx h _ => Real.rpow_lt_rpow hx h hp, Real.zero_rpow hp.ne'⟩

theorem curve_power2 {a b : ℝ} (ha : 0 < a) (hb : 0 < b) : Curve fun x => 1 - (1 + a * x) ^ (-b) := by
  refine ⟨fun x y hx h _ => ?_, by simp⟩
  have h1 : 0 < 1 + a * x := by positivity
  have h2 : 1 + a * x < 1 + a * y := by nlinarith
  have := Real.rpow_lt_rpow_of_neg h1 h2 (neg_lt_zero.2 hb)
  show 1 - _ < 1 - _
  linarith

theorem curve_power3 {a b : ℝ} (ha : 0 < a) (hb : 0 < b) : Curve fun x => (1 - (1 - x ^ a) ^ b) ^ (1 / b) := by
  refine ⟨fun x y hx h hy => ?_, ?_⟩
  · have h1 : x ^ a < y ^ a := Real.rpow_lt_rpow hx h ha
    have h2 : y ^ a ≤ 1 := Real.rpow_le_one (hx.trans h.le) hy ha.le
    have h3 : (1 - y ^ a) ^ b < (1 - x ^ a) ^ b := Real.rpow_lt_rpow (by linarith) (by linarith) hb
    have h4 : (1 - x ^ a) ^ b ≤ 1 :=
      Real.rpow_le_one (by linarith) (by linarith [Real.rpow_nonneg hx a]) hb.le
    exact Real.rpow_lt_rpow (by linarith) (by linarith) (by positivity)
  · show (1 - (1 - (0 : ℝ) ^ a) ^ b) ^ (1 / b) = 0
    rw [Real.zero_rpow ha.ne', sub_zero, Real.one_rpow, sub_self, Real.zero_rpow (by positivity)]

theorem tanh_lt {x y : ℝ} (h : x < y) : Real.tanh x < Real.tanh y := by
  rw [Real.tanh_eq_sinh_div_cosh, Real.tanh_eq_sinh_div_cosh, div_lt_div_iff₀ (Real.cosh_pos x) (Real.cosh_pos y)]
  have h1 : 0 < Real.sinh (y - x) := Real.sinh_pos_iff.2 (by linarith)
  rw [Real.sinh_sub] at h1
  linarith

theorem tanh_pos {x : ℝ} (h : 0 < x) : 0 < Real.tanh x := by
  have := tanh_lt h
  rwa [Real.tanh_zero] at this

theorem curve_tanh {a : ℝ} (ha : 0 < a) : Curve fun x => Real.tanh (a * x) / Real.tanh a := by
  refine ⟨fun x y _ h _ => ?_, by simp⟩
  exact (div_lt_div_iff_of_pos_right (tanh_pos ha)).2 (tanh_lt (by nlinarith))

/-- The stretches that work on the normalised grid, with their value at the top of the range. -/
theorem normalised (name : String) {a b p : ℝ} (ha : 0 < a) (hb : 0 < b) (hp : 0 < p)
    (hn : name ∈ ["linear", "power", "power2", "power3", "tanh"]) :
    ∃ f : ℝ → ℝ, Curve f ∧ (∀ (g : ι → ℝ) c, stretchGrid g name a b p c = f (normalize g c)) ∧
      f 1 = if name = "power2" then 1 - (1 + a) ^ (-b) else 1 := by
  simp only [List.mem_cons, List.not_mem_nil, or_false] at hn
  rcases hn with h | h | h | h | h <;> subst h
  · exact ⟨_, curve_linear, fun g c => by simp [stretchGrid, linear], by simp⟩
  · exact ⟨_, curve_power hp, fun g c => by simp [stretchGrid, power0], by simp⟩
  · exact ⟨_, curve_power2 ha hb, fun g c => by simp [stretchGrid, power2], by simp⟩
  · refine ⟨_, curve_power3 ha hb, fun g c => by simp [stretchGrid, power3], ?_⟩
    simp [Real.zero_rpow hb.ne']
  · refine ⟨_, curve_tanh ha, fun g c => by simp [stretchGrid, tanhStretch], ?_⟩
    simp [(tanh_pos ha).ne']

/-! ### The histogram -/

open Classical in
theorem cumsum_eq (g : ι → ℝ) (k : ℕ) : cumsum g k = ((Finset.univ.filter fun d => bin g d ≤ k).card : ℝ) := by
  unfold cumsum
  rw [← Nat.cast_sum]
  congr 1
  have h := Finset.card_eq_sum_card_fiberwise (f := bin g) (s := Finset.univ.filter fun d => bin g d ≤ k)
    (t := Finset.range (k + 1)) (fun d hd => by
      simp only [Finset.coe_filter, Finset.mem_univ, true_and, Set.mem_ofPred_eq] at hd
      simp only [Finset.coe_range, Set.mem_Iio]; omega)
  rw [h]
  refine Finset.sum_congr rfl fun j hj => ?_
  congr 1
  ext d
  simp only [Finset.mem_filter, Finset.mem_univ, true_and, Finset.mem_range] at hj ⊢
  constructor
  · intro h; exact ⟨by omega, h⟩
  · exact fun h => h.2

theorem cumsum_mono (g : ι → ℝ) {j k : ℕ} (h : j ≤ k) : cumsum g j ≤ cumsum g k := by
  classical
  rw [cumsum_eq, cumsum_eq]
  refine Nat.cast_le.2 (Finset.card_le_card fun d hd => ?_)
  simp only [Finset.mem_filter, Finset.mem_univ, true_and] at hd ⊢
  omega

theorem bin_lt (g : ι → ℝ) (c : ι) : bin g c < 256 := by
  unfold bin
  split_ifs with h h2
  · norm_num
  · have hl : 0 < gmax g - gmin g := sub_pos.2 (lt_of_le_of_ne (gmin_le_gmax g) h)
    have hlt : (g c - gmin g) / (gmax g - gmin g) < 1 := by
      rw [div_lt_one hl]
      have := lt_of_le_of_ne (le_gmax g c) h2
      linarith
    have hnn : 0 ≤ (g c - gmin g) / (gmax g - gmin g) := div_nonneg (sub_nonneg.2 (gmin_le g c)) hl.le
    rw [Nat.floor_lt (by positivity)]
    push_cast
    linarith
  · norm_num

theorem cumsum_last (g : ι → ℝ) : cumsum g 255 = Fintype.card ι := by
  classical
  rw [cumsum_eq]
  congr 1
  rw [← Finset.card_univ]
  congr 1
  ext d
  have := bin_lt g d
  simp only [Finset.mem_filter, Finset.mem_univ, true_and, iff_true]
  omega

theorem csMin_eq (g : ι → ℝ) : csMin g = cumsum g 0 :=
  le_antisymm (Finset.inf'_le _ (by simp)) (Finset.le_inf' _ _ fun _ _ => cumsum_mono g (Nat.zero_le _))

theorem csMax_eq (g : ι → ℝ) : csMax g = cumsum g 255 := by
  refine le_antisymm (Finset.sup'_le _ _ fun k hk => cumsum_mono g ?_) (Finset.le_sup' _ (by simp))
  have := Finset.mem_range.1 hk
  omega

theorem cumsum_pos (g : ι → ℝ) : 0 < csMax g - csMin g := by
  classical
  rw [csMax_eq, csMin_eq, cumsum_eq, cumsum_eq, sub_pos, Nat.cast_lt]
  obtain ⟨c, hc⟩ := exists_gmax g
  have hb : bin g c ≠ 0 := by
    unfold bin
    split_ifs with h h2
    · norm_num
    · exact absurd hc.symm h2
    · norm_num
  refine Finset.card_lt_card ⟨fun d hd => ?_, fun h => ?_⟩
  · simp only [Finset.mem_filter, Finset.mem_univ, true_and] at hd ⊢
    omega
  · have h1 : c ∈ Finset.univ.filter fun d => bin g d ≤ 255 := by
      have := bin_lt g c
      simp only [Finset.mem_filter, Finset.mem_univ, true_and]
      omega
    have := h h1
    simp only [Finset.mem_filter, Finset.mem_univ, true_and] at this
    omega

theorem ncs_mono (g : ι → ℝ) {j k : ℕ} (h : j ≤ k) : ncs g j ≤ ncs g k := by
  unfold ncs
  exact (div_le_div_iff_of_pos_right (cumsum_pos g)).2 (by linarith [cumsum_mono g h])

theorem ncs_zero (g : ι → ℝ) : ncs g 0 = 0 := by
  unfold ncs; rw [csMin_eq, sub_self, zero_div]

theorem ncs_last (g : ι → ℝ) : ncs g 255 = 1 := by
  have := cumsum_pos g
  unfold ncs
  rw [← csMax_eq]
  exact div_self this.ne'

/-- The index of the table of a cell. -/
theorem histEqualize_eq (g : ι → ℝ) (c : ι) : histEqualize g c = ncs g ⌊255 * normalize g c⌋₊ := by
  unfold histEqualize
  by_cases h : gmin g = gmax g
  · rw [if_neg (not_not.2 h.symm), normalize_of_eq g h]
    simp
  · rw [if_pos (Ne.symm h), normalize_of_ne g h, mul_div_assoc]

/-! ### C203 -/

/-- **C203** Each of the stretches keeps the order of the cells: a cell is strictly brighter than another exactly when
its value is strictly higher.  The power and logarithm of the raw values need arguments in their domain. -/
theorem C203_order (g : ι → ℝ) (name : String) (a b p : ℝ) (ha : 0 < a) (hb : 0 < b) (hp : 0 < p)
    (hn : name ∈ ["linear", "power", "power1", "power2", "power3", "tanh", "log"])
    (h1 : name = "power1" → ∀ c, 0 ≤ g c) (hl : name = "log" → ∀ c, -1 < a * g c) (c d : ι) :
    stretchGrid g name a b p c < stretchGrid g name a b p d ↔ g c < g d := by
  by_cases hm : name ∈ ["linear", "power", "power2", "power3", "tanh"]
  · obtain ⟨f, hf, he, -⟩ := normalised (ι := ι) name ha hb hp hm
    rw [he, he, ← normalize_lt g c d]
    have n1 := normalize_mem g c
    have n2 := normalize_mem g d
    constructor
    · intro h
      by_contra hle
      push Not at hle
      rcases eq_or_lt_of_le hle with h3 | h3
      · rw [h3] at h; exact lt_irrefl _ h
      · exact lt_asymm h (hf.mono _ _ n2.1 h3 n1.2)
    · exact fun h => hf.mono _ _ n1.1 h n2.2
  · have : name = "power1" ∨ name = "log" := by
      simp only [List.mem_cons, List.not_mem_nil, or_false] at hn hm
      tauto
    rcases this with h | h
    · have hg := h1 h
      subst h
      have e : ∀ c, stretchGrid g "power1" a b p c = g c ^ p := fun c => by simp [stretchGrid, power1]
      rw [e, e]
      exact Real.rpow_lt_rpow_iff (hg c) (hg d) hp
    · have hg := hl h
      subst h
      have e : ∀ c, stretchGrid g "log" a b p c = Real.log (a * g c + 1) := fun c => by simp [stretchGrid, logStretch]
      rw [e, e, Real.log_lt_log_iff (by linarith [hg c]) (by linarith [hg d])]
      constructor
      · intro h
        by_contra h2
        nlinarith
      · intro h
        nlinarith

/-- **C203** Equalising the histogram never reverses two cells. -/
theorem C203_histogram (g : ι → ℝ) (a b p : ℝ) (c d : ι) (h : g c ≤ g d) :
    stretchGrid g "hist_equal" a b p c ≤ stretchGrid g "hist_equal" a b p d := by
  have e : ∀ c, stretchGrid g "hist_equal" a b p c = histEqualize g c := fun c => by simp [stretchGrid]
  rw [e, e, histEqualize_eq, histEqualize_eq]
  refine ncs_mono g (Nat.floor_mono ?_)
  have : normalize g c ≤ normalize g d := by
    rw [← not_lt, normalize_lt]; exact not_lt.2 h
  linarith

/-- **C203** An unknown name leaves the grid as it is. -/
theorem C203_unknown (g : ι → ℝ) (name : String) (a b p : ℝ)
    (hn : name ∉ ["hist_equal", "linear", "log", "power", "power1", "power2", "power3", "tanh"]) :
    stretchGrid g name a b p = g := by
  simp only [List.mem_cons, List.not_mem_nil, or_false, not_or] at hn
  simp [stretchGrid, hn]

/-! ### C204 -/

/-- **C204** The stretches of the normalised grid give values between 0 and 1: 0 exactly at the lowest cells, and 1
exactly at the highest cells of a grid that is not constant (except for `power2`, which ends at `1 - (1 + a)^(-b)`,
below 1); a constant grid becomes 0. -/
theorem C204_range (g : ι → ℝ) (name : String) (a b p : ℝ) (ha : 0 < a) (hb : 0 < b) (hp : 0 < p)
    (hn : name ∈ ["linear", "power", "power2", "power3", "tanh"]) (c : ι) :
    (0 ≤ stretchGrid g name a b p c ∧ stretchGrid g name a b p c ≤ 1) ∧
      (stretchGrid g name a b p c = 0 ↔ ∀ d, g c ≤ g d) ∧
      (name ≠ "power2" → (stretchGrid g name a b p c = 1 ↔ (∀ d, g d ≤ g c) ∧ ∃ d, g d ≠ g c)) ∧
      (name = "power2" → (∀ d, g d ≤ g c) → (∃ d, g d ≠ g c) →
        stretchGrid g name a b p c = 1 - (1 + a) ^ (-b)) := by
  obtain ⟨f, hf, he, h1⟩ := normalised (ι := ι) name ha hb hp hn
  have n := normalize_mem g c
  have hf1 : f 1 ≤ 1 := by
    rw [h1]
    split_ifs
    · have : 0 ≤ (1 + a) ^ (-b) := Real.rpow_nonneg (by linarith) _
      linarith
    · exact le_refl _
  have hle : ∀ x y, 0 ≤ x → x ≤ y → y ≤ 1 → f x ≤ f y := by
    intro x y hx hxy hy
    rcases eq_or_lt_of_le hxy with h | h
    · rw [h]
    · exact (hf.mono x y hx h hy).le
  rw [he]
  refine ⟨⟨?_, ?_⟩, ?_, ?_, ?_⟩
  · rw [← hf.zero]; exact hle _ _ le_rfl n.1 n.2
  · exact (hle _ _ n.1 n.2 le_rfl).trans hf1
  · constructor
    · intro h d
      by_contra hd
      push Not at hd
      have hp := lt_of_le_of_lt (normalize_mem g d).1 ((normalize_lt g d c).2 hd)
      have := hf.mono _ _ le_rfl hp n.2
      rw [hf.zero, h] at this
      exact lt_irrefl _ this
    · intro h
      rw [normalize_low g c h, hf.zero]
  · intro hne
    rw [if_neg hne] at h1
    constructor
    · intro h
      have hx : normalize g c = 1 := by
        by_contra hx
        have := hf.mono _ _ n.1 (lt_of_le_of_ne n.2 hx) le_rfl
        rw [h, h1] at this
        exact lt_irrefl _ this
      constructor
      · intro d
        by_contra hd
        push Not at hd
        have := (normalize_lt g c d).2 hd
        rw [hx] at this
        exact absurd this (not_lt.2 (normalize_mem g d).2)
      · by_contra hall
        push Not at hall
        rw [normalize_low g c (fun d => (hall d).symm.le)] at hx
        norm_num at hx
    · rintro ⟨h, h2⟩
      rw [normalize_high g c h h2, h1]
  · intro hn h h2
    rw [if_pos hn] at h1
    rw [normalize_high g c h h2, h1]

open Classical in
/-- **C204** Equalising the histogram gives, with 256 bins of equal width numbered from zero, the share of the cells
that lie in the bins up to the 255-fold normalised value of the cell, the cells of the first bin left out; it lies
between 0 and 1, is 0 at the lowest cells and 1 at the highest (for a grid that is not constant). -/
theorem C204_histogram (g : ι → ℝ) (a b p : ℝ) (c : ι) :
    (0 ≤ stretchGrid g "hist_equal" a b p c ∧ stretchGrid g "hist_equal" a b p c ≤ 1) ∧
      ((∀ d, g c ≤ g d) → stretchGrid g "hist_equal" a b p c = 0) ∧
      ((∀ d, g d ≤ g c) → (∃ d, g d ≠ g c) → stretchGrid g "hist_equal" a b p c = 1) ∧
      ∀ lo hi w : ℝ, lo < hi → w = (hi - lo) / 256 → (∃ d, g d = lo) → (∃ d, g d = hi) →
        (∀ d, lo ≤ g d ∧ g d ≤ hi) → ∀ B : ι → ℕ,
        (∀ d, (g d = hi ∧ B d = 255) ∨ (g d < hi ∧ lo + B d * w ≤ g d ∧ g d < lo + (B d + 1) * w)) →
        stretchGrid g "hist_equal" a b p c =
          ((Finset.univ.filter fun d => 1 ≤ B d ∧ B d ≤ ⌊255 * ((g c - lo) / (hi - lo))⌋₊).card : ℝ) /
            ((Finset.univ.filter fun d => 1 ≤ B d).card : ℝ) := by
  have e : ∀ c, stretchGrid g "hist_equal" a b p c = histEqualize g c := fun c => by simp [stretchGrid]
  have n := normalize_mem g c
  have hk : ⌊255 * normalize g c⌋₊ ≤ 255 := by
    have : ⌊255 * normalize g c⌋₊ ≤ ⌊(255 : ℝ)⌋₊ := Nat.floor_mono (by linarith [n.2])
    simpa using this
  rw [e, histEqualize_eq]
  refine ⟨⟨?_, ?_⟩, ?_, ?_, ?_⟩
  · rw [← ncs_zero g]; exact ncs_mono g (Nat.zero_le _)
  · rw [← ncs_last g]; exact ncs_mono g hk
  · intro h
    rw [normalize_low g c h, mul_zero, Nat.floor_zero, ncs_zero]
  · intro h h2
    rw [normalize_high g c h h2, mul_one]
    have : ⌊(255 : ℝ)⌋₊ = 255 := by simp
    rw [this, ncs_last]
  · rintro lo hi w hlt hw ⟨dl, hdl⟩ ⟨dh, hdh⟩ hb B hB
    have hlo : gmin g = lo := by
      obtain ⟨m, hm⟩ := exists_gmin g
      exact le_antisymm (hdl ▸ gmin_le g dl) (hm ▸ (hb m).1)
    have hhi : gmax g = hi := by
      obtain ⟨m, hm⟩ := exists_gmax g
      exact le_antisymm (hm ▸ (hb m).2) (hdh ▸ le_gmax g dh)
    have hne : gmin g ≠ gmax g := by rw [hlo, hhi]; exact hlt.ne
    have hl : 0 < hi - lo := sub_pos.2 hlt
    have hw0 : 0 < w := by rw [hw]; positivity
    have hlw : hi - lo = 256 * w := by rw [hw]; ring
    have hbin : bin g = B := by
      funext d
      unfold bin
      rw [if_pos hne, hlo, hhi]
      rcases hB d with ⟨h1, h2⟩ | ⟨h1, h2, h3⟩
      · rw [if_pos h1, h2]
      · rw [if_neg h1.ne, hlw, mul_div_assoc', mul_div_mul_left _ _ (by norm_num : (256 : ℝ) ≠ 0), Nat.floor_eq_iff (div_nonneg (sub_nonneg.2 (hb d).1) hw0.le),
          le_div_iff₀ hw0, div_lt_iff₀ hw0]
        constructor <;> linarith
    rw [normalize_of_ne g hne, hlo, hhi]
    have split : ∀ j, (((Finset.univ.filter fun d => B d ≤ j).card : ℕ) : ℝ) -
        ((Finset.univ.filter fun d => B d ≤ 0).card : ℝ) =
        ((Finset.univ.filter fun d => 1 ≤ B d ∧ B d ≤ j).card : ℝ) := by
      intro j
      have : (Finset.univ.filter fun d => B d ≤ j).card =
          (Finset.univ.filter fun d => 1 ≤ B d ∧ B d ≤ j).card + (Finset.univ.filter fun d => B d ≤ 0).card := by
        rw [← Finset.card_union_of_disjoint]
        · congr 1
          ext d
          simp only [Finset.mem_filter, Finset.mem_univ, true_and, Finset.mem_union]
          omega
        · rw [Finset.disjoint_left]
          intro d h1 h2
          simp only [Finset.mem_filter, Finset.mem_univ, true_and] at h1 h2
          omega
      rw [this]; push_cast; ring
    unfold ncs
    rw [csMin_eq, csMax_eq, cumsum_eq, cumsum_eq, cumsum_eq, hbin, split, split]
    congr 3
    refine Finset.filter_congr fun d _ => ?_
    have := bin_lt g d
    rw [hbin] at this
    exact and_iff_left (by omega)

/-! ### C205 -/

theorem gmin_affine (g : ι → ℝ) {α : ℝ} (hα : 0 < α) (β : ℝ) : gmin (fun c => α * g c + β) = α * gmin g + β := by
  obtain ⟨c, hc⟩ := exists_gmin g
  obtain ⟨d, hd⟩ := exists_gmin fun c => α * g c + β
  apply le_antisymm
  · rw [hc]; exact gmin_le _ c
  · rw [hd]
    have := mul_le_mul_of_nonneg_left (gmin_le g d) hα.le
    linarith

theorem gmax_affine (g : ι → ℝ) {α : ℝ} (hα : 0 < α) (β : ℝ) : gmax (fun c => α * g c + β) = α * gmax g + β := by
  obtain ⟨c, hc⟩ := exists_gmax g
  obtain ⟨d, hd⟩ := exists_gmax fun c => α * g c + β
  apply le_antisymm
  · rw [hd]
    have := mul_le_mul_of_nonneg_left (le_gmax g d) hα.le
    linarith
  · rw [hc]; exact le_gmax (fun c => α * g c + β) c

theorem affine_eq (g : ι → ℝ) {α : ℝ} (hα : 0 < α) (β : ℝ) :
    gmin (fun c => α * g c + β) = gmax (fun c => α * g c + β) ↔ gmin g = gmax g := by
  rw [gmin_affine g hα, gmax_affine g hα]
  constructor
  · intro h; exact mul_left_cancel₀ hα.ne' (add_right_cancel h)
  · intro h; rw [h]

theorem ratio_affine (g : ι → ℝ) {α : ℝ} (hα : 0 < α) (β : ℝ) (c : ι) :
    (α * g c + β - gmin (fun c => α * g c + β)) / (gmax (fun c => α * g c + β) - gmin (fun c => α * g c + β)) =
      (g c - gmin g) / (gmax g - gmin g) := by
  rw [gmin_affine g hα, gmax_affine g hα,
    show α * g c + β - (α * gmin g + β) = α * (g c - gmin g) by ring,
    show α * gmax g + β - (α * gmin g + β) = α * (gmax g - gmin g) by ring, mul_div_mul_left _ _ hα.ne']

theorem normalize_affine (g : ι → ℝ) {α : ℝ} (hα : 0 < α) (β : ℝ) (c : ι) :
    normalize (fun c => α * g c + β) c = normalize g c := by
  by_cases h : gmin g = gmax g
  · rw [normalize_of_eq g h, normalize_of_eq _ ((affine_eq g hα β).2 h)]
  · rw [normalize_of_ne g h, normalize_of_ne _ (fun h2 => h ((affine_eq g hα β).1 h2))]
    exact ratio_affine g hα β c

theorem bin_affine (g : ι → ℝ) {α : ℝ} (hα : 0 < α) (β : ℝ) (c : ι) :
    bin (fun c => α * g c + β) c = bin g c := by
  unfold bin
  by_cases h : gmin g = gmax g
  · rw [if_neg (not_not.2 h), if_neg (not_not.2 ((affine_eq g hα β).2 h))]
  · rw [if_pos h, if_pos (fun h2 => h ((affine_eq g hα β).1 h2)), ratio_affine g hα β c, gmax_affine g hα]
    by_cases h2 : g c = gmax g
    · rw [if_pos h2, if_pos (by show α * g c + β = _; rw [h2])]
    · rw [if_neg h2, if_neg (fun h3 => h2 (mul_left_cancel₀ hα.ne' (add_right_cancel h3)))]

/-- **C205** The picture does not depend on the units: another unit with a positive factor and any offset gives the
same stretched grid, for each stretch but the logarithm and the power of the raw values. -/
theorem C205_units (g : ι → ℝ) (name : String) (a b p : ℝ) (ha : 0 < a) (hb : 0 < b) (hp : 0 < p)
    (hn : name ∈ ["linear", "power", "power2", "power3", "tanh", "hist_equal"]) (α β : ℝ) (hα : 0 < α) :
    stretchGrid (fun c => α * g c + β) name a b p = stretchGrid g name a b p := by
  by_cases hm : name ∈ ["linear", "power", "power2", "power3", "tanh"]
  · obtain ⟨f, -, he, -⟩ := normalised (ι := ι) name ha hb hp hm
    funext c
    rw [he, he, normalize_affine g hα]
  · have h : name = "hist_equal" := by
      simp only [List.mem_cons, List.not_mem_nil, or_false] at hn hm
      tauto
    subst h
    funext c
    have e : ∀ (g : ι → ℝ) c, stretchGrid g "hist_equal" a b p c = histEqualize g c := fun g c => by simp [stretchGrid]
    have ec : cumsum (fun c => α * g c + β) = cumsum g := by
      funext k
      unfold cumsum
      simp only [bin_affine g hα β]
    have en : ncs (fun c => α * g c + β) = ncs g := by
      funext k
      unfold ncs csMin csMax
      rw [ec]
    rw [e, e, histEqualize_eq, histEqualize_eq, en, normalize_affine g hα]

/-- **C205** The two raw stretches do depend on the units. -/
theorem C205_raw : ∃ g : Fin 2 → ℝ, (∀ c, 0 ≤ g c) ∧
    stretchGrid (fun c => 4 * g c + 0) "power1" 1 2 (1 / 2) ≠ stretchGrid g "power1" 1 2 (1 / 2) ∧
    stretchGrid (fun c => 4 * g c + 0) "log" 1 2 (1 / 2) ≠ stretchGrid g "log" 1 2 (1 / 2) := by
  refine ⟨fun c => c, fun c => Nat.cast_nonneg _, fun h => ?_, fun h => ?_⟩
  · have h1 := congrFun h 1
    simp (decide := true) only [stretchGrid, power1, if_true, if_false] at h1
    norm_num at h1
  · have h1 := congrFun h 1
    simp (decide := true) only [stretchGrid, logStretch, if_true, if_false] at h1
    norm_num at h1
    have := Real.log_lt_log (x := 2) (y := 5) (by norm_num) (by norm_num)
    linarith

/-- Non-vacuity: three cells. -/
example : stretchGrid (fun c : Fin 3 => (c : ℝ)) "linear" 1 2 (1 / 2) 0 = 0 ∧
    stretchGrid (fun c : Fin 3 => (c : ℝ)) "power" 1 2 (1 / 2) 2 = 1 := by
  refine ⟨((C204_range _ "linear" 1 2 (1 / 2) (by norm_num) (by norm_num) (by norm_num) (by simp) 0).2.1).2 ?_,
    ((C204_range _ "power" 1 2 (1 / 2) (by norm_num) (by norm_num) (by norm_num) (by simp) 2).2.2.1 (by decide)).2
      ⟨?_, 0, by norm_num⟩⟩
  · intro d; fin_cases d <;> norm_num
  · intro d; fin_cases d <;> norm_num

end Stretch
