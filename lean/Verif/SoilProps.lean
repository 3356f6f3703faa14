import Verif.SoilModel
import Mathlib.Analysis.SpecialFunctions.Gamma.Deriv
import Mathlib.Analysis.Complex.ExponentialBounds
import Mathlib.Tactic.Ring
import Mathlib.Tactic.Linarith
import Mathlib.Tactic.NormNum
import Mathlib.Tactic.FieldSimp
import Mathlib.Tactic.Positivity

/-!
# Soil hydraulic properties: C80, C81, C82, C83
-/

set_option autoImplicit false

namespace Soil

section Grid

variable {K : Type*} [Field K] [LinearOrder K] [IsStrictOrderedRing K]

omit [Field K] [IsStrictOrderedRing K] in
theorem foldl_min (xs : List K) (x : K) :
    (xs.foldl min x ∈ x :: xs) ∧ ∀ y ∈ x :: xs, xs.foldl min x ≤ y := by
  induction xs generalizing x with
  | nil => simp
  | cons z zs ih =>
    obtain ⟨h1, h2⟩ := ih (min x z)
    refine ⟨?_, ?_⟩
    · show zs.foldl min (min x z) ∈ _
      rcases List.mem_cons.1 h1 with h | h
      · rw [h]
        rcases min_choice x z with h' | h' <;> rw [h'] <;> simp
      · simp [h]
    · intro y hy
      show zs.foldl min (min x z) ≤ y
      have h3 := h2 (min x z) (List.mem_cons_self ..)
      rcases List.mem_cons.1 hy with rfl | hy
      · exact h3.trans (min_le_left _ _)
      · rcases List.mem_cons.1 hy with rfl | hy
        · exact h3.trans (min_le_right _ _)
        · exact h2 y (List.mem_cons_of_mem _ hy)

omit [Field K] [IsStrictOrderedRing K] in
theorem foldl_max (xs : List K) (x : K) :
    (xs.foldl max x ∈ x :: xs) ∧ ∀ y ∈ x :: xs, y ≤ xs.foldl max x := by
  induction xs generalizing x with
  | nil => simp
  | cons z zs ih =>
    obtain ⟨h1, h2⟩ := ih (max x z)
    refine ⟨?_, ?_⟩
    · show zs.foldl max (max x z) ∈ _
      rcases List.mem_cons.1 h1 with h | h
      · rw [h]
        rcases max_choice x z with h' | h' <;> rw [h'] <;> simp
      · simp [h]
    · intro y hy
      show y ≤ zs.foldl max (max x z)
      have h3 := h2 (max x z) (List.mem_cons_self ..)
      rcases List.mem_cons.1 hy with rfl | hy
      · exact (le_max_left _ _).trans h3
      · rcases List.mem_cons.1 hy with rfl | hy
        · exact (le_max_right _ _).trans h3
        · exact h2 y (List.mem_cons_of_mem _ hy)

omit [Field K] [IsStrictOrderedRing K] in
theorem minOf_spec {l : List K} {v : K} (hv : v ∈ l) :
    ∃ a, minOf l = some a ∧ a ∈ l ∧ ∀ y ∈ l, a ≤ y := by
  cases l with
  | nil => cases hv
  | cons x xs => exact ⟨_, rfl, foldl_min xs x⟩

omit [Field K] [IsStrictOrderedRing K] in
theorem maxOf_spec {l : List K} {v : K} (hv : v ∈ l) :
    ∃ a, maxOf l = some a ∧ a ∈ l ∧ ∀ y ∈ l, y ≤ a := by
  cases l with
  | nil => cases hv
  | cons x xs => exact ⟨_, rfl, foldl_max xs x⟩

/-- **C80 (part).**  Checking a soil grid in which some value is in range and positive: every value of
the result is positive and at most the limit; values that were so are unchanged; zeros are one; every
other value is the middle of the smallest value in range and the largest value in range.
Missing: grids whose values in range are all zero (`C80_zero_violated`), or that have no value in
range (`C80_no_valid_violated`). -/
theorem C80_checked_partial (hi : K) (hhi : 1 ≤ hi) (g : List K) (v : K) (hv : v ∈ g)
    (hv0 : 0 < v) (hv1 : v ≤ hi) :
    ∃ (r : List K) (a b : K), checkGrid hi g = .ok r ∧ r.length = g.length ∧
      (a ∈ g ∧ 0 ≤ a ∧ a ≤ hi ∧ ∀ x ∈ g, 0 ≤ x → x ≤ hi → a ≤ x) ∧
      (b ∈ g ∧ 0 ≤ b ∧ b ≤ hi ∧ ∀ x ∈ g, 0 ≤ x → x ≤ hi → x ≤ b) ∧
      ∀ (i : ℕ) (x y : K), g[i]? = some x → r[i]? = some y →
        (0 < y ∧ y ≤ hi) ∧ (0 < x → x ≤ hi → y = x) ∧ (x = 0 → y = 1) ∧
        (x < 0 ∨ hi < x → y = (a + b) / 2) := by
  have m1 : v ∈ g.filter (fun x => decide (0 ≤ x)) := by simp [hv, hv0.le]
  have m2 : v ∈ g.filter (fun x => decide (x ≤ hi)) := by simp [hv, hv1]
  obtain ⟨a, ha, ham, hal⟩ := minOf_spec m1
  obtain ⟨b, hb, hbm, hbl⟩ := maxOf_spec m2
  have ha2 := List.mem_filter.1 ham
  have hb2 := List.mem_filter.1 hbm
  have ha0 : 0 ≤ a := of_decide_eq_true ha2.2
  have hb1 : b ≤ hi := of_decide_eq_true hb2.2
  have hav : a ≤ v := hal v m1
  have hbv : v ≤ b := hbl v m2
  refine ⟨_, a, b, by rw [checkGrid, ha, hb], by simp, ⟨ha2.1, ha0, hav.trans hv1, ?_⟩,
    ⟨hb2.1, hv0.le.trans hbv, hb1, ?_⟩, ?_⟩
  · intro x hx h0 h1
    exact hal x (by simp [hx, h0])
  · intro x hx h0 h1
    exact hbl x (by simp [hx, h1])
  · intro i x y hx hy
    rw [List.getElem?_map, hx] at hy
    simp only [Option.map_some, Option.some.injEq] at hy
    have hmid0 : 0 < (a + b) / 2 := by
      have : 0 < b := hv0.trans_le hbv
      linarith
    have hmid1 : (a + b) / 2 ≤ hi := by linarith
    by_cases hx0 : x = 0
    · subst hx0
      rw [if_pos rfl, if_neg (by rintro (h | h) <;> linarith)] at hy
      subst hy
      refine ⟨⟨zero_lt_one, hhi⟩, fun h => absurd h (lt_irrefl _), fun _ => rfl, ?_⟩
      rintro (h | h) <;> linarith
    · rw [if_neg hx0] at hy
      by_cases hr : x < 0 ∨ hi < x
      · rw [if_pos hr] at hy
        subst hy
        refine ⟨⟨hmid0, hmid1⟩, ?_, fun h => absurd h hx0, fun _ => rfl⟩
        intro h0 h1
        rcases hr with h | h <;> linarith
      · rw [if_neg hr] at hy
        subst hy
        push Not at hr
        refine ⟨⟨lt_of_le_of_ne hr.1 (Ne.symm hx0), hr.2⟩, fun _ _ => rfl, fun h => absurd h hx0, ?_⟩
        rintro (h | h)
        · exact absurd hr.1 (not_le.2 h)
        · exact absurd hr.2 (not_le.2 h)

/-- **C80 is violated** by every grid whose only value in range is zero: zeros become one, but missing
values become zero, for which the pedotransfer functions divide by zero. -/
theorem C80_zero_violated (hi : K) (hhi : 1 ≤ hi) (g : List K) (h0 : (0 : K) ∈ g)
    (hall : ∀ x ∈ g, 0 ≤ x → x ≤ hi → x = 0) :
    ∃ r, checkGrid hi g = .ok r ∧
      ∀ (i : ℕ) (x y : K), g[i]? = some x → r[i]? = some y → (x < 0 ∨ hi < x) → y = 0 := by
  have hhi0 : (0 : K) ≤ hi := zero_le_one.trans hhi
  have m1 : (0 : K) ∈ g.filter (fun x => decide (0 ≤ x)) := by simp [h0]
  have m2 : (0 : K) ∈ g.filter (fun x => decide (x ≤ hi)) := by simp [h0, hhi0]
  obtain ⟨a, ha, ham, hal⟩ := minOf_spec m1
  obtain ⟨b, hb, hbm, hbl⟩ := maxOf_spec m2
  have ha2 := List.mem_filter.1 ham
  have hb2 := List.mem_filter.1 hbm
  have e1 : a = 0 := le_antisymm (hal 0 m1) (of_decide_eq_true ha2.2)
  have e2 : b = 0 := hall b hb2.1 (hbl 0 m2) (of_decide_eq_true hb2.2)
  refine ⟨_, by rw [checkGrid, ha, hb], ?_⟩
  intro i x y hx hy hr
  rw [List.getElem?_map, hx] at hy
  simp only [Option.map_some, Option.some.injEq] at hy
  have hx0 : x ≠ 0 := by
    rintro rfl
    rcases hr with h | h
    · exact lt_irrefl _ h
    · exact absurd hhi0 (not_le.2 h)
  rw [if_neg hx0, if_pos hr, e1, e2] at hy
  rw [← hy]; simp

/-- **C80 is violated** without a value in range: a grid of which some values are negative and the
others above 100 is filled with the middle of the two kinds, which is itself out of range. -/
theorem C80_no_valid_violated :
    checkGrid (100 : ℚ) [255, -1, 255] = .ok [127, 127, 127] := by decide +kernel

/-- A grid of nothing but the missing value 255 raises. -/
theorem C80_all_missing : checkGrid (100 : ℚ) [255, 255] = .error "ValueError" := by decide +kernel

/-- **C80 (part), the four grids.**  If each grid has a positive value in range (at most 100 percent of clay and of
silt, 1000 g/kg of organic carbon, 2650 kg/m3), the check returns, and every value of the result is positive and at
most the limit of its grid, with usable values unchanged. -/
theorem C80_four_grids_partial (C S OC D : List K) (vC vS vO vD : K)
    (hC : vC ∈ C ∧ 0 < vC ∧ vC ≤ 100) (hS : vS ∈ S ∧ 0 < vS ∧ vS ≤ 100)
    (hO : vO ∈ OC ∧ 0 < vO ∧ vO ≤ 1000) (hD : vD ∈ D ∧ 0 < vD ∧ vD ≤ 2650) :
    ∃ c s o d, checkAll C S OC D = .ok (c, s, o, d) ∧
      (c.length = C.length ∧ ∀ (i : ℕ) (x y : K), C[i]? = some x → c[i]? = some y →
        (0 < y ∧ y ≤ 100) ∧ (0 < x → x ≤ 100 → y = x)) ∧
      (s.length = S.length ∧ ∀ (i : ℕ) (x y : K), S[i]? = some x → s[i]? = some y →
        (0 < y ∧ y ≤ 100) ∧ (0 < x → x ≤ 100 → y = x)) ∧
      (o.length = OC.length ∧ ∀ (i : ℕ) (x y : K), OC[i]? = some x → o[i]? = some y →
        (0 < y ∧ y ≤ 1000) ∧ (0 < x → x ≤ 1000 → y = x)) ∧
      (d.length = D.length ∧ ∀ (i : ℕ) (x y : K), D[i]? = some x → d[i]? = some y →
        (0 < y ∧ y ≤ 2650) ∧ (0 < x → x ≤ 2650 → y = x)) := by
  obtain ⟨c, _, _, hc, lc, -, -, ec⟩ := C80_checked_partial 100 (by norm_num) C vC hC.1 hC.2.1 hC.2.2
  obtain ⟨s, _, _, hs, ls, -, -, es⟩ := C80_checked_partial 100 (by norm_num) S vS hS.1 hS.2.1 hS.2.2
  obtain ⟨o, _, _, ho, lo, -, -, eo⟩ := C80_checked_partial 1000 (by norm_num) OC vO hO.1 hO.2.1 hO.2.2
  obtain ⟨d, _, _, hd, ld, -, -, ed⟩ := C80_checked_partial 2650 (by norm_num) D vD hD.1 hD.2.1 hD.2.2
  refine ⟨c, s, o, d, by rw [checkAll, hc, hs, ho, hd], ⟨lc, fun i x y h1 h2 => ?_⟩,
    ⟨ls, fun i x y h1 h2 => ?_⟩, ⟨lo, fun i x y h1 h2 => ?_⟩, ⟨ld, fun i x y h1 h2 => ?_⟩⟩
  · exact ⟨(ec i x y h1 h2).1, (ec i x y h1 h2).2.1⟩
  · exact ⟨(es i x y h1 h2).1, (es i x y h1 h2).2.1⟩
  · exact ⟨(eo i x y h1 h2).1, (eo i x y h1 h2).2.1⟩
  · exact ⟨(ed i x y h1 h2).1, (ed i x y h1 h2).2.1⟩

/-- **C80, units.**  Missing values (-9999) stay missing. -/
theorem C80_units_missing (OC D : List K) (i : ℕ) :
    (OC[i]? = some (-9999) → (organicMatter OC)[i]? = some (-9999)) ∧
    (D[i]? = some (-9999) → (bulkDensity D)[i]? = some (-9999)) := by
  constructor
  · intro h; rw [organicMatter, List.getElem?_map, h]; simp
  · intro h; rw [bulkDensity, List.getElem?_map, h]; simp

/-- **C80, units.**  Organic carbon in grams per kilogram becomes organic matter in percent (58 percent
of it being carbon), and density in kilograms per cubic metre becomes grams per cubic centimetre. -/
theorem C80_units (OC D : List K) (i : ℕ) (x y : K) (hx : 0 < x) :
    (OC[i]? = some x → (organicMatter OC)[i]? = some y → y * 58 = x / 10 * (99992 / 1000)) ∧
    (D[i]? = some x → (bulkDensity D)[i]? = some y → y * 1000 = x) := by
  have hne : x ≠ -9999 := by intro h; rw [h] at hx; linarith
  constructor
  · intro h1 h2
    rw [organicMatter, List.getElem?_map, h1] at h2
    simp only [Option.map_some, Option.some.injEq, if_neg hne] at h2
    rw [← h2]; ring
  · intro h1 h2
    rw [bulkDensity, List.getElem?_map, h1] at h2
    simp only [Option.map_some, Option.some.injEq, if_neg hne] at h2
    rw [← h2]; ring

/-- Concrete grids: missing values and zeros are repaired. -/
example : checkGrid (100 : ℚ) [20, 255, 0, 40, -3] = .ok [20, 20, 1, 40, 20] := by decide +kernel

example : checkGrid (100 : ℚ) [0, 255, 0] = .ok [1, 0, 1] := by decide +kernel

example : (organicMatter [(100 : ℚ), -9999], bulkDensity [(1500 : ℚ)]) = ([431 / 25, -9999], [3 / 2]) := by
  decide +kernel

/-! ### Ranges -/

/-- **C81, water content.**  If some computed water content is strictly between 0 and 1, the result
exists, has the same number of cells, and all its values are between 0 and 1; values in the range are
unchanged, negative values become the smallest positive one, and values above one become the largest
value below one. -/
theorem C81_theta_range (g : List K) (v : K) (hv : v ∈ g) (h0 : 0 < v) (h1 : v < 1) :
    ∃ (r : List K), forceTheta g = .ok r ∧ r.length = g.length ∧
      ∀ (i : ℕ) (x y : K), g[i]? = some x → r[i]? = some y →
        (0 ≤ y ∧ y ≤ 1) ∧ (0 ≤ x → x ≤ 1 → y = x) ∧
        (x < 0 → y ∈ g ∧ 0 < y ∧ ∀ z ∈ g, 0 < z → y ≤ z) ∧
        (1 < x → y ∈ g ∧ y < 1 ∧ ∀ z ∈ g, z < 1 → z ≤ y) := by
  by_cases hany : g.any (fun x => decide (x < 0 ∨ 1 < x)) = true
  · have m1 : v ∈ g.filter (fun x => decide (0 < x)) := by simp [hv, h0]
    obtain ⟨a, ha, ham, hal⟩ := minOf_spec m1
    have ha2 := List.mem_filter.1 ham
    have ha0 : 0 < a := of_decide_eq_true ha2.2
    have hav : a ≤ v := hal v m1
    have m2 : v ∈ (g.map (fun x => if x < 0 then a else x)).filter (fun x => decide (x < 1)) := by
      rw [List.mem_filter]
      refine ⟨List.mem_map.2 ⟨v, hv, if_neg (not_lt.2 h0.le)⟩, by simp [h1]⟩
    obtain ⟨b, hb, hbm, hbl⟩ := maxOf_spec m2
    have hb2 := List.mem_filter.1 hbm
    have hb1 : b < 1 := of_decide_eq_true hb2.2
    have hb0 : 0 < b := h0.trans_le (hbl v m2)
    have hbg : b ∈ g := by
      obtain ⟨x, hx, hxb⟩ := List.mem_map.1 hb2.1
      split at hxb
      · rw [← hxb]; exact ha2.1
      · rw [← hxb]; exact hx
    refine ⟨(g.map (fun x => if x < 0 then a else x)).map (fun x => if 1 < x then b else x), ?_, ?_, ?_⟩
    · rw [forceTheta, if_pos hany, ha]
      simp only [hb]
    · simp
    · intro i x y hx hy
      rw [List.getElem?_map, List.getElem?_map, hx] at hy
      simp only [Option.map_some, Option.some.injEq] at hy
      by_cases hxn : x < 0
      · rw [if_pos hxn, if_neg (not_lt.2 (hav.trans h1.le))] at hy
        subst hy
        refine ⟨⟨ha0.le, hav.trans h1.le⟩, fun h => absurd h (not_le.2 hxn), fun _ => ⟨ha2.1, ha0, ?_⟩, ?_⟩
        · intro z hz hz0
          exact hal z (by simp [hz, hz0])
        · intro h; linarith
      · rw [if_neg hxn] at hy
        by_cases hx1 : 1 < x
        · rw [if_pos hx1] at hy
          subst hy
          refine ⟨⟨hb0.le, hb1.le⟩, fun _ h => absurd h (not_le.2 hx1), fun h => absurd h hxn,
            fun _ => ⟨hbg, hb1, ?_⟩⟩
          intro z hz hz1
          rcases lt_or_ge z 0 with hz0 | hz0
          · exact hz0.le.trans hb0.le
          · refine hbl z ?_
            rw [List.mem_filter]
            exact ⟨List.mem_map.2 ⟨z, hz, if_neg (not_lt.2 hz0)⟩, by simp [hz1]⟩
        · rw [if_neg hx1] at hy
          subst hy
          exact ⟨⟨not_lt.1 hxn, not_lt.1 hx1⟩, fun _ _ => rfl, fun h => absurd h hxn,
            fun h => absurd h hx1⟩
  · refine ⟨g, by rw [forceTheta, if_neg hany], rfl, ?_⟩
    intro i x y hx hy
    rw [hx] at hy
    obtain rfl := Option.some.inj hy
    have hxm : x ∈ g := List.mem_of_getElem? hx
    have hxr : ¬ (x < 0 ∨ 1 < x) := by
      intro h
      exact hany (List.any_eq_true.2 ⟨x, hxm, decide_eq_true h⟩)
    push Not at hxr
    refine ⟨hxr, fun _ _ => rfl, fun h => absurd hxr.1 (not_le.2 h), fun h => absurd hxr.2 (not_le.2 h)⟩

example : forceTheta [(2 / 5 : ℚ), -9999, 3 / 10, 7 / 5] = .ok [2 / 5, 3 / 10, 3 / 10, 2 / 5] := by
  decide +kernel

/-- **C82 is violated** always: where an input is missing the water content is marked as missing, and
the check of the range then replaces the mark by the smallest positive water content of the grid. -/
theorem C82_nodata_violated (cells : List (ℝ × ℝ × ℝ × ℝ)) (t : ℝ) (r : List ℝ)
    (h : thetaS cells t = .ok r) (i : ℕ) (C S OM D y : ℝ) (hc : cells[i]? = some (C, S, OM, D))
    (hmiss : C = 101 ∨ S = 101 ∨ OM = 101 ∨ D = 10) (hy : r[i]? = some y) : y ≠ -9999 ∧ 0 ≤ y := by
  have key : 0 ≤ y := by
    set g := cells.map (fun q => markNodata q.1 q.2.1 q.2.2.1 q.2.2.2
      (thetaFormula q.1 q.2.1 q.2.2.1 q.2.2.2 t)) with hg
    have hgi : g[i]? = some (-9999) := by
      rw [hg, List.getElem?_map, hc]
      simp only [Option.map_some, markNodata]
      rw [if_pos (by tauto)]
    have hany : g.any (fun x => decide (x < 0 ∨ 1 < x)) = true :=
      List.any_eq_true.2 ⟨_, List.mem_of_getElem? hgi, decide_eq_true (Or.inl (by norm_num))⟩
    have h' : forceTheta g = .ok r := h
    rw [forceTheta, if_pos hany] at h'
    split at h'
    · cases h'
    · rename_i a ha
      simp only at h'
      split at h'
      · cases h'
      · rename_i b hb
        have hr := Except.ok.inj h'
        have ha0 : 0 < a := by
          cases hfl : g.filter (fun x => decide (0 < x)) with
          | nil => rw [hfl] at ha; cases ha
          | cons x xs =>
            obtain ⟨a', ha', ham, _⟩ := minOf_spec (l := g.filter (fun x => decide (0 < x))) (v := x)
              (by rw [hfl]; exact List.mem_cons_self ..)
            rw [ha] at ha'
            rw [Option.some.inj ha']
            exact of_decide_eq_true (List.mem_filter.1 ham).2
        rw [← hr, List.getElem?_map, List.getElem?_map, hgi] at hy
        simp only [Option.map_some, Option.some.injEq] at hy
        rw [if_pos (by norm_num : (-9999 : ℝ) < 0)] at hy
        by_cases ha1 : 1 < a
        · rw [if_pos ha1] at hy
          rw [← hy]
          have : ∀ z ∈ (g.map (fun x => if x < 0 then a else x)).filter (fun x => decide (x < 1)),
              0 ≤ z := by
            intro z hz
            obtain ⟨x, _, hxz⟩ := List.mem_map.1 (List.mem_filter.1 hz).1
            split at hxz
            · rw [← hxz]; exact ha0.le
            · rename_i hx; rw [← hxz]; exact not_lt.1 hx
          cases hfl : (g.map (fun x => if x < 0 then a else x)).filter (fun x => decide (x < 1)) with
          | nil => rw [hfl] at hb; cases hb
          | cons x xs =>
            obtain ⟨b', hb', hbm, _⟩ := maxOf_spec
              (l := (g.map (fun x => if x < 0 then a else x)).filter (fun x => decide (x < 1))) (v := x)
              (by rw [hfl]; exact List.mem_cons_self ..)
            rw [hb] at hb'
            rw [Option.some.inj hb']
            exact this _ hbm
        · rw [if_neg ha1] at hy
          rw [← hy]; exact ha0.le
  exact ⟨by linarith, key⟩

omit [IsStrictOrderedRing K] in
/-- **C82 (part).**  Before that check, a cell is marked exactly where an input is missing, and holds
the value of the formula elsewhere.
Missing: the marks in the result (`C82_nodata_violated`). -/
theorem C82_marks_partial (C S OM D theta : K) (hth : theta ≠ -9999) :
    (markNodata C S OM D theta = -9999 ↔ C = 101 ∨ S = 101 ∨ OM = 101 ∨ D = 10) ∧
    (¬ (C = 101 ∨ S = 101 ∨ OM = 101 ∨ D = 10) → markNodata C S OM D theta = theta) := by
  unfold markNodata
  constructor
  · constructor
    · intro h
      split at h
      · tauto
      · exact absurd h hth
    · intro h
      rw [if_pos (by tauto)]
  · intro h
    rw [if_neg (by tauto)]

theorem forceAlpha_range (x : K) : -15 ≤ forceAlpha x ∧ forceAlpha x ≤ -(4 / 10) ∧
    (-(15 / 100) ≤ x → x ≤ -(4 / 1000) → forceAlpha x = 100 * x) := by
  unfold forceAlpha
  simp only
  by_cases h1 : x < -(15 / 100)
  · rw [if_pos h1, if_neg (by norm_num)]
    refine ⟨by norm_num, by norm_num, fun h => absurd h (not_le.2 h1)⟩
  · rw [if_neg h1]
    push Not at h1
    by_cases h2 : -(4 / 1000) < x
    · rw [if_pos h2]
      refine ⟨by norm_num, by norm_num, fun _ h => absurd h (not_le.2 h2)⟩
    · rw [if_neg h2]
      push Not at h2
      refine ⟨by linarith, by linarith, fun _ _ => by ring⟩

theorem forceN_range (x : K) (h : 1 < x) : 1 < forceN x ∧ forceN x ≤ 3 ∧
    (x ≤ 3 → forceN x = x) := by
  unfold forceN
  simp only
  rw [if_neg (not_lt.2 h.le)]
  by_cases h2 : 3 < x
  · rw [if_pos h2]
    exact ⟨by norm_num, le_refl _, fun h => absurd h (not_le.2 h2)⟩
  · rw [if_neg h2]
    exact ⟨h, not_lt.1 h2, fun _ => rfl⟩

theorem forceG_range (x : K) : 8 / 100 ≤ forceG x ∧ forceG x ≤ 23 / 10 ∧
    (8 / 100 ≤ x → x ≤ 23 / 10 → forceG x = x) := by
  unfold forceG
  simp only
  by_cases h1 : x < 8 / 100
  · rw [if_pos h1, if_neg (by norm_num)]
    exact ⟨le_refl _, by norm_num, fun h => absurd h (not_le.2 h1)⟩
  · rw [if_neg h1]
    push Not at h1
    by_cases h2 : 23 / 10 < x
    · rw [if_pos h2]
      exact ⟨by norm_num, le_refl _, fun _ h => absurd h (not_le.2 h2)⟩
    · rw [if_neg h2]
      exact ⟨h1, not_lt.1 h2, fun _ _ => rfl⟩

/-- **C81 is violated by rounding**: the range check of the shape parameter tests for values at most 1
but repairs only those below 1; the value 1, which the sum of 1 and a tiny number rounds to, passes. -/
theorem C81_n_one_violated : forceN (1 : K) = 1 := by
  unfold forceN
  simp only
  rw [if_neg (lt_irrefl _), if_neg (by norm_num)]

end Grid

noncomputable section

open Real

/-! ### The published equations -/

/-- The quantities that enter the regression equations of Wösten (1998). -/
inductive Reg
  | one | C | S | OM | D | top | C2 | S2 | OM2 | D2 | invC | invS | invOM | invD | lnS | lnOM | lnD
  | OMC | DC | DS | DOM | topC | topS

/-- Their values for a soil. -/
def Reg.val (C S OM D t : ℝ) : Reg → ℝ
  | .one => 1 | .C => C | .S => S | .OM => OM | .D => D | .top => t
  | .C2 => C * C | .S2 => S * S | .OM2 => OM * OM | .D2 => D * D
  | .invC => C⁻¹ | .invS => S⁻¹ | .invOM => OM⁻¹ | .invD => D⁻¹
  | .lnS => log S | .lnOM => log OM | .lnD => log D
  | .OMC => OM * C | .DC => D * C | .DS => D * S | .DOM => D * OM | .topC => t * C | .topS => t * S

/-- A regression: coefficients in units of 10^-9. -/
def regress (C S OM D t : ℝ) (table : List (ℤ × Reg)) : ℝ :=
  (table.map (fun q => (q.1 : ℝ) / 10 ^ 9 * q.2.val C S OM D t)).sum

/-- Saturated water content. -/
def tableTheta : List (ℤ × Reg) :=
  [(791900000, .one), (1691000, .C), (-296190000, .D), (-1491, .S2), (82100, .OM2),
   (24270000, .invC), (11130000, .invS), (14720000, .lnS), (-73300, .OMC), (-619000, .DC),
   (-1183000, .DOM), (-166400, .topS)]

/-- Logarithm of the saturated conductivity in centimetres per day. -/
def tableKs : List (ℤ × Reg) :=
  [(7755000000, .one), (35200000, .S), (930000000, .top), (-967000000, .D2), (-484000, .C2),
   (-322000, .S2), (1000000, .invS), (-74800000, .invOM), (-643000000, .lnS), (-13980000, .DC),
   (-167300000, .DOM), (29860000, .topC), (-33050000, .topS)]

/-- Logarithm of |alpha| in 1/cm. -/
def tableAlpha : List (ℤ × Reg) :=
  [(-14960000000, .one), (31350000, .C), (35100000, .S), (646000000, .OM), (15290000000, .D),
   (-192000000, .top), (-4671000000, .D2), (-781000, .C2), (-6870000, .OM2), (44900000, .invOM),
   (66300000, .lnS), (148200000, .lnOM), (-45460000, .DS), (-485200000, .DOM), (6730000, .topC)]

/-- Logarithm of n - 1. -/
def tableN : List (ℤ × Reg) :=
  [(-25230000000, .one), (-21950000, .C), (7400000, .S), (-194000000, .OM), (45500000000, .D),
   (-7240000000, .D2), (365800, .C2), (2885000, .OM2), (-12810000000, .invD), (-152400000, .invS),
   (-19580000, .invOM), (-287600000, .lnS), (-70900000, .lnOM), (-44600000000, .lnD),
   (-22640000, .DC), (89600000, .DOM), (7180000, .topC)]

/-- Logarithm of (L + 10) / (10 - L). -/
def tableL : List (ℤ × Reg) :=
  [(20200000, .one), (619300, .C2), (-1136000, .OM2), (-231600000, .lnOM), (-35440000, .DC),
   (2830000, .DS), (48800000, .DOM)]

/-- **C81, water content.**  The water content before the check of the range is the regression. -/
theorem C81_theta_formula (C S OM D t : ℝ) :
    thetaFormula C S OM D t = regress C S OM D t tableTheta := by
  simp only [thetaFormula, regress, tableTheta, List.map_cons, List.map_nil, List.sum_cons,
    List.sum_nil, Reg.val]
  push_cast
  ring

/-- **C81, conductivity.**  It is positive, and its logarithm, in centimetres per day, is the
regression. -/
theorem C81_Ks (C S OM D t : ℝ) :
    0 < wostenKs C S OM D t ∧
    log (wostenKs C S OM D t * 100 * 86400) = regress C S OM D t tableKs := by
  refine ⟨by unfold wostenKs; positivity, ?_⟩
  have h : wostenKs C S OM D t * 100 * 86400 = exp (regress C S OM D t tableKs) := by
    unfold wostenKs
    simp only [regress, tableKs, List.map_cons, List.map_nil, List.sum_cons, List.sum_nil, Reg.val]
    have e : ∀ a b : ℝ, a = b → exp a / (100 * 24 * 3600) * 100 * 86400 = exp b := by
      intro a b hab; rw [hab]; ring
    apply e
    push_cast
    ring
  rw [h, log_exp]

/-- **C81, alpha.**  It is between -15 and -0.4 per metre, so negative; and if the regression gives a
value in the range -0.15 to -0.004 per centimetre, it is that value in units of 1/m. -/
theorem C81_alpha (C S OM D t : ℝ) :
    (-15 ≤ wostenAlpha C S OM D t ∧ wostenAlpha C S OM D t ≤ -(4 / 10)) ∧
    (4 / 1000 ≤ exp (regress C S OM D t tableAlpha) → exp (regress C S OM D t tableAlpha) ≤ 15 / 100 →
      wostenAlpha C S OM D t = -100 * exp (regress C S OM D t tableAlpha)) := by
  have e : wostenAlpha C S OM D t = forceAlpha (-1 * exp (regress C S OM D t tableAlpha)) := by
    unfold wostenAlpha
    simp only [regress, tableAlpha, List.map_cons, List.map_nil, List.sum_cons, List.sum_nil, Reg.val]
    congr 3
    push_cast
    ring
  obtain ⟨h1, h2, h3⟩ := forceAlpha_range (-1 * exp (regress C S OM D t tableAlpha))
  rw [e]
  refine ⟨⟨h1, h2⟩, fun ha hb => ?_⟩
  rw [h3 (by linarith) (by linarith)]
  ring

/-- **C81, n.**  It is above 1 and at most 3, and if it is below 3 the logarithm of n - 1 is the
regression. -/
theorem C81_n (C S OM D t : ℝ) :
    (1 < wostenN C S OM D t ∧ wostenN C S OM D t ≤ 3) ∧
    (regress C S OM D t tableN ≤ log 2 →
      log (wostenN C S OM D t - 1) = regress C S OM D t tableN) := by
  have e : wostenN C S OM D t = forceN (exp (regress C S OM D t tableN) + 1) := by
    unfold wostenN
    simp only [regress, tableN, List.map_cons, List.map_nil, List.sum_cons, List.sum_nil, Reg.val]
    congr 3
    push_cast
    ring
  have hp := exp_pos (regress C S OM D t tableN)
  obtain ⟨h1, h2, h3⟩ := forceN_range (exp (regress C S OM D t tableN) + 1) (by linarith)
  rw [e]
  refine ⟨⟨h1, h2⟩, fun h => ?_⟩
  have : exp (regress C S OM D t tableN) ≤ 2 := by
    rw [← exp_log (by norm_num : (0 : ℝ) < 2)]
    exact exp_le_exp.2 h
  rw [h3 (by linarith), add_sub_cancel_right, log_exp]

/-- **C81, L.**  It is strictly between -10 and 10, and the logarithm of (10 + L) / (10 - L) is the
regression. -/
theorem C81_L (C S OM D : ℝ) :
    (-10 < wostenL C S OM D ∧ wostenL C S OM D < 10) ∧
    log ((10 + wostenL C S OM D) / (10 - wostenL C S OM D)) = regress C S OM D 0 tableL := by
  set s := regress C S OM D 0 tableL with hs
  have hp := exp_pos s
  have hd : exp s + 1 ≠ 0 := by linarith
  have b1 : -10 < 10 * (exp s - 1) / (exp s + 1) := by
    rw [lt_div_iff₀ (by linarith)]; linarith
  have b2 : 10 * (exp s - 1) / (exp s + 1) < 10 := by
    rw [div_lt_iff₀ (by linarith)]; linarith
  have e : wostenL C S OM D = 10 * (exp s - 1) / (exp s + 1) := by
    have e1 : wostenL C S OM D = forceL (10 * (exp s - 1) / (exp s + 1)) := by
      unfold wostenL
      have : ∀ a : ℝ, a = s → forceL (10 * (exp a - 1) / (exp a + 1))
          = forceL (10 * (exp s - 1) / (exp s + 1)) := by rintro a rfl; rfl
      apply this
      rw [hs]
      simp only [regress, tableL, List.map_cons, List.map_nil, List.sum_cons, List.sum_nil, Reg.val]
      push_cast
      ring
    rw [e1, forceL]
    rw [if_neg (not_lt.2 b1.le), if_neg (not_lt.2 b2.le)]
  rw [e]
  refine ⟨⟨b1, b2⟩, ?_⟩
  have e2 : (10 + 10 * (exp s - 1) / (exp s + 1)) / (10 - 10 * (exp s - 1) / (exp s + 1)) = exp s := by
    have h3 : (10 - 10 * (exp s - 1) / (exp s + 1)) = 20 / (exp s + 1) := by field_simp; ring
    have h4 : (10 + 10 * (exp s - 1) / (exp s + 1)) = 20 * exp s / (exp s + 1) := by field_simp; ring
    rw [h3, h4]
    field_simp
  rw [e2, log_exp]

/-! ### Transitional Brooks-Corey parameters -/

/-- Capillary pressure head at effective saturation `s`, van Genuchten (1980) with m = 1 - 1/n. -/
def psiVG (alpha n s : ℝ) : ℝ := (1 / alpha) * (s ^ (-(1 / (1 - 1 / n))) - 1) ^ (1 / n)

/-- The same, transitional Brooks-Corey (Smith 2002), without offset. -/
def psiTBC (p : TBC) (s : ℝ) : ℝ := p.psiB * (s ^ (-(p.c / p.lam)) - 1) ^ (1 / p.c)

/-- **C83.**  For every alpha below zero and n above one: the bubbling pressure is negative, c is above
one, lambda is positive, eta is above two and equals 2 + 3 lambda, the capillary length is between
0.08 and 2.3 m, and both models give the same pressure head at every saturation. -/
theorem C83_parameters (alpha n : ℝ) (ha : alpha < 0) (hn : 1 < n) :
    (tbc alpha n).psiB < 0 ∧ 1 < (tbc alpha n).c ∧ 0 < (tbc alpha n).lam ∧ 2 < (tbc alpha n).eta ∧
    (tbc alpha n).eta = 2 + 3 * (tbc alpha n).lam ∧
    (8 / 100 ≤ (tbc alpha n).G ∧ (tbc alpha n).G ≤ 23 / 10) ∧
    ∀ s, psiTBC (tbc alpha n) s = psiVG alpha n s := by
  have hinv : invAlpha alpha = 1 / alpha := by rw [invAlpha, if_pos ha.ne]
  refine ⟨?_, hn, ?_, ?_, ?_, ?_, ?_⟩
  · show invAlpha alpha < 0
    rw [hinv]; exact one_div_neg.2 ha
  · show 0 < n - 1
    linarith
  · show 2 < 3 * n - 1
    linarith
  · show 3 * n - 1 = 2 + 3 * (n - 1)
    ring
  · show 8 / 100 ≤ capillaryG n (invAlpha alpha) ∧ capillaryG n (invAlpha alpha) ≤ 23 / 10
    unfold capillaryG
    simp only
    split_ifs
    · exact ⟨(forceG_range _).1, (forceG_range _).2.1⟩
    · exact ⟨(forceG_range _).1, (forceG_range _).2.1⟩
    · norm_num
    · exact ⟨(forceG_range _).1, (forceG_range _).2.1⟩
  · intro s
    show invAlpha alpha * (s ^ (-(n / (n - 1))) - 1) ^ (1 / n) = _
    rw [hinv, psiVG]
    have : n / (n - 1) = 1 / (1 - 1 / n) := by
      have h1 : n - 1 ≠ 0 := by linarith
      have h2 : n ≠ 0 := by linarith
      field_simp
    rw [this]

/-- The factor of the capillary length that depends on m. -/
def bracket (m : ℝ) : ℝ :=
  4 / (2 - 3 * m) + (Gamma (1 - m) / Gamma (m / 2) + Gamma (1 + m) / Gamma (5 * m / 2))
    * Gamma (3 * m / 2 - 1)

theorem bracket_tendsto : ∃ l, Filter.Tendsto bracket (nhdsWithin (2 / 3) {2 / 3}ᶜ) (nhds l) := by
  let N : ℝ → ℝ := fun m => 4 - 2 * ((Gamma (1 - m) / Gamma (m / 2)
    + Gamma (1 + m) / Gamma (5 * m / 2)) * Gamma (3 * m / 2))
  have dG : ∀ (f : ℝ → ℝ), DifferentiableAt ℝ f (2 / 3) → 0 < f (2 / 3) →
      DifferentiableAt ℝ (fun m => Gamma (f m)) (2 / 3) := by
    intro f hf hpos
    have h1 : DifferentiableAt ℝ Gamma (f (2 / 3)) := by
      apply differentiableAt_Gamma
      intro k
      have : (0 : ℝ) ≤ k := Nat.cast_nonneg k
      linarith
    exact h1.comp (2 / 3) hf
  have hN : DifferentiableAt ℝ N (2 / 3) := by
    have h1 : DifferentiableAt ℝ (fun m : ℝ => Gamma (1 - m)) (2 / 3) :=
      dG (fun m => 1 - m) (by fun_prop) (by norm_num)
    have h2 : DifferentiableAt ℝ (fun m : ℝ => Gamma (m / 2)) (2 / 3) :=
      dG (fun m => m / 2) (by fun_prop) (by norm_num)
    have h3 : DifferentiableAt ℝ (fun m : ℝ => Gamma (1 + m)) (2 / 3) :=
      dG (fun m => 1 + m) (by fun_prop) (by norm_num)
    have h4 : DifferentiableAt ℝ (fun m : ℝ => Gamma (5 * m / 2)) (2 / 3) :=
      dG (fun m => 5 * m / 2) (by fun_prop) (by norm_num)
    have h5 : DifferentiableAt ℝ (fun m : ℝ => Gamma (3 * m / 2)) (2 / 3) :=
      dG (fun m => 3 * m / 2) (by fun_prop) (by norm_num)
    have n2 : Gamma ((2 / 3 : ℝ) / 2) ≠ 0 := (Gamma_pos_of_pos (by norm_num)).ne'
    have n4 : Gamma (5 * (2 / 3 : ℝ) / 2) ≠ 0 := (Gamma_pos_of_pos (by norm_num)).ne'
    exact (((h1.div h2 n2).add (h3.div h4 n4)).mul h5).const_mul 2 |>.const_sub 4
  have hN0 : N (2 / 3) = 0 := by
    have a1 : (1 - 2 / 3 : ℝ) = 2 / 3 / 2 := by norm_num
    have a2 : (1 + 2 / 3 : ℝ) = 5 * (2 / 3) / 2 := by norm_num
    have a3 : (3 * (2 / 3) / 2 : ℝ) = 1 := by norm_num
    show 4 - 2 * ((Gamma (1 - 2 / 3) / Gamma (2 / 3 / 2)
      + Gamma (1 + 2 / 3) / Gamma (5 * (2 / 3) / 2)) * Gamma (3 * (2 / 3) / 2)) = 0
    rw [a1, a2, a3, Gamma_one, div_self (Gamma_pos_of_pos (by norm_num)).ne',
      div_self (Gamma_pos_of_pos (by norm_num)).ne']
    norm_num
  have hs := hN.hasDerivAt.tendsto_slope
  refine ⟨-(1 / 3) * deriv N (2 / 3), ?_⟩
  refine Filter.Tendsto.congr' ?_ (hs.const_mul (-(1 / 3)))
  filter_upwards [self_mem_nhdsWithin] with m hm
  have hm' : m - 2 / 3 ≠ 0 := sub_ne_zero.2 hm
  have hd : 2 - 3 * m ≠ 0 := by intro h; apply hm'; linarith
  have hx : 3 * m / 2 - 1 ≠ 0 := by intro h; apply hm'; linarith
  have hG := Gamma_add_one hx
  rw [sub_add_cancel] at hG
  rw [slope_def_field, hN0, sub_zero]
  show -(1 / 3) * ((4 - 2 * ((Gamma (1 - m) / Gamma (m / 2)
    + Gamma (1 + m) / Gamma (5 * m / 2)) * Gamma (3 * m / 2))) / (m - 2 / 3)) = bracket m
  unfold bracket
  rw [hG]
  generalize Gamma (1 - m) / Gamma (m / 2) + Gamma (1 + m) / Gamma (5 * m / 2) = T
  generalize Gamma (3 * m / 2 - 1) = g
  have e : m - 2 / 3 = -(2 - 3 * m) / 3 := by ring
  rw [e]
  field_simp
  ring

/-- **C83 is violated** at n = 3, the value that the check of `wosten_n` puts in for every larger one
(sands).  For soils with large alpha, all n near 3 give the capillary length 0.08 m (sand), but n = 3
itself gives 2.3 m (clay), because the formula is evaluated at a pole where it has a finite limit. -/
theorem C83_G_violated : ∃ A > 0, ∀ alpha < -A,
    (∀ᶠ n in nhdsWithin (3 : ℝ) {3}ᶜ, (tbc alpha n).G = 8 / 100) ∧ (tbc alpha 3).G = 23 / 10 := by
  obtain ⟨l, hl⟩ := bracket_tendsto
  refine ⟨(|l| + 1) * 100, by positivity, ?_⟩
  intro alpha ha
  have hA : (0 : ℝ) < (|l| + 1) * 100 := by positivity
  have hneg : alpha < 0 := by linarith
  have hinv : invAlpha alpha = 1 / alpha := by rw [invAlpha, if_pos hneg.ne]
  constructor
  · have hmap : Filter.Tendsto (fun n : ℝ => 1 - 1 / n) (nhdsWithin 3 {3}ᶜ)
        (nhdsWithin (2 / 3) {2 / 3}ᶜ) := by
      apply tendsto_nhdsWithin_iff.2
      constructor
      · have : ContinuousAt (fun n : ℝ => 1 - 1 / n) 3 := by
          apply ContinuousAt.sub continuousAt_const
          exact ContinuousAt.div continuousAt_const continuousAt_id (by norm_num)
        have h := this.tendsto
        have e : (1 - 1 / 3 : ℝ) = 2 / 3 := by norm_num
        rw [e] at h
        exact h.mono_left nhdsWithin_le_nhds
      · have hpos : ∀ᶠ n in nhdsWithin (3 : ℝ) {3}ᶜ, 0 < n :=
          (eventually_gt_nhds (by norm_num : (0 : ℝ) < 3)).filter_mono nhdsWithin_le_nhds
        filter_upwards [self_mem_nhdsWithin, hpos] with n hn h0
        intro h
        apply hn
        have h' : (1 - 1 / n : ℝ) = 2 / 3 := h
        have h3 : 1 / n = 1 / 3 := by linarith
        have := h0.ne'
        field_simp at h3
        exact h3.symm
    have hb := hl.comp hmap
    have hev : ∀ᶠ n in nhdsWithin (3 : ℝ) {3}ᶜ, |bracket (1 - 1 / n)| < |l| + 1 := by
      have := hb.abs
      exact this.eventually_lt_const (by linarith)
    have hrange : ∀ᶠ n in nhdsWithin (3 : ℝ) {3}ᶜ, 2 < n :=
      (eventually_gt_nhds (by norm_num : (2 : ℝ) < 3)).filter_mono nhdsWithin_le_nhds
    filter_upwards [self_mem_nhdsWithin, hev, hrange] with n hn hB h2
    have hn0 : n ≠ 0 := by linarith
    have i1 : 1 / n < 1 / 2 := by
      apply one_div_lt_one_div_of_lt (by norm_num) h2
    have i0 : 0 < 1 / n := by positivity
    show capillaryG n (invAlpha alpha) = 8 / 100
    have hm1 : ¬ ((1 : ℝ) - 1 / n = 1) := by intro h; linarith
    have hm0 : ¬ ((1 : ℝ) - 1 / n = 0) := by intro h; linarith
    have hm2 : ¬ ((2 : ℝ) - 3 * (1 - 1 / n) = 0) := by
      intro h
      apply hn
      have h3 : 1 / n = 1 / 3 := by linarith
      field_simp at h3
      exact h3.symm
    rw [capillaryG]
    simp only [if_neg hm1, if_neg hm0, if_neg hm2]
    have key : -invAlpha alpha * (1 - (1 - 1 / n)) * bracket (1 - 1 / n) < 8 / 100 := by
      rw [hinv]
      have hc0 : 0 < -(1 / alpha) := by
        have := one_div_neg.2 hneg
        linarith
      have hc1 : -(1 / alpha) * ((|l| + 1) * 100) < 1 := by
        have : -(1 / alpha) * (-alpha) = 1 := by rw [neg_mul_neg, one_div, inv_mul_cancel₀ hneg.ne]
        calc -(1 / alpha) * ((|l| + 1) * 100) < -(1 / alpha) * (-alpha) :=
              mul_lt_mul_of_pos_left (by linarith) hc0
          _ = 1 := this
      have hbr := (abs_lt.1 hB).2
      have e1 : (1 - (1 - 1 / n) : ℝ) = 1 / n := by ring
      rw [e1]
      have hl1 : 0 < |l| + 1 := by positivity
      calc -(1 / alpha) * (1 / n) * bracket (1 - 1 / n)
          ≤ -(1 / alpha) * (1 / n) * (|l| + 1) :=
            mul_le_mul_of_nonneg_left hbr.le (by positivity)
        _ ≤ -(1 / alpha) * (1 / 2) * (|l| + 1) := by
            apply mul_le_mul_of_nonneg_right _ hl1.le
            exact mul_le_mul_of_nonneg_left i1.le hc0.le
        _ < 8 / 100 := by linarith
    unfold bracket at key
    rw [forceG]
    simp only [if_pos key]
    norm_num
  · show capillaryG 3 (invAlpha alpha) = 23 / 10
    rw [capillaryG]
    have h1 : ¬ ((1 : ℝ) - 1 / 3 = 1) := by norm_num
    have h2 : ¬ ((1 : ℝ) - 1 / 3 = 0) := by norm_num
    have h3 : (2 : ℝ) - 3 * (1 - 1 / 3) = 0 := by norm_num
    simp only [if_neg h1, if_neg h2, if_pos h3]

/-- A soil for which the hypotheses of `C81_alpha` and `C81_n` hold: 20 percent clay, 1 percent silt,
1 percent organic matter, density 1. -/
example : (4 / 1000 ≤ exp (regress 20 1 1 1 0 tableAlpha) ∧
    exp (regress 20 1 1 1 0 tableAlpha) ≤ 15 / 100) ∧ regress 20 1 1 1 0 tableN ≤ log 2 := by
  have e1 : regress 20 1 1 1 0 tableAlpha = -(383793 / 100000) := by
    simp only [regress, tableAlpha, List.map_cons, List.map_nil, List.sum_cons, List.sum_nil, Reg.val,
      log_one]
    push_cast
    norm_num
  have e2 : regress 20 1 1 1 0 tableN ≤ 0 := by
    simp only [regress, tableN, List.map_cons, List.map_nil, List.sum_cons, List.sum_nil, Reg.val,
      log_one]
    push_cast
    norm_num
  have h1 := exp_one_gt_d9
  have h2 := exp_one_lt_d9
  refine ⟨?_, e2.trans (log_nonneg (by norm_num))⟩
  rw [e1]
  constructor
  · have : exp (-4) ≤ exp (-(383793 / 100000)) := exp_le_exp.2 (by norm_num)
    refine le_trans ?_ this
    rw [exp_neg, show (4 : ℝ) = ((4 : ℕ) : ℝ) * 1 by norm_num, exp_nat_mul,
      ← one_div, le_div_iff₀ (by positivity)]
    have : exp 1 ^ 4 ≤ 3 ^ 4 := pow_le_pow_left₀ (exp_pos 1).le (by linarith) 4
    norm_num at this ⊢
    linarith
  · have : exp (-(383793 / 100000)) ≤ exp (-2) := exp_le_exp.2 (by norm_num)
    refine le_trans this ?_
    rw [exp_neg, show (2 : ℝ) = ((2 : ℕ) : ℝ) * 1 by norm_num, exp_nat_mul,
      ← one_div, div_le_iff₀ (by positivity)]
    have : (27 / 10 : ℝ) ^ 2 ≤ exp 1 ^ 2 := pow_le_pow_left₀ (by norm_num) (by linarith) 2
    norm_num at this ⊢
    linarith

example : (tbc (-2) 2).psiB = -(1 / 2) ∧ (tbc (-2) 2).eta = 5 := by
  constructor
  · show invAlpha (-2) = _
    rw [invAlpha, if_pos (by norm_num)]; norm_num
  · show (3 * 2 - 1 : ℝ) = 5
    norm_num

end

end Soil
