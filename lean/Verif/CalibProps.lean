import Verif.CalibModel
import Verif.FilesProps
import Mathlib.Analysis.MeanInequalities
import Mathlib.Tactic.Positivity
import Mathlib.Tactic.FieldSimp
import Mathlib.Tactic.Linarith
import Mathlib.Tactic.Ring
import Mathlib.Tactic.NormNum

/-!
# C127-C131: calibration
-/

set_option autoImplicit false

noncomputable section

namespace Calib

variable {α : Type*}

/-! ## The parameter values (C129) -/

/-- **C129**: for two or more values and a non-empty range there are exactly `n` values, the first
is the lower limit, the last the upper limit, and neighbours are a constant step apart. -/
theorem C129_values {vmin vmax : ℝ} (hne : vmin ≠ vmax) {n : ℕ} (hn : 2 ≤ n) :
    (paramValues vmin vmax n).length = n ∧
    (paramValues vmin vmax n)[0]? = some vmin ∧
    (paramValues vmin vmax n)[n - 1]? = some vmax ∧
    ∀ k, k + 1 < n → ∃ a b, (paramValues vmin vmax n)[k]? = some a ∧
      (paramValues vmin vmax n)[k + 1]? = some b ∧ b - a = (vmax - vmin) / (n - 1) := by
  have hn1 : (n : ℝ) - 1 ≠ 0 := by
    have : (2 : ℝ) ≤ n := by exact_mod_cast hn
    linarith
  have hget : ∀ k, k < n → (paramValues vmin vmax n)[k]? =
      some ((vmax - vmin) * ((k : ℝ) / ((n : ℝ) - 1)) + vmin) := by
    intro k hk
    unfold paramValues
    rw [if_neg (by simp [hne]; omega), List.getElem?_map, List.getElem?_range hk]
    rfl
  refine ⟨?_, ?_, ?_, ?_⟩
  · unfold paramValues
    rw [if_neg (by simp [hne]; omega)]
    simp
  · rw [hget 0 (by omega)]; simp
  · rw [hget (n - 1) (by omega), Nat.cast_sub (by omega)]
    simp only [Nat.cast_one, Option.some.injEq]
    rw [div_self hn1]; ring
  · intro k hk
    refine ⟨_, _, hget k (by omega), hget (k + 1) hk, ?_⟩
    push_cast
    field_simp
    ring

/-- One value is the lower limit; an empty range gives one value, however many are asked for. -/
theorem C129_single (vmin vmax : ℝ) (n : ℕ) (h : n = 1 ∨ vmin = vmax) :
    paramValues vmin vmax n = [vmin] := by
  unfold paramValues; rw [if_pos h]

theorem paramValues_length_le {vmin vmax : ℝ} {n : ℕ} (hn : 1 ≤ n) :
    (paramValues vmin vmax n).length ≤ n := by
  unfold paramValues
  split_ifs
  · simpa using hn
  · simp

/-! ## The search (C127) -/

/-- What the search has to know after comparing the costs `cs`. -/
structure Good (s : Search) : Prop where
  min : ∀ (j : ℕ) (x : ℝ), s.costs[j]? = some (some x) → s.minCost ≤ x
  none : s.best = none → s.minCost = 1000000
  some : ∀ b : ℕ, s.best = some b → s.costs[b]? = some (some s.minCost) ∧ s.minCost < 1000000 ∧
    ∀ (j : ℕ) (x : ℝ), j < b → s.costs[j]? = some (some x) → s.minCost < x

theorem good_add {s : Search} (h : Good s ∧ (s.best = none → ∀ (j : ℕ) (x : ℝ), s.costs[j]? = some (some x) →
    1000000 ≤ x)) (c : Option ℝ) :
    Good (s.add s.costs.length c) ∧ (s.add s.costs.length c).costs = s.costs ++ [c] ∧
    ((s.add s.costs.length c).best = none →
      ∀ (j : ℕ) (x : ℝ), (s.add s.costs.length c).costs[j]? = some (some x) → 1000000 ≤ x) := by
  obtain ⟨hg, h6⟩ := h
  have hsplit : ∀ (j : ℕ) (x : ℝ), (s.costs ++ [c])[j]? = some (some x) →
      s.costs[j]? = some (some x) ∨ (j = s.costs.length ∧ c = some x) := by
    intro j x hj
    rcases lt_trichotomy j s.costs.length with hl | hl | hl
    · left; rwa [List.getElem?_append_left hl] at hj
    · right
      subst hl
      simp at hj
      exact ⟨rfl, hj⟩
    · rw [List.getElem?_eq_none (by simp; omega)] at hj
      cases hj
  have hold : ∀ (j : ℕ) (y : Option ℝ), s.costs[j]? = some y → (s.costs ++ [c])[j]? = some y := by
    intro j y hj
    have hl : j < s.costs.length := by
      by_contra hc
      rw [List.getElem?_eq_none (by omega)] at hj
      cases hj
    rwa [List.getElem?_append_left hl]
  cases c with
  | none =>
    refine ⟨⟨?_, hg.none, ?_⟩, rfl, ?_⟩
    · intro j x hj
      rcases hsplit j x hj with h | ⟨_, h⟩
      · exact hg.min j x h
      · cases h
    · intro b hb
      obtain ⟨h1, h2, h3⟩ := hg.some b hb
      refine ⟨hold _ _ h1, h2, fun j x hjb hj => ?_⟩
      rcases hsplit j x hj with h | ⟨_, h⟩
      · exact h3 j x hjb h
      · cases h
    · intro hb j x hj
      rcases hsplit j x hj with h | ⟨_, h⟩
      · exact h6 hb j x h
      · cases h
  | some y =>
    by_cases hy : y < s.minCost
    · have e : s.add s.costs.length (some y) = ⟨y, some s.costs.length, s.costs ++ [some y]⟩ := by
        simp [Search.add, hy]
      rw [e]
      have hm : s.minCost ≤ 1000000 := by
        cases hb : s.best with
        | none => exact (hg.none hb).le
        | some b => exact (hg.some b hb).2.1.le
      refine ⟨⟨?_, ?_, ?_⟩, rfl, ?_⟩
      · intro j x hj
        rcases hsplit j x hj with h | ⟨_, h⟩
        · exact hy.le.trans (hg.min j x h)
        · cases h; exact le_rfl
      · intro h; cases h
      · intro b hb
        simp only [Option.some.injEq] at hb
        subst hb
        refine ⟨by simp, by dsimp only; linarith, fun j x hjb hj => ?_⟩
        rcases hsplit j x hj with h | ⟨h, _⟩
        · exact lt_of_lt_of_le hy (hg.min j x h)
        · omega
      · intro h; cases h
    · have e : s.add s.costs.length (some y) = ⟨s.minCost, s.best, s.costs ++ [some y]⟩ := by
        simp [Search.add, hy]
      rw [e]
      refine ⟨⟨?_, hg.none, ?_⟩, rfl, ?_⟩
      · intro j x hj
        rcases hsplit j x hj with h | ⟨_, h⟩
        · exact hg.min j x h
        · cases h; exact not_lt.1 hy
      · intro b hb
        obtain ⟨h1, h2, h3⟩ := hg.some b hb
        refine ⟨hold _ _ h1, h2, fun j x hjb hj => ?_⟩
        rcases hsplit j x hj with h | ⟨h, _⟩
        · exact h3 j x hjb h
        · have hl : b < s.costs.length := by
            by_contra hc
            rw [List.getElem?_eq_none (by omega)] at h1
            cases h1
          omega
      · intro hb j x hj
        rcases hsplit j x hj with h | ⟨_, h⟩
        · exact h6 hb j x h
        · cases h
          rw [← hg.none hb]; exact not_lt.1 hy

/-- The loop, in terms of the runs: all succeed and the costs are theirs, or the first failing run
ends it. -/
theorem loop_spec (mk : ℝ → α) (run : ℕ → α → Except String (Option ℝ)) (n : ℕ) :
    ∀ (ps : List ℝ) (inp : α) (s : Search), s.costs.length + ps.length ≤ n →
      (Good s ∧ (s.best = none → ∀ (j : ℕ) (x : ℝ), s.costs[j]? = some (some x) → 1000000 ≤ x)) →
      (∃ s', (loop mk run n ps s.costs.length inp s).2 = .ok s' ∧
        (Good s' ∧ (s'.best = none → ∀ (j : ℕ) (x : ℝ), s'.costs[j]? = some (some x) → 1000000 ≤ x)) ∧
        ∃ cs, cs.length = ps.length ∧ s'.costs = s.costs ++ cs ∧
          ∀ (i : ℕ) (p : ℝ), ps[i]? = some p → ∃ c, cs[i]? = some c ∧
            run (s.costs.length + i) (mk p) = .ok c) ∨
      (∃ (e : String) (i : ℕ) (p : ℝ), ps[i]? = some p ∧ run (s.costs.length + i) (mk p) = .error e ∧
        loop mk run n ps s.costs.length inp s = (mk p, .error e) ∧
        ∀ (j : ℕ) (q : ℝ), j < i → ps[j]? = some q → ∃ c, run (s.costs.length + j) (mk q) = .ok c) := by
  intro ps
  induction ps with
  | nil =>
    intro inp s _ hs
    exact Or.inl ⟨s, rfl, hs, [], rfl, by simp, by simp⟩
  | cons p ps ih =>
    intro inp s hn hs
    rw [List.length_cons] at hn
    cases hr : run s.costs.length (mk p) with
    | error e =>
      refine Or.inr ⟨e, 0, p, rfl, by simpa using hr, ?_, by omega⟩
      simp [loop, hr]
    | ok c =>
      have hstep : loop mk run n (p :: ps) s.costs.length inp s =
          loop mk run n ps (s.costs.length + 1) (mk p) (s.add s.costs.length c) := by
        rw [loop, hr]
        simp only
        rw [if_neg (by omega)]
      obtain ⟨g1, g2, g3⟩ := good_add hs c
      have hlen : (s.add s.costs.length c).costs.length = s.costs.length + 1 := by
        rw [g2]; simp
      have := ih (mk p) (s.add s.costs.length c) (by rw [hlen]; omega) ⟨g1, g3⟩
      rw [hlen, ← hstep] at this
      rcases this with ⟨s', h1, h2, cs, h3, h4, h5⟩ | ⟨e, i, q, h1, h2, h3, h4⟩
      · refine Or.inl ⟨s', h1, h2, c :: cs, by simp [h3], by rw [h4, g2]; simp, ?_⟩
        intro i q hq
        cases i with
        | zero =>
          simp only [List.getElem?_cons_zero, Option.some.injEq] at hq
          subst hq
          exact ⟨c, rfl, by simpa using hr⟩
        | succ i =>
          obtain ⟨c', hc', hrun⟩ := h5 i q (by simpa using hq)
          exact ⟨c', by simpa using hc', by
            rw [show s.costs.length + (i + 1) = s.costs.length + 1 + i by omega]; exact hrun⟩
      · refine Or.inr ⟨e, i + 1, q, by simpa using h1, by
            rw [show s.costs.length + (i + 1) = s.costs.length + 1 + i by omega]; exact h2, h3, ?_⟩
        intro j r hj hjr
        cases j with
        | zero =>
          simp only [List.getElem?_cons_zero, Option.some.injEq] at hjr
          subst hjr
          exact ⟨c, by simpa using hr⟩
        | succ j =>
          obtain ⟨c', hc'⟩ := h4 j r (by omega) (by simpa using hjr)
          exact ⟨c', by rw [show s.costs.length + (j + 1) = s.costs.length + 1 + j by omega]; exact hc'⟩

theorem good_start : Good ⟨1000000, none, []⟩ ∧
    ((none : Option ℕ) = none → ∀ (j : ℕ) (x : ℝ), ([] : List (Option ℝ))[j]? = some (some x) →
      1000000 ≤ x) := by
  refine ⟨⟨by simp, by simp, by simp⟩, by simp⟩

/-- What a call does, for `n ≥ 1` values and a supported parameter. -/
theorem calibrate_cases (silent : Bool) (mk : ℝ → α) (run : ℕ → α → Except String (Option ℝ))
    (vmin vmax : ℝ) {n : ℕ} (hn : 1 ≤ n) (f : Disk α) :
    (∃ cs : List (Option ℝ), cs.length = (paramValues vmin vmax n).length ∧
      (∀ (i : ℕ) (p : ℝ), (paramValues vmin vmax n)[i]? = some p →
        ∃ c, cs[i]? = some c ∧ run i (mk p) = .ok c) ∧
      (calibrate true silent mk run vmin vmax n f).files = ⟨f.input, some f.input⟩ ∧
      (((∀ (i : ℕ) (x : ℝ), cs[i]? = some (some x) → 1000000 ≤ x) ∧
        (calibrate true silent mk run vmin vmax n f).saved = none ∧
        (calibrate true silent mk run vmin vmax n f).raised =
          some "UnboundLocalError: best_index") ∨
       ∃ (b : ℕ) (p : ℝ) (x : ℝ), (paramValues vmin vmax n)[b]? = some p ∧ cs[b]? = some (some x) ∧ x < 1000000 ∧
        (∀ (j : ℕ) (y : ℝ), cs[j]? = some (some y) → x ≤ y) ∧
        (∀ (j : ℕ) (y : ℝ), j < b → cs[j]? = some (some y) → x < y) ∧
        (calibrate true silent mk run vmin vmax n f).saved = some ⟨paramValues vmin vmax n,
          cs ++ List.replicate (n - cs.length) (some 0), some p⟩ ∧
        (calibrate true silent mk run vmin vmax n f).raised =
          if silent then none else some "NameError: cal")) ∨
    (∃ (e : String) (i : ℕ) (p : ℝ), (paramValues vmin vmax n)[i]? = some p ∧ run i (mk p) = .error e ∧
      (∀ (j : ℕ) (q : ℝ), j < i → (paramValues vmin vmax n)[j]? = some q → ∃ c, run j (mk q) = .ok c) ∧
      calibrate true silent mk run vmin vmax n f = ⟨⟨mk p, some f.input⟩, none, some e⟩) := by
  have hl := paramValues_length_le (vmin := vmin) (vmax := vmax) hn
  have := loop_spec mk run n (paramValues vmin vmax n) f.input ⟨1000000, none, []⟩
    (by simpa using hl) good_start
  simp only [List.length_nil, zero_add, List.nil_append] at this
  rcases this with ⟨s', h1, ⟨h2, h2'⟩, cs, h3, h4, h5⟩ | ⟨e, i, p, h1, h2, h3, h4⟩
  · left
    have hcal : ∃ inp, loop mk run n (paramValues vmin vmax n) 0 f.input ⟨1000000, none, []⟩ =
        (inp, .ok s') := ⟨_, Prod.ext rfl h1⟩
    obtain ⟨inp, hinp⟩ := hcal
    refine ⟨cs, h3, h5, ?_, ?_⟩
    · unfold calibrate
      simp only [Bool.not_true, Bool.false_eq_true, if_false, hinp]
      cases s'.best <;> rfl
    · cases hb : s'.best with
      | none =>
        left
        refine ⟨fun i x hx => h2' hb i x (by rw [h4]; exact hx), ?_, ?_⟩ <;>
        · unfold calibrate
          simp [hinp, hb]
      | some b =>
        right
        obtain ⟨q1, q2, q3⟩ := h2.some b hb
        rw [h4] at q1 q3
        have hbl : b < (paramValues vmin vmax n).length := by
          rw [← h3]
          by_contra hc
          rw [List.getElem?_eq_none (by omega)] at q1
          cases q1
        refine ⟨b, (paramValues vmin vmax n)[b], s'.minCost, List.getElem?_eq_getElem hbl, q1, q2,
          fun j y hj => h2.min j y (by rw [h4]; exact hj), q3, ?_, ?_⟩
        · unfold calibrate
          simp [hinp, hb, h4, hbl]
        · unfold calibrate
          simp [hinp, hb]
  · right
    refine ⟨e, i, p, h1, h2, h4, ?_⟩
    unfold calibrate
    simp [h3]

/-- **C127**: the value that calibration reports is one of those tried; its cost is that of the run
with this value, no tried value has a smaller cost, and it is the first with that cost. -/
theorem C127_best {silent : Bool} {mk : ℝ → α} {run : ℕ → α → Except String (Option ℝ)}
    {vmin vmax : ℝ} {n : ℕ} (hn : 1 ≤ n) {f : Disk α} {r : Saved}
    (h : (calibrate true silent mk run vmin vmax n f).saved = some r) :
    ∃ (b : ℕ) (p : ℝ) (x : ℝ), r.best = some p ∧ (paramValues vmin vmax n)[b]? = some p ∧
      run b (mk p) = .ok (some x) ∧
      (∀ (j : ℕ) (q y : ℝ), (paramValues vmin vmax n)[j]? = some q → run j (mk q) = .ok (some y) → x ≤ y) ∧
      (∀ (j : ℕ) (q y : ℝ), j < b → (paramValues vmin vmax n)[j]? = some q → run j (mk q) = .ok (some y) →
        x < y) := by
  rcases calibrate_cases silent mk run vmin vmax hn f with
    ⟨cs, h1, h2, _, ⟨_, h3, _⟩ | ⟨b, p, x, q1, q2, q3, q4, q5, q6, _⟩⟩ | ⟨e, i, p, _, _, _, h3⟩
  · rw [h3] at h; cases h
  · rw [q6, Option.some.injEq] at h
    subst h
    have hrun : ∀ (j : ℕ) (q y : ℝ), (paramValues vmin vmax n)[j]? = some q → run j (mk q) = .ok (some y) →
        cs[j]? = some (some y) := by
      intro j q y hj hr
      obtain ⟨c, hc, hr'⟩ := h2 j q hj
      rw [hr, Except.ok.injEq] at hr'
      rw [hc, ← hr']
    refine ⟨b, p, x, rfl, q1, ?_, fun j q y hj hr => q4 j y (hrun j q y hj hr),
      fun j q y hjb hj hr => q5 j y hjb (hrun j q y hj hr)⟩
    obtain ⟨c, hc, hr⟩ := h2 b p q1
    rw [q2, Option.some.injEq] at hc
    rw [hr, hc]
  · rw [h3] at h; cases h

/-- **C127**: calibration reports a value exactly when every run succeeds and one of them costs less
than a million. -/
theorem C127_success_iff (silent : Bool) (mk : ℝ → α) (run : ℕ → α → Except String (Option ℝ))
    (vmin vmax : ℝ) {n : ℕ} (hn : 1 ≤ n) (f : Disk α) :
    (∃ r, (calibrate true silent mk run vmin vmax n f).saved = some r) ↔
      (∀ (j : ℕ) (q : ℝ), (paramValues vmin vmax n)[j]? = some q → ∃ c, run j (mk q) = .ok c) ∧
      ∃ (j : ℕ) (q y : ℝ), (paramValues vmin vmax n)[j]? = some q ∧ run j (mk q) = .ok (some y) ∧
        y < 1000000 := by
  rcases calibrate_cases silent mk run vmin vmax hn f with
    ⟨cs, h1, h2, _, ⟨h4, h3, _⟩ | ⟨b, p, x, q1, q2, q3, q4, q5, q6, _⟩⟩ | ⟨e, i, p, h5, h6, _, h3⟩
  · constructor
    · rintro ⟨r, hr⟩; rw [h3] at hr; cases hr
    · rintro ⟨_, j, q, y, hj, hr, hy⟩
      obtain ⟨c, hc, hr'⟩ := h2 j q hj
      rw [hr, Except.ok.injEq] at hr'
      rw [← hr'] at hc
      exact absurd (h4 j y hc) (not_le.2 hy)
  · constructor
    · intro _
      refine ⟨fun j q hj => ?_, b, p, x, q1, ?_, q3⟩
      · obtain ⟨c, _, hr⟩ := h2 j q hj
        exact ⟨c, hr⟩
      · obtain ⟨c, hc, hr⟩ := h2 b p q1
        rw [q2, Option.some.injEq] at hc
        rw [hr, hc]
    · intro _; exact ⟨_, q6⟩
  · constructor
    · rintro ⟨r, hr⟩; rw [h3] at hr; cases hr
    · rintro ⟨hall, _⟩
      obtain ⟨c, hc⟩ := hall i p h5
      rw [h6] at hc
      cases hc

/-- **C127 is violated** when every run succeeds but none costs less than a million (or no cost is a
number): the call ends with an error instead of a best value. -/
theorem C127_hopeless_violated (silent : Bool) (mk : ℝ → α)
    (run : ℕ → α → Except String (Option ℝ)) (vmin vmax : ℝ) {n : ℕ} (hn : 1 ≤ n) (f : Disk α)
    (hok : ∀ (j : ℕ) (q : ℝ), (paramValues vmin vmax n)[j]? = some q →
      ∃ c, run j (mk q) = .ok c ∧ ∀ y, c = some y → 1000000 ≤ y) :
    (calibrate true silent mk run vmin vmax n f).raised =
      some "UnboundLocalError: best_index" := by
  rcases calibrate_cases silent mk run vmin vmax hn f with
    ⟨cs, h1, h2, _, ⟨h4, h3, h5⟩ | ⟨b, p, x, q1, q2, q3, _⟩⟩ | ⟨e, i, p, h5, h6, _, h3⟩
  · exact h5
  · obtain ⟨c, hc, hr⟩ := h2 b p q1
    obtain ⟨c', hr', hbig⟩ := hok b p q1
    rw [hr, Except.ok.injEq] at hr'
    rw [q2, Option.some.injEq] at hc
    exact absurd (hbig x (by rw [← hr', ← hc])) (not_le.2 q3)
  · obtain ⟨c, hc, _⟩ := hok i p h5
    rw [h6] at hc
    cases hc

/-- **C127 is violated** for calls that ask for a report: they always end with an error (the results
are stored before). -/
theorem C127_report_violated {mk : ℝ → α} {run : ℕ → α → Except String (Option ℝ)}
    {vmin vmax : ℝ} {n : ℕ} (hn : 1 ≤ n) (f : Disk α) :
    ∃ e, (calibrate true false mk run vmin vmax n f).raised = some e := by
  rcases calibrate_cases false mk run vmin vmax hn f with
    ⟨cs, h1, h2, _, ⟨h4, h3, h5⟩ | ⟨b, p, x, q1, q2, q3, q4, q5, q6, q7⟩⟩ | ⟨e, i, p, _, _, _, h3⟩
  · exact ⟨_, h5⟩
  · exact ⟨_, by rw [q7]; rfl⟩
  · exact ⟨e, by rw [h3]⟩

/-- Parameters and costs are stored side by side; with an empty range the list of costs is longer
and filled up with zeros, which look like perfect runs. -/
theorem C127_costs {silent : Bool} {mk : ℝ → α} {run : ℕ → α → Except String (Option ℝ)}
    {vmin vmax : ℝ} {n : ℕ} (hn : 1 ≤ n) {f : Disk α} {r : Saved}
    (h : (calibrate true silent mk run vmin vmax n f).saved = some r) :
    r.params = paramValues vmin vmax n ∧ r.costs.length = n ∧
    (∀ (j : ℕ) (q : ℝ), r.params[j]? = some q → ∃ c, r.costs[j]? = some c ∧ run j (mk q) = .ok c) ∧
    ∀ j, r.params.length ≤ j → j < n → r.costs[j]? = some (some 0) := by
  have hl := paramValues_length_le (vmin := vmin) (vmax := vmax) hn
  rcases calibrate_cases silent mk run vmin vmax hn f with
    ⟨cs, h1, h2, _, ⟨_, h3, _⟩ | ⟨b, p, x, q1, q2, q3, q4, q5, q6, _⟩⟩ | ⟨e, i, p, _, _, _, h3⟩
  · rw [h3] at h; cases h
  · rw [q6, Option.some.injEq] at h
    subst h
    refine ⟨rfl, by simp; omega, ?_, ?_⟩
    · intro j q hj
      obtain ⟨c, hc, hr⟩ := h2 j q hj
      have hjl : j < cs.length := by
        by_contra hcc
        rw [List.getElem?_eq_none (by omega)] at hc
        cases hc
      exact ⟨c, by dsimp only; rw [List.getElem?_append_left hjl]; exact hc, hr⟩
    · intro j h3 h4
      dsimp only at h3 ⊢
      rw [List.getElem?_append_right (by omega), List.getElem?_replicate, if_pos (by omega)]
  · rw [h3] at h; cases h

/-- **C127, C128 are violated** for a calibration over no values at all (`n_values=0`): it always ends with an
error, and with equal limits the model is run once all the same and the input file is left overwritten. -/
theorem C127_no_values_violated (silent : Bool) (mk : ℝ → α)
    (run : ℕ → α → Except String (Option ℝ)) (vmin vmax : ℝ) (f : Disk α) :
    (vmin ≠ vmax → (calibrate true silent mk run vmin vmax 0 f).raised =
      some "UnboundLocalError: best_index") ∧
    (vmin = vmax → (calibrate true silent mk run vmin vmax 0 f).files = ⟨mk vmin, some f.input⟩ ∧
      ∀ c, run 0 (mk vmin) = .ok c →
        (calibrate true silent mk run vmin vmax 0 f).raised = some "IndexError") := by
  constructor
  · intro h
    simp [calibrate, paramValues, loop, h]
  · rintro rfl
    cases hr : run 0 (mk vmin) with
    | error e => simp [calibrate, paramValues, loop, hr]
    | ok c => simp [calibrate, paramValues, loop, hr]

/-! ## The files (C128) -/

/-- **C128** (what holds): if no run fails, the input file is what it was, whatever the costs. -/
theorem C128_restored_partial (silent : Bool) (mk : ℝ → α)
    (run : ℕ → α → Except String (Option ℝ)) (vmin vmax : ℝ) {n : ℕ} (hn : 1 ≤ n) (f : Disk α)
    (hok : ∀ (j : ℕ) (q : ℝ), (paramValues vmin vmax n)[j]? = some q → ∃ c, run j (mk q) = .ok c) :
    (calibrate true silent mk run vmin vmax n f).files.input = f.input := by
  rcases calibrate_cases silent mk run vmin vmax hn f with
    ⟨cs, _, _, h, _⟩ | ⟨e, i, p, h5, h6, _, h3⟩
  · rw [h]
  · obtain ⟨c, hc⟩ := hok i p h5
    rw [h6] at hc
    cases hc

/-- **C128 is violated** when a run fails: the input file is left with the grid of the failing
run. -/
theorem C128_failed_run_violated (silent : Bool) (mk : ℝ → α)
    (run : ℕ → α → Except String (Option ℝ)) (vmin vmax : ℝ) {n : ℕ} (hn : 1 ≤ n) (f : Disk α)
    {i : ℕ} {p : ℝ} {e : String} (hp : (paramValues vmin vmax n)[i]? = some p)
    (hf : run i (mk p) = .error e)
    (hbefore : ∀ (j : ℕ) (q : ℝ), j < i → (paramValues vmin vmax n)[j]? = some q → ∃ c, run j (mk q) = .ok c) :
    (calibrate true silent mk run vmin vmax n f).files = ⟨mk p, some f.input⟩ ∧
    (calibrate true silent mk run vmin vmax n f).raised = some e := by
  rcases calibrate_cases silent mk run vmin vmax hn f with
    ⟨cs, _, h2, _⟩ | ⟨e', i', p', h5, h6, h7, h3⟩
  · obtain ⟨c, _, hr⟩ := h2 i p hp
    rw [hf] at hr; cases hr
  · have hii : i' = i := by
      rcases lt_trichotomy i' i with h | h | h
      · obtain ⟨c, hc⟩ := hbefore i' p' h h5
        rw [h6] at hc; cases hc
      · exact h
      · obtain ⟨c, hc⟩ := h7 i p h hp
        rw [hf] at hc; cases hc
    subst hii
    rw [hp, Option.some.injEq] at h5
    subst h5
    rw [hf, Except.error.injEq] at h6
    subst h6
    rw [h3]
    exact ⟨rfl, rfl⟩

/-- **C128** (what holds): wherever a call is interrupted, the original grid is in the input file or
in the backup. -/
theorem C128_recoverable_partial (mk : ℝ → α) (run : ℕ → α → Except String (Option ℝ))
    (vmin vmax : ℝ) {n : ℕ} (hn : 1 ≤ n) (f : Disk α) (st : Disk α)
    (hst : st ∈ crashPoints mk run vmin vmax n f) :
    st.input = f.input ∨ st.backup = some f.input := by
  unfold crashPoints at hst
  simp only [List.cons_append, List.mem_cons, List.mem_append, List.mem_map,
    List.not_mem_nil, or_false] at hst
  rcases hst with rfl | rfl | ⟨p, _, rfl⟩ | rfl
  · exact Or.inl rfl
  · exact Or.inl rfl
  · exact Or.inr rfl
  · rcases calibrate_cases true mk run vmin vmax hn f with
      ⟨cs, _, _, h, _⟩ | ⟨e, i, p, _, _, _, h⟩
    · rw [h]; exact Or.inl rfl
    · rw [h]; exact Or.inr rfl

/-- **C128 is violated** for repeated calls: after a failed call the next one, even if it succeeds,
replaces the only copy of the original by the grid of the failed run. -/
theorem C128_original_lost_violated (s1 s2 : Bool) (mk : ℝ → α)
    (run run' : ℕ → α → Except String (Option ℝ)) (vmin vmax : ℝ) {n : ℕ} (hn : 1 ≤ n)
    (f : Disk α) {i : ℕ} {p : ℝ} {e : String} (hp : (paramValues vmin vmax n)[i]? = some p)
    (hf : run i (mk p) = .error e)
    (hbefore : ∀ (j : ℕ) (q : ℝ), j < i → (paramValues vmin vmax n)[j]? = some q → ∃ c, run j (mk q) = .ok c)
    (hok : ∀ (j : ℕ) (q : ℝ), (paramValues vmin vmax n)[j]? = some q → ∃ c, run' j (mk q) = .ok c) :
    (calibrate true s2 mk run' vmin vmax n
      (calibrate true s1 mk run vmin vmax n f).files).files = ⟨mk p, some (mk p)⟩ := by
  rw [(C128_failed_run_violated s1 mk run vmin vmax hn f hp hf hbefore).1]
  rcases calibrate_cases s2 mk run' vmin vmax hn ⟨mk p, some f.input⟩ with
    ⟨cs, _, _, h, _⟩ | ⟨e, i, p, h5, h6, _, h⟩
  · rw [h]
  · obtain ⟨c, hc⟩ := hok i p h5
    rw [h6] at hc; cases hc

/-- A name that is not supported changes no file and reports nothing. -/
theorem C128_unknown_name (silent : Bool) (mk : ℝ → α) (run : ℕ → α → Except String (Option ℝ))
    (vmin vmax : ℝ) (n : ℕ) (f : Disk α) :
    (calibrate false silent mk run vmin vmax n f).files = f ∧
    (calibrate false silent mk run vmin vmax n f).saved = none ∧
    (calibrate false silent mk run vmin vmax n f).raised = none := ⟨rfl, rfl, rfl⟩

/-- A case: three values, the costs 5, 2, 2; the second value is reported. -/
example : (calibrate true true (fun p => p) (fun k _ => .ok (some (if k = 0 then 5 else 2))) 0 2 3
    ⟨7, none⟩).saved.map (·.best) = some (some 1) := by
  norm_num [calibrate, loop, paramValues, List.range, List.range.loop, Search.add]

/-! ## The cost (C130) -/

/-- The common part of two series. -/
def common (x y : List ℝ) : ℕ := min x.length y.length

/-- The `p`-distance of the common part of two series. -/
def dist (p : ℝ) (x y : List ℝ) : ℝ := ((List.zipWith (fun a b => |a - b| ^ p) x y).sum) ^ (1 / p)

/-- **C130**: any two series can be compared, whatever their lengths, and the cost is the `p`-distance of
their common part. -/
theorem C130_always_defined {p : ℝ} (hp : 0 < p) (x y : List ℝ) :
    computeCost p x y = some (dist p x y) := by
  have key : ∀ (f : ℝ → ℝ → ℝ) (a b : List ℝ), List.zipWith f a b =
      List.zipWith f (a.take b.length) b ∧ List.zipWith f a b = List.zipWith f a (b.take a.length) := by
    intro f a b
    constructor
    · induction b generalizing a with
      | nil => simp
      | cons y ys ih => cases a with
        | nil => simp
        | cons x xs => simp only [List.length_cons, List.take_succ_cons, List.zipWith_cons_cons]
                       rw [← ih]
    · induction a generalizing b with
      | nil => simp
      | cons x xs ih => cases b with
        | nil => simp
        | cons y ys => simp only [List.length_cons, List.take_succ_cons, List.zipWith_cons_cons]
                       rw [← ih]
  unfold computeCost lpNorm dist
  simp only [if_neg hp.ne']
  split_ifs with h1 h2 h3 h3 h3
  · rw [← (key _ x y).2]
  · exact absurd (by simp; omega) h3
  · rw [← (key _ x y).1]
  · exact absurd (by simp; omega) h3
  · rfl
  all_goals omega

theorem sum_nonneg_zip (p : ℝ) (x y : List ℝ) :
    0 ≤ (List.zipWith (fun a b => |a - b| ^ p) x y).sum := by
  induction x generalizing y with
  | nil => simp
  | cons a x ih =>
    cases y with
    | nil => simp
    | cons b y =>
      rw [List.zipWith_cons_cons, List.sum_cons]
      exact add_nonneg (Real.rpow_nonneg (abs_nonneg _) _) (ih y)

/-- **C130 (negative).** With exponent 0 there is no cost: the call always fails. -/
theorem C130_exponent_zero_violated (x y : List ℝ) : computeCost 0 x y = none := by
  unfold computeCost lpNorm
  simp

theorem sum_top : ∀ l : List (WithTop ℝ), ⊤ ∈ l → l.sum = ⊤
  | [], h => by cases h
  | a :: l, h => by
    rw [List.sum_cons]
    rcases List.mem_cons.1 h with h | h
    · rw [← h, top_add]
    · rw [sum_top l h, add_top]

/-- **C130 (negative).** With a negative exponent a single pair of equal values makes the cost zero, however
different the others are, and a run without output has an infinite cost although nothing differs. -/
theorem C130_negative_exponent_violated (p : ℝ) (obs sim : List ℝ) :
    (∀ (k : ℕ) (a : ℝ), obs[k]? = some a → sim[k]? = some a → costNeg p obs sim = ((0 : ℝ) : WithTop ℝ)) ∧
    costNeg p obs [] = ⊤ := by
  have key : ∀ x y : List ℝ, (∃ (k : ℕ) (a : ℝ), x[k]? = some a ∧ y[k]? = some a) →
      lpNeg p x y = ((0 : ℝ) : WithTop ℝ) := by
    rintro x y ⟨k, a, hx, hy⟩
    unfold lpNeg
    rw [sum_top]
    rw [List.mem_iff_getElem?]
    refine ⟨k, ?_⟩
    rw [List.getElem?_zipWith, hx, hy]
    simp
  constructor
  · intro k a hx hy
    have h1 := (List.getElem?_eq_some_iff.1 hx).1
    have h2 := (List.getElem?_eq_some_iff.1 hy).1
    unfold costNeg
    split_ifs
    · exact key _ _ ⟨k, a, hx, by rw [List.getElem?_take, if_pos h1]; exact hy⟩
    · exact key _ _ ⟨k, a, by rw [List.getElem?_take, if_pos h2]; exact hx, hy⟩
    · exact key _ _ ⟨k, a, hx, hy⟩
  · have h0 : ∀ x : List ℝ, lpNeg p x [] = ⊤ := by
      intro x
      unfold lpNeg
      rw [List.zipWith_nil_right, List.sum_nil]
      show (if (0 : ℝ) = 0 then ⊤ else _) = _
      rw [if_pos rfl]
    unfold costNeg
    split_ifs with h1 h2
    · simp at h2
    · exact h0 _
    · exact h0 _

-- Observed 1, 5 and simulated 1, 900: a perfect cost with exponent -1.
example : costNeg (-1) [1, 5] [1, 900] = ((0 : ℝ) : WithTop ℝ) :=
  (C130_negative_exponent_violated (-1) [1, 5] [1, 900]).1 0 1 rfl rfl

/-- **C130**: the cost is not negative, and does not depend on which series is called observed. -/
theorem C130_symmetric {p : ℝ} (hp : 0 < p) (obs sim : List ℝ) :
    ∃ c, computeCost p obs sim = some c ∧ 0 ≤ c ∧ computeCost p sim obs = some c := by
  refine ⟨_, C130_always_defined (by linarith) _ _, Real.rpow_nonneg (sum_nonneg_zip p obs sim) _, ?_⟩
  rw [C130_always_defined (by linarith)]
  unfold dist
  rw [List.zipWith_comm]
  congr 4
  funext a b
  rw [abs_sub_comm]

/-- **C130**: the cost is zero exactly when the two series agree as far as the shorter one goes. -/
theorem C130_zero_iff {p : ℝ} (hp : 0 < p) (obs sim : List ℝ) :
    computeCost p obs sim = some 0 ↔
      ∀ (k : ℕ) (a b : ℝ), obs[k]? = some a → sim[k]? = some b → a = b := by
  rw [C130_always_defined (by linarith), Option.some.injEq]
  unfold dist
  rw [Real.rpow_eq_zero (sum_nonneg_zip p obs sim) (by positivity)]
  induction obs generalizing sim with
  | nil => simp
  | cons x xs ih =>
    cases sim with
    | nil => simp
    | cons y ys =>
      rw [List.zipWith_cons_cons, List.sum_cons,
        add_eq_zero_iff_of_nonneg (Real.rpow_nonneg (abs_nonneg _) _) (sum_nonneg_zip p xs ys), ih,
        Real.rpow_eq_zero (abs_nonneg _) hp.ne', abs_eq_zero, sub_eq_zero]
      constructor
      · rintro ⟨h1, h2⟩ k a b ha hb
        cases k with
        | zero => simp at ha hb; rw [← ha, ← hb]; exact h1
        | succ k => exact h2 k a b (by simpa using ha) (by simpa using hb)
      · intro h
        exact ⟨h 0 x y rfl rfl, fun k a b ha hb => h (k + 1) a b (by simpa using ha) (by simpa using hb)⟩

/-- **C130**: for series of equal length and `p ≥ 1` the cost obeys the triangle inequality. -/
theorem C130_triangle {p : ℝ} (hp : 1 ≤ p) {n : ℕ} (x y z : Fin n → ℝ) :
    ∃ a b c, computeCost p (List.ofFn x) (List.ofFn z) = some a ∧
      computeCost p (List.ofFn x) (List.ofFn y) = some b ∧
      computeCost p (List.ofFn y) (List.ofFn z) = some c ∧ a ≤ b + c := by
  refine ⟨_, _, _, C130_always_defined (by linarith) _ _, C130_always_defined (by linarith) _ _, C130_always_defined (by linarith) _ _, ?_⟩
  have e : ∀ u v : Fin n → ℝ, dist p (List.ofFn u) (List.ofFn v) =
      (∑ i, |u i - v i| ^ p) ^ (1 / p) := by
    intro u v
    unfold dist
    congr 1
    rw [show List.zipWith (fun a b => |a - b| ^ p) (List.ofFn u) (List.ofFn v) =
      List.ofFn (fun i => |u i - v i| ^ p) by
        apply List.ext_getElem
        · simp
        · intro i h1 h2; simp]
    rw [List.sum_ofFn]
  rw [e, e, e]
  have := Real.Lp_add_le Finset.univ (fun i => x i - y i) (fun i => y i - z i) hp
  simpa using this

/-- **C130**: only the common part counts: cutting the simulated series never raises the cost, and a
run without any output counts as perfect. -/
theorem C130_short_run {p : ℝ} (hp : 0 < p) (obs sim : List ℝ) (k : ℕ) :
    (∃ a b, computeCost p obs (sim.take k) = some a ∧ computeCost p obs sim = some b ∧ a ≤ b) ∧
    computeCost p obs [] = some 0 := by
  constructor
  · refine ⟨_, _, C130_always_defined (by linarith) _ _, C130_always_defined (by linarith) _ _, ?_⟩
    unfold dist
    apply Real.rpow_le_rpow (sum_nonneg_zip _ _ _) _ (by positivity)
    induction obs generalizing sim k with
    | nil => simp
    | cons x xs ih =>
      cases sim with
      | nil => simp
      | cons y ys =>
        cases k with
        | zero => simpa using sum_nonneg_zip p (x :: xs) (y :: ys)
        | succ k =>
          simp only [List.take_succ_cons, List.zipWith_cons_cons, List.sum_cons]
          linarith [ih ys k]
  · rw [C130_zero_iff hp]
    simp

/-- A case: the distance of (0,0) and (3,4) is 5. -/
example : computeCost 2 [0, 0] [3, 4] = some 5 := by
  rw [C130_always_defined (by linarith), Option.some.injEq]
  unfold dist
  norm_num [← Real.sqrt_eq_rpow]
  rw [show (25 : ℝ) = 5 ^ 2 by norm_num, Real.sqrt_sq (by norm_num)]

/-! ## The newest output file (C131) -/

open _root_.Files (Name checkOverwrite)

/-- The `k`-th output file of a run: the plain name and then the numbered ones. -/
def out (stem : Name) (k : ℕ) : Name :=
  if k = 0 then stem ++ "_0D-Q.txt".toList
  else stem ++ "_0D-Q_".toList ++ Nat.toDigits 10 k ++ ".txt".toList

theorem afterSep_append {stem : Name} (hs : ¬ sep <:+: stem) (r : Name) :
    afterSep (stem ++ sep ++ r) = some r := by
  induction stem with
  | nil => simp [sep, afterSep]
  | cons c t ih =>
    have ht : ¬ sep <:+: t := fun h => hs (h.trans (List.suffix_cons c t).isInfix)
    have hp : ¬ sep <+: c :: (t ++ sep ++ r) := by
      intro hp
      by_cases hl : sep.length ≤ (c :: t).length
      · apply hs
        have : sep <+: c :: t := by
          apply List.prefix_of_prefix_length_le hp _ hl
          exact ⟨sep ++ r, by simp⟩
        exact this.isInfix
      · have hl' : t.length + 1 < 5 := by
          simp [sep] at hl
          omega
        have h1 := List.prefix_iff_getElem?.1 hp (t.length + 1) (by simpa [sep] using hl')
        rw [show c :: (t ++ sep ++ r) = (c :: t) ++ (sep ++ r) by simp,
          List.getElem?_append_right (by simp)] at h1
        have h2 : (sep ++ r)[t.length + 1 - (c :: t).length]? = some '_' := by simp [sep]
        rw [h2] at h1
        have : ∀ m, 1 ≤ m → (hm : m < 5) → '_' ≠ sep[m]'(by simpa [sep] using hm) := by
          intro m h1 h2
          have : m = 1 ∨ m = 2 ∨ m = 3 ∨ m = 4 := by omega
          rcases this with rfl | rfl | rfl | rfl <;> simp [sep]
        exact this (t.length + 1) (by omega) hl' (by simpa using h1)
    have : afterSep (c :: t ++ sep ++ r) = afterSep (t ++ sep ++ r) := by
      rw [List.cons_append, List.cons_append, afterSep, if_neg]
      rw [List.isPrefixOf_iff_prefix]
      exact hp
    rw [this, ih ht]

theorem beforeSep_append {stem : Name} (hs : ¬ sep <:+: stem) (r : Name) :
    beforeSep (stem ++ sep ++ r) = stem := by
  induction stem with
  | nil => simp [sep, beforeSep]
  | cons c t ih =>
    have ht : ¬ sep <:+: t := fun h => hs (h.trans (List.suffix_cons c t).isInfix)
    have hp : ¬ sep <+: c :: (t ++ sep ++ r) := by
      intro hp
      by_cases hl : sep.length ≤ (c :: t).length
      · apply hs
        have : sep <+: c :: t := by
          apply List.prefix_of_prefix_length_le hp _ hl
          exact ⟨sep ++ r, by simp⟩
        exact this.isInfix
      · have hl' : t.length + 1 < 5 := by
          simp [sep] at hl
          omega
        have h1 := List.prefix_iff_getElem?.1 hp (t.length + 1) (by simpa [sep] using hl')
        rw [show c :: (t ++ sep ++ r) = (c :: t) ++ (sep ++ r) by simp,
          List.getElem?_append_right (by simp)] at h1
        have h2 : (sep ++ r)[t.length + 1 - (c :: t).length]? = some '_' := by simp [sep]
        rw [h2] at h1
        have : ∀ m, 1 ≤ m → (hm : m < 5) → '_' ≠ sep[m]'(by simpa [sep] using hm) := by
          intro m h1 h2
          have : m = 1 ∨ m = 2 ∨ m = 3 ∨ m = 4 := by omega
          rcases this with rfl | rfl | rfl | rfl <;> simp [sep]
        exact this (t.length + 1) (by omega) hl' (by simpa using h1)
    rw [List.cons_append, List.cons_append, beforeSep, if_neg, ih ht]
    rw [List.isPrefixOf_iff_prefix]
    exact hp

theorem beforeSep_noQ {r : Name} (h : 'Q' ∉ r) : beforeSep r = r := by
  induction r with
  | nil => rfl
  | cons c t ih =>
    rw [beforeSep, if_neg, ih (fun hm => h (List.mem_cons_of_mem _ hm))]
    rw [List.isPrefixOf_iff_prefix]
    intro hp
    exact h (hp.subset (by simp [sep]))

theorem removeTxt_append {a : Name} (h : '.' ∉ a) : removeTxt (a ++ ".txt".toList) = a := by
  induction a with
  | nil => simp [removeTxt]
  | cons c t ih =>
    have hc : c ≠ '.' := fun hc => h (hc ▸ List.mem_cons_self)
    rw [List.cons_append, removeTxt, ih (fun hm => h (List.mem_cons_of_mem _ hm))]
    intro r hr
    exact absurd hr (by simp [hc])

theorem removeTxt_nodot {a : Name} (h : '.' ∉ a) : removeTxt a = a := by
  induction a with
  | nil => simp [removeTxt]
  | cons c t ih =>
    have hc : c ≠ '.' := fun hc => h (hc ▸ List.mem_cons_self)
    rw [removeTxt, ih (fun hm => h (List.mem_cons_of_mem _ hm))]
    intro r hr
    exact absurd hr (by simp [hc])

theorem digit_ne {k : ℕ} {c : Char} (hc : c ∈ Nat.toDigits 10 k) : c ≠ '_' ∧ c ≠ 'Q' ∧ c ≠ '.' := by
  have := Nat.isDigit_of_mem_toDigits (by norm_num) (by norm_num) hc
  refine ⟨?_, ?_, ?_⟩ <;> · rintro rfl; revert this; decide

theorem fileNumber_out {stem : Name} (hs : ¬ sep <:+: stem) (k : ℕ) :
    fileNumber (out stem k) = some k := by
  unfold fileNumber out
  split_ifs with hk
  · rw [show stem ++ "_0D-Q.txt".toList = stem ++ sep ++ ".txt".toList by simp [sep],
      afterSep_append hs]
    subst hk
    have : removeTxt (beforeSep ".txt".toList) = [] := by
      rw [beforeSep_noQ (by decide)]
      exact removeTxt_append (a := []) (by simp)
    simp only [this]
    simp
  · rw [show stem ++ "_0D-Q_".toList ++ Nat.toDigits 10 k ++ ".txt".toList =
      stem ++ sep ++ (('_' :: Nat.toDigits 10 k) ++ ".txt".toList) by simp [sep],
      afterSep_append hs]
    have h1 : 'Q' ∉ ('_' :: Nat.toDigits 10 k) ++ ".txt".toList := by
      intro h
      simp only [List.mem_append, List.mem_cons] at h
      rcases h with (h | h) | h
      · exact absurd h (by decide)
      · exact (digit_ne h).2.1 rfl
      · exact absurd h (by decide)
    have h2 : '.' ∉ '_' :: Nat.toDigits 10 k := by
      intro h
      simp only [List.mem_cons] at h
      rcases h with h | h
      · exact absurd h (by decide)
      · exact (digit_ne h).2.2 rfl
    have h3 : (removeTxt (beforeSep (('_' :: Nat.toDigits 10 k) ++ ".txt".toList))).filter
        (· ≠ '_') = Nat.toDigits 10 k := by
      rw [beforeSep_noQ h1, removeTxt_append h2, List.filter_cons_of_neg (by simp)]
      rw [List.filter_eq_self]
      intro c hc
      simpa using (digit_ne hc).1
    simp only [h3]
    rw [if_pos (Nat.toDigits_ne_nil)]
    unfold parseNat
    rw [if_pos]
    · rw [Nat.ofDigitChars_ten_toDigits]
    · refine ⟨Nat.toDigits_ne_nil, ?_⟩
      rw [List.all_eq_true]
      intro c hc
      exact Nat.isDigit_of_mem_toDigits (by norm_num) (by norm_num) hc

theorem out_injective {stem : Name} (hs : ¬ sep <:+: stem) {j k : ℕ} (h : out stem j = out stem k) :
    j = k := by
  have := fileNumber_out hs j
  rw [h, fileNumber_out hs k, Option.some.injEq] at this
  exact this.symm

theorem out_ends (stem : Name) (k : ℕ) :
    stem ++ sep <+: out stem k ∧ ".txt".toList <:+ out stem k := by
  unfold out
  split_ifs
  · exact ⟨⟨".txt".toList, by simp [sep]⟩, ⟨stem ++ sep, by simp [sep]⟩⟩
  · exact ⟨⟨'_' :: Nat.toDigits 10 k ++ ".txt".toList, by simp [sep]⟩,
      ⟨stem ++ sep ++ '_' :: Nat.toDigits 10 k, by simp [sep]⟩⟩

/-- The loop over names that all have numbers keeps the greatest. -/
theorem newestLoop_spec : ∀ (fs : List Name) (t : Option (ℕ × Name)),
    (∀ f ∈ fs, ".txt".toList <:+ f → ∃ k, fileNumber f = some k) →
    ∃ r, newestLoop fs t = .ok r ∧
      (r = t ∨ ∃ k f, r = some (k, f) ∧ f ∈ fs ∧ fileNumber f = some k ∧ ".txt".toList <:+ f) ∧
      (∀ m g, t = some (m, g) → ∃ k f, r = some (k, f) ∧ m ≤ k) ∧
      ∀ f ∈ fs, ".txt".toList <:+ f → ∀ m, fileNumber f = some m → ∃ k g, r = some (k, g) ∧ m ≤ k := by
  intro fs
  induction fs with
  | nil =>
    intro t _
    exact ⟨t, rfl, Or.inl rfl, fun m g h => ⟨m, g, h, le_rfl⟩, by simp⟩
  | cons f fs ih =>
    intro t hf
    have hfs : ∀ f ∈ fs, ".txt".toList <:+ f → ∃ k, fileNumber f = some k :=
      fun g hg => hf g (List.mem_cons_of_mem _ hg)
    by_cases hx : ".txt".toList <:+ f
    · obtain ⟨num, hnum⟩ := hf f List.mem_cons_self hx
      have hb : ".txt".toList.isSuffixOf f = true := List.isSuffixOf_iff_suffix.2 hx
      have key : ∃ t', newestLoop (f :: fs) t = newestLoop fs t' ∧
          (t' = t ∨ t' = some (num, f)) ∧ (∀ m g, t = some (m, g) → ∃ k h, t' = some (k, h) ∧ m ≤ k) ∧
          ∃ k h, t' = some (k, h) ∧ num ≤ k := by
        cases t with
        | none =>
          exact ⟨some (num, f), by
            rw [newestLoop, if_pos hb, hnum], Or.inr rfl, by simp,
            num, f, rfl, le_rfl⟩
        | some q =>
          obtain ⟨m, g⟩ := q
          by_cases hm : m < num
          · refine ⟨some (num, f), by
            rw [newestLoop, if_pos hb, hnum]
            simp only [hm, if_true], Or.inr rfl, ?_,
              num, f, rfl, le_rfl⟩
            intro m' g' h
            simp only [Option.some.injEq, Prod.mk.injEq] at h
            exact ⟨num, f, rfl, by omega⟩
          · refine ⟨some (m, g), by
            rw [newestLoop, if_pos hb, hnum]
            simp only [hm, if_false], Or.inl rfl, ?_,
              m, g, rfl, by omega⟩
            intro m' g' h
            exact ⟨m', g', h, le_rfl⟩
      obtain ⟨t', e, h1, h2, k0, g0, h3, h3'⟩ := key
      obtain ⟨r, q1, q2, q3, q4⟩ := ih t' hfs
      refine ⟨r, by rw [e, q1], ?_, ?_, ?_⟩
      · rcases q2 with q2 | ⟨k, g, a, b, c, d⟩
        · rcases h1 with h1 | h1
          · exact Or.inl (q2.trans h1)
          · exact Or.inr ⟨num, f, q2.trans h1, List.mem_cons_self, hnum, hx⟩
        · exact Or.inr ⟨k, g, a, List.mem_cons_of_mem _ b, c, d⟩
      · intro m g hm
        obtain ⟨k, h, a, b⟩ := h2 m g hm
        obtain ⟨k', h', a', b'⟩ := q3 k h a
        exact ⟨k', h', a', b.trans b'⟩
      · intro g hg hgx m hm
        rcases List.mem_cons.1 hg with rfl | hg
        · rw [hnum, Option.some.injEq] at hm
          subst hm
          obtain ⟨k', h', a', b'⟩ := q3 k0 g0 h3
          exact ⟨k', h', a', h3'.trans b'⟩
        · exact q4 g hg hgx m hm
    · have hb : ".txt".toList.isSuffixOf f = false := by
        rw [Bool.eq_false_iff]
        intro h
        exact hx (List.isSuffixOf_iff_suffix.1 h)
      obtain ⟨r, q1, q2, q3, q4⟩ := ih t hfs
      refine ⟨r, by rw [← q1]; simp only [newestLoop, hb]; rfl, ?_, q3, ?_⟩
      · rcases q2 with q2 | ⟨k, g, a, b, c, d⟩
        · exact Or.inl q2
        · exact Or.inr ⟨k, g, a, List.mem_cons_of_mem _ b, c, d⟩
      · intro g hg hgx m hm
        rcases List.mem_cons.1 hg with rfl | hg
        · exact absurd hgx hx
        · exact q4 g hg hgx m hm

/-- **C131**: among the output files of the run, whatever the order in which the directory lists
them and whatever other files it holds, the one with the greatest number is taken. -/
theorem C131_newest {stem : Name} (hs : ¬ sep <:+: stem) {listing : List Name}
    (honly : ∀ f ∈ listing, stem ++ sep <+: f → ".txt".toList <:+ f → ∃ k, f = out stem k)
    {k : ℕ} (hk : out stem k ∈ listing) (hmax : ∀ j, out stem j ∈ listing → j ≤ k) :
    newest stem listing = .ok (out stem k) := by
  have hmem : ∀ f, f ∈ (listing.filter fun f => (stem ++ sep).isPrefixOf f) ↔
      f ∈ listing ∧ stem ++ sep <+: f := by
    intro f
    rw [List.mem_filter, List.isPrefixOf_iff_prefix]
  obtain ⟨r, h1, h2, _, h4⟩ := newestLoop_spec
    (listing.filter fun f => (stem ++ sep).isPrefixOf f) none (by
      intro f hf hx
      obtain ⟨a, b⟩ := (hmem f).1 hf
      obtain ⟨j, rfl⟩ := honly f a b hx
      exact ⟨j, fileNumber_out hs j⟩)
  obtain ⟨m, g, hr, hkm⟩ := h4 (out stem k) ((hmem _).2 ⟨hk, (out_ends stem k).1⟩)
    (out_ends stem k).2 k (fileNumber_out hs k)
  rcases h2 with h2 | ⟨m', g', a, b, c, d⟩
  · rw [h2] at hr; cases hr
  · rw [a] at h1
    unfold newest
    rw [h1]
    obtain ⟨b1, b2⟩ := (hmem g').1 b
    obtain ⟨j, rfl⟩ := honly g' b1 b2 d
    rw [fileNumber_out hs, Option.some.injEq] at c
    subst c
    rw [hr] at a
    simp only [Option.some.injEq, Prod.mk.injEq] at a
    have : j = k := le_antisymm (hmax j b1) (by omega)
    rw [this]

/-- **C131** together with the rule against overwriting: the file that the next run writes is the one
that is read afterwards exactly when the numbers of the existing files have no gap. -/
theorem C131_reads_own_output {stem : Name} (hs : ¬ sep <:+: stem) {listing after : List Name}
    (honly : ∀ f ∈ listing, stem ++ sep <+: f → ".txt".toList <:+ f → ∃ k, f = out stem k)
    {fuel : ℕ} {v : Name}
    (hv : checkOverwrite (fun n => decide (n ∈ listing)) fuel (out stem 0) = some v)
    (hafter : ∀ f, f ∈ after ↔ f = v ∨ f ∈ listing) :
    newest stem after = .ok v ↔
      ∀ j, out stem j ∈ listing → ∀ i, i < j → out stem i ∈ listing := by
  have hver : ∀ k, 1 ≤ k → _root_.Files.versioned (out stem 0) k = out stem k := by
    intro k hk
    have e0 : out stem 0 = (stem ++ sep) ++ ['.'] ++ "txt".toList := by simp [out, sep]
    unfold _root_.Files.versioned
    rw [e0, _root_.Files.prefixOf_dot _ (by decide), _root_.Files.extensionOf_dot _ (by decide)]
    unfold out
    rw [if_neg (by omega)]
    simp [sep]
  have hch : ∃ k, v = out stem k ∧ out stem k ∉ listing ∧ ∀ i, i < k → out stem i ∈ listing := by
    unfold _root_.Files.checkOverwrite at hv
    by_cases h0 : out stem 0 ∈ listing
    · rw [if_neg (by simp [h0])] at hv
      obtain ⟨m, h1, h2, h3, h4⟩ := _root_.Files.overwriteLoop_spec _ _ _ _ _ hv
      rw [hver m (by omega)] at h2
      refine ⟨m, h2, ?_, ?_⟩
      · rw [h2] at h3; simpa using h3
      · intro i hi
        rcases Nat.eq_zero_or_pos i with rfl | hpos
        · exact h0
        · have := h4 i (by omega) hi
          rw [hver i hpos] at this
          simpa using this
    · rw [if_pos (by simp [h0]), Option.some.injEq] at hv
      exact ⟨0, hv.symm, h0, by omega⟩
  obtain ⟨k, rfl, hfree, hbelow⟩ := hch
  have honly' : ∀ f ∈ after, stem ++ sep <+: f → ".txt".toList <:+ f → ∃ k, f = out stem k := by
    intro f hf
    rcases (hafter f).1 hf with rfl | hf
    · exact fun _ _ => ⟨k, rfl⟩
    · exact honly f hf
  constructor
  · intro h j hj i hij
    by_contra hi
    have hki : k ≤ i := by
      by_contra hc
      exact hi (hbelow i (by omega))
    -- the greatest number is above `k`
    have hfin : ∃ m, out stem m ∈ after ∧ ∀ j, out stem j ∈ after → j ≤ m := by
      have hset : {m | out stem m ∈ after}.Finite := by
        apply Set.Finite.of_finite_image (f := out stem)
        · exact (List.finite_toSet after).subset (by rintro _ ⟨m, hm, rfl⟩; exact hm)
        · intro a _ b _ hab; exact out_injective hs hab
      obtain ⟨m, hm, hmax⟩ := hset.exists_maximalFor id _ ⟨k, (hafter _).2 (Or.inl rfl)⟩
      refine ⟨m, hm, fun j hj => ?_⟩
      by_contra hc
      exact hc (hmax hj (by simp; omega))
    obtain ⟨m, hm, hmax⟩ := hfin
    rw [C131_newest hs honly' hm hmax, Except.ok.injEq] at h
    have := out_injective hs h
    have := hmax j ((hafter _).2 (Or.inr hj))
    omega
  · intro hgap
    apply C131_newest hs honly' ((hafter _).2 (Or.inl rfl))
    intro j hj
    rcases (hafter _).1 hj with h | h
    · exact (out_injective hs h).le
    · by_contra hc
      exact hfree (hgap j h k (by omega))

theorem newestLoop_bad : ∀ (fs : List Name) (t : Option (ℕ × Name)),
    (∃ f ∈ fs, ".txt".toList <:+ f ∧ fileNumber f = none) →
    newestLoop fs t = .error "ValueError" := by
  intro fs
  induction fs with
  | nil => rintro t ⟨f, hf, _⟩; cases hf
  | cons f fs ih =>
    rintro t ⟨g, hg, hx, hn⟩
    rw [newestLoop]
    rcases List.mem_cons.1 hg with rfl | hg
    · rw [if_pos (List.isSuffixOf_iff_suffix.2 hx), hn]
    · have := fun t => ih t ⟨g, hg, hx, hn⟩
      split_ifs with hb
      · cases fileNumber f with
        | none => rfl
        | some num =>
          cases t with
          | none => exact this _
          | some q => obtain ⟨m, h⟩ := q; exact this _
      · exact this _

theorem letter_ne {c : Char} (h : c.isAlpha = true) : c.isDigit = false ∧ c ≠ '_' := by
  constructor
  · simp only [Char.isAlpha, Char.isUpper, Char.isLower, Char.isDigit, Bool.or_eq_true,
      decide_eq_true_eq, Bool.and_eq_true, ge_iff_le, UInt32.le_iff_toNat_le, Bool.and_eq_false_iff,
      decide_eq_false_iff_not] at *
    have e1 : 'A'.val.toNat = 65 := rfl
    have e2 : 'a'.val.toNat = 97 := rfl
    have e3 : '9'.val.toNat = 57 := rfl
    omega
  · rintro rfl
    exact absurd h (by decide)

/-- **C131 is violated** when another text file shares the beginning of the name: one whose ending
has a letter, such as `Test_0D-Q_old.txt`, makes the call fail. -/
theorem C131_foreign_file_violated {stem : Name} (hs : ¬ sep <:+: stem) {listing : List Name}
    {x : Name} (hx : stem ++ sep ++ x ++ ".txt".toList ∈ listing) (hQ : 'Q' ∉ x) (hdot : '.' ∉ x)
    {c : Char} (hc : c ∈ x) (ha : c.isAlpha = true) :
    newest stem listing = .error "ValueError" := by
  obtain ⟨hd, hu⟩ := letter_ne ha
  have hn : fileNumber (stem ++ sep ++ x ++ ".txt".toList) = none := by
    unfold fileNumber
    rw [List.append_assoc (stem ++ sep), afterSep_append hs]
    have h1 : 'Q' ∉ x ++ ".txt".toList := by
      intro h
      rcases List.mem_append.1 h with h | h
      · exact hQ h
      · exact absurd h (by decide)
    have hmem : c ∈ x.filter (· ≠ '_') := List.mem_filter.2 ⟨hc, by simpa using hu⟩
    simp only [beforeSep_noQ h1, removeTxt_append hdot]
    rw [if_pos (List.ne_nil_of_mem hmem)]
    unfold parseNat
    rw [if_neg]
    rintro ⟨_, h⟩
    rw [List.all_eq_true] at h
    rw [h c hmem] at hd
    cases hd
  unfold newest
  rw [newestLoop_bad _ none ⟨_, List.mem_filter.2 ⟨hx, ?_⟩, ⟨stem ++ sep ++ x, rfl⟩, hn⟩]
  rw [List.isPrefixOf_iff_prefix]
  exact ⟨x ++ ".txt".toList, by simp⟩

/-- **C131 is violated** when the path to the files contains the mark `_0D-Q` itself, as in
`/out_0D-Q_runs/Test`: then not even the files of the run can be read. -/
theorem C131_folder_violated {a b : Name} (ha : ¬ sep <:+: a) (hb : ¬ sep <:+: b) (hdot : '.' ∉ b)
    {c : Char} (hc : c ∈ b) (hl : c.isAlpha = true) {listing : List Name} {k : ℕ}
    (hk : out (a ++ sep ++ b) k ∈ listing) :
    newest (a ++ sep ++ b) listing = .error "ValueError" := by
  obtain ⟨hd, hu⟩ := letter_ne hl
  obtain ⟨⟨z, hz⟩, hsuf⟩ := out_ends (a ++ sep ++ b) k
  have hn : fileNumber (out (a ++ sep ++ b) k) = none := by
    rw [← hz]
    unfold fileNumber
    rw [show a ++ sep ++ b ++ sep ++ z = a ++ sep ++ (b ++ sep ++ z) by simp, afterSep_append ha]
    have hmem : c ∈ b.filter (· ≠ '_') := List.mem_filter.2 ⟨hc, by simpa using hu⟩
    simp only [beforeSep_append hb, removeTxt_nodot hdot]
    rw [if_pos (List.ne_nil_of_mem hmem)]
    unfold parseNat
    rw [if_neg]
    rintro ⟨_, h⟩
    rw [List.all_eq_true] at h
    rw [h c hmem] at hd
    cases hd
  unfold newest
  rw [newestLoop_bad _ none ⟨_, List.mem_filter.2 ⟨hk, ?_⟩, hsuf, hn⟩]
  rw [List.isPrefixOf_iff_prefix]
  exact ⟨z, hz⟩

/-- Without any output file the call fails. -/
theorem C131_none {stem : Name} {listing : List Name}
    (h : ∀ f ∈ listing, stem ++ sep <+: f → ¬ ".txt".toList <:+ f) :
    newest stem listing = .error "UnboundLocalError: target" := by
  have : ∀ fs : List Name, (∀ f ∈ fs, ¬ ".txt".toList <:+ f) → newestLoop fs none = .ok none := by
    intro fs
    induction fs with
    | nil => intro _; rfl
    | cons f fs ih =>
      intro hf
      rw [newestLoop, if_neg]
      · exact ih fun g hg => hf g (List.mem_cons_of_mem _ hg)
      · intro hc
        exact hf f List.mem_cons_self (List.isSuffixOf_iff_suffix.1 hc)
  unfold newest
  rw [this]
  intro f hf
  rw [List.mem_filter, List.isPrefixOf_iff_prefix] at hf
  exact h f hf.1 hf.2

/-- A case: files 0, 2 and 10 exist; the next run writes number 1, but number 10 is read. -/
example : checkOverwrite (fun n => decide (n ∈ [out "T".toList 0, out "T".toList 2,
      out "T".toList 10])) 5 (out "T".toList 0) = some (out "T".toList 1) ∧
    newest "T".toList [out "T".toList 0, out "T".toList 2, out "T".toList 10, out "T".toList 1] =
      .ok (out "T".toList 10) := by
  constructor
  · decide +kernel
  · decide +kernel

end Calib
