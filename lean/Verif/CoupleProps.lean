import Verif.CoupleModel
import Verif.TimeInterpProps
import Verif.EmeliProps
import Mathlib.Data.Rat.Defs
import Mathlib.Algebra.Order.Ring.Rat
import Mathlib.Algebra.BigOperators.Intervals

/-!
# C221: a rate supplied to a component with the same time step is used once
-/

set_option autoImplicit false
set_option linter.unusedSectionVars false

namespace CoupleSpec

open TInterp

variable {ι K : Type*} [Field K]

/-- The values of the provider: the initial one, and the one computed by each update. -/
def value (v0 : ι → K) (a : ℕ → Act ι K) : ℕ → ι → K
  | 0 => v0
  | k + 1 => (a k).val

end CoupleSpec

namespace Couple

open TInterp CoupleSpec TInterpSpec

variable {ι K : Type*} [Fintype ι] [Nonempty ι] [Field K] [LinearOrder K] [IsStrictOrderedRing K]

theorem hist_succ (dt : K) (a : ℕ → Act ι K) (n : ℕ) :
    hist dt a (n + 1) = hist dt a n ++ [(a n, ((n + 1 : ℕ) : K) * dt)] := by
  simp [hist, List.range_succ]

theorem lastVal_hist (v0 : ι → K) (dt : K) (a : ℕ → Act ι K) (n : ℕ) :
    lastVal v0 (hist dt a n) = value v0 a n := by
  cases n with
  | zero => rfl
  | succ n => rw [hist_succ, lastVal_append]; rfl

theorem lastTime_hist (dt : K) (a : ℕ → Act ι K) (n : ℕ) :
    lastTime 0 (hist dt a n) = (n : K) * dt := by
  cases n with
  | zero => simp [hist, lastTime]
  | succ n => rw [hist_succ, lastTime_append]

theorem hist_nil_iff (dt : K) (a : ℕ → Act ι K) (n : ℕ) : hist dt a n = [] ↔ n = 0 := by
  simp [hist]

theorem hist_inplace_iff (dt : K) (a : ℕ → Act ι K) (n : ℕ) :
    (∀ x ∈ hist dt a n, x.1.isRebind = false) ↔ ∀ k < n, (a k).isRebind = false := by
  simp [hist]

/-- The first update of the user. -/
theorem used_zero (after rank0 : Bool) (v0 : ι → K) (dt : K) (a : ℕ → Act ι K) :
    used after rank0 v0 dt a 0 =
      if after = true ∧ ¬ (rank0 = true ∧ (a 0).isRebind = true) then value v0 a 1 else v0 := by
  cases after with
  | false =>
    simp [used, sysAt, hist, Sys.run, Sys.start, TID.create, Mem.alloc]
  | true =>
    have e : hist dt a 1 = [(a 0, ((0 + 1 : ℕ) : K) * dt)] := by simp [hist]
    cases h : a 0 with
    | inplace f =>
      cases rank0 <;>
      · simp only [used, sysAt, if_true, e, Sys.run, List.foldl_cons, List.foldl_nil, Sys.step, h,
          Sys.start, TID.create, Mem.alloc, Mem.write, TID.update, assign, value, Act.val,
          Act.isRebind, Bool.false_eq_true]
        split_ifs <;> simp_all
    | rebind f =>
      cases rank0 <;>
      · simp only [used, sysAt, if_true, e, Sys.run, List.foldl_cons, List.foldl_nil, Sys.step, h,
          Sys.start, TID.create, Mem.alloc, Mem.write, TID.update, assign, value, Act.val,
          Act.isRebind, Bool.false_eq_true]
        split_ifs <;> simp_all


/-- The later updates of the user. -/
theorem used_succ {dt : K} (hdt : 0 < dt) (after rank0 : Bool) (v0 : ι → K) (a : ℕ → Act ι K)
    (k : ℕ) (i : ι) :
    used after rank0 v0 dt a (k + 1) i =
      if after = false then value v0 a (k + 1) i
      else if (∃ j, value v0 a (k + 2) j = value v0 a (k + 1) j) ∨
          (rank0 = false ∧ ∀ m ≤ k + 1, (a m).isRebind = false) then value v0 a (k + 2) i
      else value v0 a (k + 1) i := by
  cases after with
  | false =>
    rw [if_pos rfl]
    have h := C17_newest_state_at_t2 rank0 v0 0 (hist dt a k) (a k) (((k + 1 : ℕ) : K) * dt) i
    rw [← hist_succ] at h
    exact h
  | true =>
    rw [if_neg (by simp)]
    have h := delivered_eq rank0 v0 0 (hist dt a (k + 1)) (a (k + 1))
      (((k + 1 + 1 : ℕ) : K) * dt) (((k + 1 : ℕ) : K) * dt) i
    rw [← hist_succ] at h
    change used true rank0 v0 dt a (k + 1) i = _ at h
    rw [h, lastVal_hist, lastTime_hist]
    have ht : ((k + 1 + 1 : ℕ) : K) * dt ≠ ((k + 1 : ℕ) : K) * dt := by
      intro e
      have := mul_right_cancel₀ hdt.ne' e
      have h2 : k + 1 + 1 = k + 1 := by exact_mod_cast this
      omega
    have hch : chord (((k + 1 : ℕ) : K) * dt) (value v0 a (k + 1) i) (((k + 1 + 1 : ℕ) : K) * dt)
        ((a (k + 1)).val i) (((k + 1 : ℕ) : K) * dt) = value v0 a (k + 1) i := by
      simp [chord]
    rw [hch]
    have hall : ((a (k + 1)).isRebind = false ∧ ∀ m < k + 1, (a m).isRebind = false) ↔
        ∀ m ≤ k + 1, (a m).isRebind = false := by
      constructor
      · rintro ⟨h1, h2⟩ m hm
        rcases Nat.lt_or_eq_of_le hm with h3 | h3
        · exact h2 m h3
        · rw [h3]; exact h1
      · intro h1; exact ⟨h1 _ le_rfl, fun m hm => h1 m hm.le⟩
    have hval : value v0 a (k + 2) = (a (k + 1)).val := rfl
    rw [hval]
    by_cases hs : rank0 = false ∧ ∀ m ≤ k + 1, (a m).isRebind = false
    · have c1 : (a (k + 1)).isRebind = false ∧
          (if rank0 = true then hist dt a (k + 1) = []
            else ∀ x ∈ hist dt a (k + 1), x.1.isRebind = false) := by
        obtain ⟨rfl, hs2⟩ := hs
        simp only [Bool.false_eq_true, if_false]
        rw [hist_inplace_iff]
        exact hall.2 hs2
      rw [if_pos c1, if_neg (fun hh => hh.1 (Classical.arbitrary ι) rfl), if_pos (Or.inr hs)]
    · have c1 : ¬ ((a (k + 1)).isRebind = false ∧
          (if rank0 = true then hist dt a (k + 1) = []
            else ∀ x ∈ hist dt a (k + 1), x.1.isRebind = false)) := by
        rintro ⟨h1, h2⟩
        cases rank0 with
        | true =>
          simp only [if_true] at h2
          rw [hist_nil_iff] at h2
          omega
        | false =>
          simp only [Bool.false_eq_true, if_false] at h2
          rw [hist_inplace_iff] at h2
          exact hs ⟨rfl, hall.1 ⟨h1, h2⟩⟩
      rw [if_neg c1]
      by_cases hd : ∀ j, (a (k + 1)).val j ≠ value v0 a (k + 1) j
      · rw [if_pos ⟨hd, ht⟩, if_neg]
        rintro (⟨j, hj⟩ | h2)
        · exact hd j hj
        · exact hs h2
      · rw [if_neg (fun hh => hd hh.1), if_pos]
        push Not at hd
        exact Or.inl hd

/-! ## The property theorems -/

/-- **C221, users before their provider.**  A component that comes before the provider in the
provider file uses every value of the provider, in order, one step after it was computed. -/
theorem C221_user_first {dt : K} (hdt : 0 < dt) (rank0 : Bool) (v0 : ι → K) (a : ℕ → Act ι K)
    (k : ℕ) : used false rank0 v0 dt a k = value v0 a k := by
  cases k with
  | zero => rw [used_zero]; simp [value]
  | succ k => funext i; rw [used_succ hdt]; simp

/-- **C221, grids that are updated in place.**  A component that comes after the provider uses every
value of the provider, in order, in the step in which it was computed. -/
theorem C221_grid_in_place {dt : K} (hdt : 0 < dt) (v0 : ι → K) (a : ℕ → Act ι K)
    (h : ∀ k, (a k).isRebind = false) (k : ℕ) :
    used true false v0 dt a k = value v0 a (k + 1) := by
  cases k with
  | zero => rw [used_zero]; simp
  | succ k =>
    funext i
    rw [used_succ hdt, if_neg (by simp), if_pos (Or.inr ⟨rfl, fun m _ => h m⟩)]

/-- **C221, scalars that are replaced.**  A component that comes after the provider uses every value
of the provider, in order, one step after it was computed. -/
theorem C221_new_scalar [Subsingleton ι] {dt : K} (hdt : 0 < dt) (v0 : ι → K) (a : ℕ → Act ι K)
    (h : (a 0).isRebind = true) (k : ℕ) :
    used true true v0 dt a k = value v0 a k := by
  cases k with
  | zero => rw [used_zero]; simp [h, value]
  | succ k =>
    funext i
    rw [used_succ hdt, if_neg (by simp)]
    by_cases hc : (∃ j, value v0 a (k + 2) j = value v0 a (k + 1) j) ∨
        (true = false ∧ ∀ m ≤ k + 1, (a m).isRebind = false)
    · rw [if_pos hc]
      rcases hc with ⟨j, hj⟩ | ⟨h0, _⟩
      · rw [Subsingleton.elim i j]; exact hj
      · cases h0
    · rw [if_neg hc]

/-- **C221 violated for scalars that are updated in place** (uniform rain, for instance): a component
that comes after the provider uses the first value twice and is one step late from then on, so that
the last value of the run is never used. -/
theorem C221_scalar_in_place [Subsingleton ι] {dt : K} (hdt : 0 < dt) (v0 : ι → K)
    (a : ℕ → Act ι K) (h : (a 0).isRebind = false) (k : ℕ) :
    used true true v0 dt a k = value v0 a (max k 1) := by
  cases k with
  | zero => rw [used_zero]; simp [h]
  | succ k =>
    funext i
    rw [used_succ hdt, if_neg (by simp)]
    have e : max (k + 1) 1 = k + 1 := by omega
    rw [e]
    by_cases hc : (∃ j, value v0 a (k + 2) j = value v0 a (k + 1) j) ∨
        (true = false ∧ ∀ m ≤ k + 1, (a m).isRebind = false)
    · rw [if_pos hc]
      rcases hc with ⟨j, hj⟩ | ⟨h0, _⟩
      · rw [Subsingleton.elim i j]; exact hj
      · cases h0
    · rw [if_neg hc]

/-- The amount used over a run, for a scalar updated in place: too much by the first value, too
little by the last. -/
theorem C221_scalar_in_place_total [Subsingleton ι] {dt : K} (hdt : 0 < dt) (v0 : ι → K)
    (a : ℕ → Act ι K) (h : (a 0).isRebind = false) (n : ℕ) (i : ι) :
    ∑ k ∈ Finset.range (n + 1), used true true v0 dt a k i * dt =
      ∑ k ∈ Finset.range (n + 1), (a k).val i * dt + ((a 0).val i - (a n).val i) * dt := by
  induction n with
  | zero =>
    simp only [Finset.sum_range_succ, Finset.sum_range_zero]
    rw [C221_scalar_in_place hdt v0 a h]
    simp [value]
  | succ n ih =>
    rw [Finset.sum_range_succ, ih, Finset.sum_range_succ _ (n + 1),
      C221_scalar_in_place hdt v0 a h]
    have e : max (n + 1) 1 = n + 1 := by omega
    rw [e]
    simp only [value]
    ring

/-- **C221, grids that are replaced**, for a component that comes after the provider: the first value
is used at once; after that the new value is used if some cell kept its value, otherwise the old
one. -/
theorem C221_new_grid {dt : K} (hdt : 0 < dt) (v0 : ι → K) (a : ℕ → Act ι K)
    (h : ∀ k, (a k).isRebind = true) :
    used true false v0 dt a 0 = value v0 a 1 ∧
    ∀ k, ((∃ j, value v0 a (k + 2) j = value v0 a (k + 1) j) →
        used true false v0 dt a (k + 1) = value v0 a (k + 2)) ∧
      ((∀ j, value v0 a (k + 2) j ≠ value v0 a (k + 1) j) →
        used true false v0 dt a (k + 1) = value v0 a (k + 1)) := by
  refine ⟨by rw [used_zero]; simp, fun k => ⟨fun hc => ?_, fun hc => ?_⟩⟩
  · funext i
    rw [used_succ hdt, if_neg (by simp), if_pos (Or.inl hc)]
  · funext i
    rw [used_succ hdt, if_neg (by simp), if_neg]
    rintro (⟨j, hj⟩ | ⟨_, h2⟩)
    · exact hc j hj
    · have := h2 0 (Nat.zero_le _)
      rw [h 0] at this
      cases this

/-- The property: every value of the provider is used in one step, always at once or always one step
later. -/
def UsedOnce (after rank0 : Bool) (v0 : ι → K) (dt : K) (a : ℕ → Act ι K) : Prop :=
  (∀ k, used after rank0 v0 dt a k = value v0 a k) ∨
  (∀ k, used after rank0 v0 dt a k = value v0 a (k + 1))

/-- **C221 violated**: a scalar updated in place, 0, 5, 3, 2, 1, ...: the value 5 is used twice; and a
grid of two cells that is replaced: the second value is never used. -/
theorem C221_violated :
    (∃ (v0 : Fin 1 → ℚ) (a : ℕ → Act (Fin 1) ℚ), ¬ UsedOnce true true v0 1 a ∧
      used true true v0 1 a 0 = used true true v0 1 a 1 ∧
      value v0 a 1 ≠ value v0 a 2 ∧ value v0 a 1 ≠ value v0 a 0) ∧
    (∃ (v0 : Fin 2 → ℚ) (a : ℕ → Act (Fin 2) ℚ), ¬ UsedOnce true false v0 1 a ∧
      ∀ k, used true false v0 1 a k ≠ value v0 a 2) := by
  constructor
  · refine ⟨fun _ => 0, fun k => .inplace (fun _ => 5 - k), ?_, ?_, ?_, ?_⟩
    · rintro (h | h)
      · have := congrFun (h 0) 0
        rw [C221_scalar_in_place (by norm_num) _ _ rfl] at this
        norm_num [value, Act.val] at this
      · have := congrFun (h 1) 0
        rw [C221_scalar_in_place (by norm_num) _ _ rfl] at this
        norm_num [value, Act.val] at this
    · rw [C221_scalar_in_place (by norm_num) _ _ rfl, C221_scalar_in_place (by norm_num) _ _ rfl]
      rfl
    · intro h; have := congrFun h 0; norm_num [value, Act.val] at this
    · intro h; have := congrFun h 0; norm_num [value, Act.val] at this
  · -- values: (0,0), (1,1), (2,2), then (3,2), (3,3), (3,3), ...
    let a : ℕ → Act (Fin 2) ℚ := fun k => .rebind (fun j =>
      if k = 0 then 1 else if k = 1 then 2 else if k = 2 ∧ j = 1 then 2 else 3)
    have hg := C221_new_grid (dt := (1 : ℚ)) (by norm_num) (fun _ : Fin 2 => (0 : ℚ)) a
      (fun _ => rfl)
    have h2 : value (fun _ : Fin 2 => (0 : ℚ)) a 2 = fun _ => 2 := by
      funext j; simp [value, Act.val, a]
    have key : ∀ k, used true false (fun _ : Fin 2 => (0 : ℚ)) 1 a k ≠
        value (fun _ : Fin 2 => (0 : ℚ)) a 2 := by
      intro k
      rw [h2]
      match k with
      | 0 =>
        rw [hg.1]; intro h
        have := congrFun h 0
        norm_num [value, Act.val, a] at this
      | 1 =>
        rw [(hg.2 0).2]
        · intro h
          have := congrFun h 0
          norm_num [value, Act.val, a] at this
        · intro j; norm_num [value, Act.val, a]
      | 2 =>
        rw [(hg.2 1).1 ⟨1, by norm_num [value, Act.val, a]⟩]
        intro h
        have := congrFun h 0
        norm_num [value, Act.val, a] at this
      | k + 3 =>
        have e : value (fun _ : Fin 2 => (0 : ℚ)) a (k + 2 + 2) = fun _ => 3 := by
          funext j
          simp only [value, Act.val, a]
          rw [if_neg (by omega), if_neg (by omega), if_neg (by omega)]
        rw [(hg.2 (k + 2)).1 ⟨0, ?_⟩, e]
        · intro h
          have := congrFun h 0
          norm_num at this
        · rw [e]
          simp only [value, Act.val, a]
          rw [if_neg (by omega), if_neg (by omega), if_neg (by simp)]
    refine ⟨fun _ => 0, a, ?_, key⟩
    rintro (h | h)
    · exact key 2 (h 2)
    · exact key 1 (h 1)

/-- Non-vacuity of the positive theorems: rain 1, 2, 3, ... -/
example : used true false (fun _ : Fin 2 => (0 : ℚ)) 1 (fun k => .inplace (fun _ => k + 1)) 2 =
    fun _ => 3 := by
  rw [C221_grid_in_place (by norm_num) _ _ (fun _ => rfl)]
  funext i; norm_num [value, Act.val]

end Couple

namespace EqualSteps

open Emeli EmeliSpec

variable {K : Type*} [Field K] [LinearOrder K] [IsStrictOrderedRing K]

/-- Requests of enabled users are made after the user's first update. -/
theorem log_pos {cfg : Config K} (hg : WellFormed cfg) {n : ℕ} {s : St K}
    (h : runModel cfg n = .ok (some s)) :
    ∀ r ∈ s.log, (cfg.decl r.user).status = "Enabled" → 0 < r.time := by
  obtain ⟨hck, fdt, s0, h1, h2, h3⟩ := runModel_some h
  obtain ⟨i0, l0, u0⟩ := tiInit_runInv (good_of hg) hck fdt h2
  have hstep : ∀ (c : String) (s s' : St K), c ∈ cfg.provs →
      (Inv cfg s ∧ (∀ d ∈ cfg.provs, (cfg.decl d).status = "Enabled" → 1 ≤ s.nupd d) ∧
        ∀ r ∈ s.log, (cfg.decl r.user).status = "Enabled" → 0 < r.time) →
      compStep cfg c s = .ok s' →
      (Inv cfg s' ∧ (∀ d ∈ cfg.provs, (cfg.decl d).status = "Enabled" → 1 ≤ s'.nupd d) ∧
        ∀ r ∈ s'.log, (cfg.decl r.user).status = "Enabled" → 0 < r.time) := by
    rintro c s s' hc ⟨hi, hn, hl⟩ hs
    obtain ⟨a1, -, a3, a4, rs, a5, a6⟩ := compStep_spec (good_of hg) hck hc hi hs
    refine ⟨a1, ?_, ?_⟩
    · intro d hd hden
      by_cases hdc : d = c
      · subst hdc
        have := hn d hd hden
        split_ifs at a4 <;> omega
      · rw [(a3 d hdc).2]; exact hn d hd hden
    · intro r hr hen
      rw [a5] at hr
      rcases List.mem_append.1 hr with hr | hr
      · exact hl r hr hen
      · obtain ⟨-, q1, q2, -⟩ := a6 r hr
        rw [q2, clk_eq]
        have hcen : (cfg.decl c).status = "Enabled" := q1 ▸ hen
        have hp : 0 < stepSec cfg c := by rw [← cdt_eq]; exact cdt_pos (good_of hg) hc
        have e : clockSec cfg s c = s.nupd c * stepSec cfg c := by
          unfold clockSec stepSec; rw [(hi.en c hc hcen).2.1]; ring
        rw [e]
        have : (1 : K) ≤ s.nupd c := by exact_mod_cast hn c hc hcen
        exact mul_pos (by linarith) hp
  have hloop : ∀ (l : List String) (s s' : St K), (∀ c ∈ l, c ∈ cfg.provs) →
      (Inv cfg s ∧ (∀ d ∈ cfg.provs, (cfg.decl d).status = "Enabled" → 1 ≤ s.nupd d) ∧
        ∀ r ∈ s.log, (cfg.decl r.user).status = "Enabled" → 0 < r.time) →
      compLoop cfg l s = .ok s' →
      (Inv cfg s' ∧ (∀ d ∈ cfg.provs, (cfg.decl d).status = "Enabled" → 1 ≤ s'.nupd d) ∧
        ∀ r ∈ s'.log, (cfg.decl r.user).status = "Enabled" → 0 < r.time) := by
    intro l
    induction l with
    | nil =>
      intro s s' _ hq hs
      simp only [compLoop, Except.ok.injEq] at hs
      subst hs; exact hq
    | cons c l ih =>
      intro s s' hm hq hs
      rw [compLoop, bind_ok] at hs
      obtain ⟨s1, e1, e2⟩ := hs
      exact ih s1 s' (fun d hd => hm d (List.mem_cons_of_mem _ hd))
        (hstep c s s1 (hm c (List.mem_cons_self ..)) hq e1) e2
  have hall : ∀ (n : ℕ) (s : St K), steps cfg fdt n s0 = .ok s →
      (Inv cfg s ∧ (∀ d ∈ cfg.provs, (cfg.decl d).status = "Enabled" → 1 ≤ s.nupd d) ∧
        ∀ r ∈ s.log, (cfg.decl r.user).status = "Enabled" → 0 < r.time) := by
    intro n
    induction n with
    | zero =>
      intro s hs
      simp only [steps, Except.ok.injEq] at hs
      subst hs
      exact ⟨i0.inv, fun d hd he => (u0 d hd he).ge, by rw [l0]; simp⟩
    | succ n ih =>
      intro s hs
      rw [steps, bind_ok] at hs
      obtain ⟨s1, e1, e2⟩ := hs
      unfold frameworkStep at e2
      rw [bind_ok] at e2
      obtain ⟨s2, e3, e4⟩ := e2
      simp only [pure, Except.pure, Except.ok.injEq] at e4
      subst e4
      obtain ⟨b1, b2, b3⟩ := hloop cfg.provs s1 s2 (fun _ h => h) (ih s1 e1) e3
      exact ⟨⟨b1.en, b1.dis⟩, b2, b3⟩
  exact (hall n s h3).2.2

/-- **C221, times of the requests.**  In every run in which all enabled components have the same time
step, the provider's window is one step wide, and the user asks for the value at its beginning if the
provider comes before the user in the provider file, and at its end otherwise; the user's time is a
positive whole number of steps. -/
theorem C221_request_times {cfg : Config K} (hg : WellFormed cfg) {n : ℕ} {s : St K}
    (h : runModel cfg n = .ok (some s)) {fdt : K} (hf : frameworkDt cfg = .ok fdt)
    (hm : ∀ c ∈ cfg.provs, (cfg.decl c).status = "Enabled" → stepSec cfg c = fdt)
    {r : Request K} (hr : r ∈ s.log) (hu : (cfg.decl r.user).status = "Enabled") :
    r.win.t2 = r.win.t1 + fdt ∧
    (Before cfg r.prov r.user → r.time = r.win.t1) ∧
    (¬ Before cfg r.prov r.user → r.time = r.win.t2) ∧
    ∃ k : ℕ, 1 ≤ k ∧ r.time = k * fdt := by
  obtain ⟨hck, fdt', s0, h1, h2, h3⟩ := runModel_some h
  rw [hf] at h1; injection h1 with e; subst e
  obtain ⟨i0, l0, -⟩ := tiInit_runInv (good_of hg) hck fdt h2
  have hpos := log_pos hg h r hr hu
  suffices hs : ∃ k : ℕ, r.time = k * fdt ∧ (1 ≤ k → r.win.t2 = r.win.t1 + fdt ∧
      (Before cfg r.prov r.user → r.time = r.win.t1) ∧
      (¬ Before cfg r.prov r.user → r.time = r.win.t2)) by
    obtain ⟨k, hk, hc⟩ := hs
    have hk1 : 1 ≤ k := by
      rcases Nat.eq_zero_or_pos k with rfl | h0
      · rw [hk] at hpos; simp at hpos
      · exact h0
    obtain ⟨c1, c2, c3⟩ := hc hk1
    exact ⟨c1, c2, c3, k, hk1, hk⟩
  refine (steps_spec (good_of hg) hck hf i0 l0 (fun r => (cfg.decl r.user).status = "Enabled" →
      ∃ k : ℕ, r.time = k * fdt ∧ (1 ≤ k → r.win.t2 = r.win.t1 + fdt ∧
      (Before cfg r.prov r.user → r.time = r.win.t1) ∧
      (¬ Before cfg r.prov r.user → r.time = r.win.t2))) ?_ n h3).2 r hr hu
  clear hpos
  intro m s pre post c r hsplit hi ht hah hgt ⟨q1, q2, q3, q4, q5⟩ hen
  have hfp := fdt_pos (good_of hg) hf
  have hc : c ∈ cfg.provs := by rw [hsplit]; simp
  have hnd := hg.distinct
  have hnd2 := hnd
  rw [hsplit] at hnd2
  have hcpre : c ∉ pre := fun hm => (List.nodup_append.1 hnd2).2.2 c hm c (by simp) rfl
  have hcen : (cfg.decl c).status = "Enabled" := q1 ▸ hen
  have hbef : Before cfg r.prov r.user ↔ r.prov ∈ pre := by
    constructor
    · rintro ⟨pre', post', e1, e2⟩
      rw [q1, hsplit] at e1
      have : pre = pre' := by
        have hsplit' := e1
        clear hah
        have hpre' : c ∉ pre' := by
          intro hm
          rw [hsplit, e1] at hnd
          exact (List.nodup_append.1 hnd).2.2 c hm c (by simp) rfl
        rw [List.append_eq_append_iff] at hsplit'
        rcases hsplit' with ⟨a, ha1, ha2⟩ | ⟨a, ha1, ha2⟩
        · cases a with
          | nil => simpa using ha1.symm
          | cons x xs =>
            simp only [List.cons_append, List.cons.injEq] at ha2
            exact absurd (by rw [ha1, ha2.1]; simp) hpre'
        · cases a with
          | nil => simpa using ha1
          | cons x xs =>
            simp only [List.cons_append, List.cons.injEq] at ha2
            exact absurd (by rw [ha1, ha2.1]; simp) hcpre
      rw [this]; exact e2
    · intro hm; exact ⟨pre, post, by rw [q1]; exact hsplit, hm⟩
  -- clocks are whole multiples of the step
  have hmul : ∀ d ∈ cfg.provs, (cfg.decl d).status = "Enabled" →
      clk cfg s d = s.nupd d * fdt ∧ cdt cfg d = fdt := by
    intro d hd hden
    have hk := hm d hd hden
    refine ⟨?_, by rw [cdt_eq, hk]⟩
    rw [clk_eq]
    unfold clockSec
    rw [(hi.en d hd hden).2.1]
    unfold stepSec at hk
    rw [mul_assoc, hk]
  obtain ⟨eju, eku⟩ := hmul c hc hcen
  obtain ⟨ejp, ekp⟩ := hmul r.prov q3 q4
  have hlt : ∀ a b : ℕ, (a : K) * fdt < b * fdt → a + 1 ≤ b := by
    intro a b hab
    have := lt_of_mul_lt_mul_right hab hfp.le
    exact_mod_cast this
  have hle : ∀ a b : ℕ, (a : K) * fdt ≤ b * fdt → a ≤ b := by
    intro a b hab
    have := le_of_mul_le_mul_right hab hfp
    exact_mod_cast this
  have e3 : ∀ a b : ℕ, (a : K) * fdt < b * fdt + fdt → a + 1 ≤ b + 1 := by
    intro a b hab
    apply hlt; push_cast; linarith
  have e4 : ∀ a b : ℕ, (a : K) * fdt ≤ b * fdt + fdt → a ≤ b + 1 := by
    intro a b hab
    apply hle; push_cast; linarith
  have hcu := (hah c hc hcen).2 hcpre
  have hp := hah r.prov q3 q4
  unfold Ahead at hcu hp
  rw [eju] at hcu hgt
  rw [eku] at hcu
  rw [ejp, ekp] at hp
  have g1 := hlt _ m hgt
  have g2 := hle _ _ hcu.1
  rw [hbef, q5, q2]
  simp only
  rw [eju, ejp, ekp]
  refine ⟨s.nupd c, rfl, fun hk1 => ⟨by ring, fun hmem => ?_, fun hmem => ?_⟩⟩
  · have p := hp.1 hmem
    have hm0 : (0 : K) < m * fdt := mul_pos (by exact_mod_cast (by omega : 0 < m)) hfp
    have a1 := e3 _ _ (p.2.2 hm0)
    have a2 := hle _ _ p.1
    have e : s.nupd r.prov = s.nupd c + 1 := by omega
    rw [e]; push_cast; ring
  · have p := hp.2 hmem
    have a2 := hle _ _ p.1
    have hm0 : (0 : K) < ((m - 1 : ℕ) : K) * fdt :=
      mul_pos (by exact_mod_cast (by omega : 0 < m - 1)) hfp
    have a1 := e3 _ _ (p.2.2 hm0)
    have e : s.nupd r.prov = s.nupd c := by omega
    rw [e]

/-- Non-vacuity of `C221_request_times`: three components with steps of 2 s; the user asks at the
start of the window when its provider is listed before it, at the end when it is listed after it. -/
example (order : List String) (ho : order = ["f", "p", "u"] ∨ order = ["f", "u", "p"]) :
    WellFormed (demoCfg order 2 2) ∧ frameworkDt (demoCfg order 2 2) = .ok 2 ∧
    (∀ c ∈ (demoCfg order 2 2).provs, stepSec (demoCfg order 2 2) c = 2) ∧
    ∃ s, runModel (demoCfg order 2 2) 4 = .ok (some s) ∧
      s.log.map (fun r => (r.time, r.win.t1, r.win.t2)) =
        (if order = ["f", "p", "u"] then [(2, 2, 4), (4, 4, 6)] else [(2, 0, 2), (4, 2, 4)]) := by
  rcases ho with rfl | rfl
  · refine ⟨demo_wellFormed 2 2 (by norm_num) (by norm_num) _ (by simp) (by simp),
      frameworkDt_of_demo (by decide +kernel), ?_, demoLog_spec (by decide +kernel)⟩
    intro c hc
    simp only [demoCfg, List.mem_cons, List.not_mem_nil, or_false] at hc
    rcases hc with rfl | rfl | rfl <;> simp [stepSec, demoCfg, demoDecl, secondsPer]
  · refine ⟨demo_wellFormed 2 2 (by norm_num) (by norm_num) _ (by simp) (by simp),
      frameworkDt_of_demo (by decide +kernel), ?_, demoLog_spec (by decide +kernel)⟩
    intro c hc
    simp only [demoCfg, List.mem_cons, List.not_mem_nil, or_false] at hc
    rcases hc with rfl | rfl | rfl <;> simp [stepSec, demoCfg, demoDecl, secondsPer]

end EqualSteps
