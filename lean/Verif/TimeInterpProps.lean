import Verif.TimeInterpModel
import Mathlib.Tactic.Linarith
import Mathlib.Tactic.Ring
import Mathlib.Tactic.FieldSimp
import Mathlib.Tactic.NormNum
import Mathlib.Tactic.FinCases

/-! # C17: linear time interpolation -/

set_option autoImplicit false
set_option linter.unusedSectionVars false

namespace TInterpSpec

variable {K : Type*} [Field K]

/-- The straight line through `(t1, x1)` and `(t2, x2)`, at `t`. -/
def chord (t1 x1 t2 x2 t : K) : K := x1 + (t - t1) * ((x2 - x1) / (t2 - t1))

end TInterpSpec

namespace TInterp

open TInterpSpec

variable {ι K : Type*} [Fintype ι] [Nonempty ι] [Field K] [LinearOrder K] [IsStrictOrderedRing K]

theorem dvMin_ne_zero (f g : ι → K) : dvMin f g ≠ 0 ↔ ∀ i, f i ≠ g i := by
  unfold dvMin
  constructor
  · intro h i hi
    apply h
    apply le_antisymm
    · have := Finset.inf'_le (s := Finset.univ) (fun i => |f i - g i|) (Finset.mem_univ i)
      simp only [hi, sub_self, abs_zero] at this
      exact this
    · exact Finset.le_inf' _ _ (fun j _ => abs_nonneg _)
  · intro h h0
    obtain ⟨i, -, hi⟩ := Finset.exists_mem_eq_inf' (Finset.univ_nonempty (α := ι))
      (fun i => |f i - g i|)
    rw [h0] at hi
    exact h i (sub_eq_zero.1 (abs_eq_zero.1 hi.symm))

/-- Last value and time of the provider in a history (initially `v0`, `t0`). -/
def lastVal (v0 : ι → K) (h : List (Act ι K × K)) : ι → K :=
  match h.getLast? with
  | some x => x.1.val
  | none => v0

def lastTime (t0 : K) (h : List (Act ι K × K)) : K :=
  match h.getLast? with
  | some x => x.2
  | none => t0

/-- Invariant of the references: the interpolator's `v2` is the provider's own array exactly as
long as the provider has not been rebound (arrays) or nothing has been updated (scalars). -/
structure RInv (rank0 : Bool) (v0 : ι → K) (t0 : K) (h : List (Act ι K × K)) (s : Sys ι K) :
    Prop where
  prov : s.mem.arr s.prov = lastVal v0 h
  v2 : s.mem.arr s.tid.v2 = lastVal v0 h
  t2 : s.tid.t2 = lastTime t0 h
  lt : s.prov < s.mem.next ∧ s.tid.v2 < s.mem.next ∧ s.tid.v1 < s.mem.next
  ne1 : s.tid.v1 ≠ s.prov ∧ s.tid.v1 ≠ s.tid.v2
  shared : s.tid.v2 = s.prov ↔
    if rank0 then h = [] else ∀ x ∈ h, x.1.isRebind = false

theorem run_append (rank0 : Bool) (v0 : ι → K) (t0 : K) (h : List (Act ι K × K))
    (x : Act ι K × K) :
    Sys.run rank0 v0 t0 (h ++ [x]) = (Sys.run rank0 v0 t0 h).step rank0 x.1 x.2 := by
  simp [Sys.run]

theorem lastVal_append (v0 : ι → K) (h : List (Act ι K × K)) (x : Act ι K × K) :
    lastVal v0 (h ++ [x]) = x.1.val := by simp [lastVal]

theorem lastTime_append (t0 : K) (h : List (Act ι K × K)) (x : Act ι K × K) :
    lastTime t0 (h ++ [x]) = x.2 := by simp [lastTime]

/-- What one update stores, given the old array contents seen by the interpolator. -/
structure StepOut (s' : Sys ι K) (old new : ι → K) (t1 t2 : K) : Prop where
  out : ((∀ j, new j ≠ old j) ∧ t2 ≠ t1 → ∀ time i, s'.tid.getValue s'.mem time i =
      ((new i - old i) / (t2 - t1)) * time + (new i - ((new i - old i) / (t2 - t1)) * t2)) ∧
    (¬ ((∀ j, new j ≠ old j) ∧ t2 ≠ t1) → ∀ time i, s'.tid.getValue s'.mem time i = new i)
  win : s'.tid.t1 = t1 ∧ s'.tid.t2 = t2

theorem step_spec {rank0 : Bool} {v0 : ι → K} {t0 : K} {h : List (Act ι K × K)} {s : Sys ι K}
    (hi : RInv rank0 v0 t0 h s) (act : Act ι K) (t : K) (old : ι → K)
    (hold0 : (act.isRebind = false ∧ s.tid.v2 = s.prov → old = act.val) ∧
      (¬ (act.isRebind = false ∧ s.tid.v2 = s.prov) → old = lastVal v0 h)) :
    RInv rank0 v0 t0 (h ++ [(act, t)]) (s.step rank0 act t) ∧
    StepOut (s.step rank0 act t) old act.val (lastTime t0 h) t := by
  obtain ⟨⟨arr, next⟩, prov, ⟨v1, v2, t1, t2, a, b⟩⟩ := s
  obtain ⟨hp, hv2, ht2, ⟨l1, l2, l3⟩, ⟨n1, n2⟩, hal⟩ := hi
  simp only at hp hv2 ht2 l1 l2 l3 n1 n2 hal hold0
  have hmem : ∀ y : Act ι K × K, (∀ x ∈ h ++ [y], x.1.isRebind = false) ↔
      (∀ x ∈ h, x.1.isRebind = false) ∧ y.1.isRebind = false := by
    intro y; simp only [List.mem_append, List.mem_singleton]
    constructor
    · intro hx; exact ⟨fun x hxm => hx x (Or.inl hxm), hx y (Or.inr rfl)⟩
    · rintro ⟨h1, h2⟩ x (hx | rfl)
      · exact h1 x hx
      · exact h2
  -- split on the four cases
  cases rank0 with
  | true =>
    simp only [if_true] at hal
    cases act with
    | inplace f =>
      have e1 : next ≠ prov := by omega
      have e2 : next + 1 ≠ prov := by omega
      have e3 : next ≠ v2 := by omega
      have hprov : prov ≠ next ∧ prov ≠ next + 1 := ⟨by omega, by omega⟩
      constructor
      · constructor
        · rw [lastVal_append]
          simp only [Sys.step, TID.update, assign, Mem.alloc, Mem.write, Act.val, if_true]
          split_ifs <;> simp [hprov.1, hprov.2]
        · rw [lastVal_append]
          simp only [Sys.step, TID.update, assign, Mem.alloc, Mem.write, Act.val, if_true]
          split_ifs <;> simp [hprov.1, hprov.2]
        · rw [lastTime_append]
          simp only [Sys.step, TID.update, assign, Mem.alloc, Mem.write, if_true]
          split_ifs <;> rfl
        · simp only [Sys.step, TID.update, assign, Mem.alloc, Mem.write, if_true]
          split_ifs <;> (simp only; omega)
        · simp only [Sys.step, TID.update, assign, Mem.alloc, Mem.write, if_true]
          split_ifs <;> (simp only; omega)
        · simp only [Sys.step, TID.update, assign, Mem.alloc, Mem.write, if_true]
          split_ifs <;> (simp; omega)
      · have hold : Function.update (Function.update (Function.update arr prov f) next
            ((Function.update arr prov f) v2)) (next + 1)
            ((Function.update (Function.update arr prov f) next
              ((Function.update arr prov f) v2)) prov) next =
            old := by
          by_cases hv : v2 = prov
          · rw [hold0.1 ⟨rfl, hv⟩]; subst hv; simp [Act.val]
          · rw [hold0.2 (fun hh => hv hh.2)]; simp [hv, hv2]
        constructor
        · constructor <;> intro hc time i
          · change (∀ j, f j ≠ old j) ∧ t ≠ lastTime t0 h at hc
            simp only [Sys.step, TID.update, assign, Mem.alloc, Mem.write, Act.val, if_true]
            rw [hold]
            simp only [dvMin_ne_zero, Function.update_of_ne hprov.1, Function.update_of_ne hprov.2,
              Function.update_self, ht2]
            rw [if_pos hc]; simp only [TID.getValue]
          · change ¬ ((∀ j, f j ≠ old j) ∧ t ≠ lastTime t0 h) at hc
            simp only [Sys.step, TID.update, assign, Mem.alloc, Mem.write, Act.val, if_true]
            rw [hold]
            simp only [dvMin_ne_zero, Function.update_of_ne hprov.1, Function.update_of_ne hprov.2,
              Function.update_self, ht2]
            rw [if_neg hc]
            simp only [TID.getValue, Function.update_of_ne hprov.1, Function.update_of_ne hprov.2,
              Function.update_self]
            ring
        · simp only [Sys.step, TID.update, assign, Mem.alloc, Mem.write, if_true, ht2]
          split_ifs <;> exact ⟨rfl, rfl⟩
    | rebind f =>
      have hold : old = lastVal v0 h := hold0.2 (fun hh => by cases hh.1)
      subst hold
      have e3 : v2 ≠ next := by omega
      have q1 : (next : ℕ) ≠ next + 1 + 1 := by omega
      have q2 : next + 1 + 1 ≠ next := by omega
      constructor
      · constructor
        · rw [lastVal_append]
          simp only [Sys.step, TID.update, assign, Mem.alloc, Mem.write, Act.val, if_true]
          split_ifs <;> simp [q1]
        · rw [lastVal_append]
          simp only [Sys.step, TID.update, assign, Mem.alloc, Mem.write, Act.val, if_true]
          split_ifs <;> simp
        · rw [lastTime_append]
          simp only [Sys.step, TID.update, assign, Mem.alloc, Mem.write, if_true]
          split_ifs <;> rfl
        · simp only [Sys.step, TID.update, assign, Mem.alloc, Mem.write, if_true]
          split_ifs <;> (simp only; omega)
        · simp only [Sys.step, TID.update, assign, Mem.alloc, Mem.write, if_true]
          split_ifs <;> (simp only; omega)
        · simp only [Sys.step, TID.update, assign, Mem.alloc, Mem.write, if_true]
          split_ifs <;> simp [q2]
      · constructor
        · constructor <;> intro hc time i
          · change (∀ j, f j ≠ lastVal v0 h j) ∧ t ≠ lastTime t0 h at hc
            simp only [Sys.step, TID.update, assign, Mem.alloc, Mem.write, Act.val, if_true]
            have g1 : (next : ℕ) ≠ next + 1 := by omega
            have g2 : (next : ℕ) ≠ next + 1 + 1 := by omega
            have g3 : next + 1 ≠ next + 1 + 1 := by omega
            simp only [dvMin_ne_zero, Function.update_of_ne g1, Function.update_of_ne g2,
              Function.update_of_ne g3, Function.update_self, ht2, Function.update_of_ne e3, hv2]
            rw [if_pos hc]; simp only [TID.getValue]
          · change ¬ ((∀ j, f j ≠ lastVal v0 h j) ∧ t ≠ lastTime t0 h) at hc
            simp only [Sys.step, TID.update, assign, Mem.alloc, Mem.write, Act.val, if_true]
            have g1 : (next : ℕ) ≠ next + 1 := by omega
            have g2 : (next : ℕ) ≠ next + 1 + 1 := by omega
            have g3 : next + 1 ≠ next + 1 + 1 := by omega
            simp only [dvMin_ne_zero, Function.update_of_ne g1, Function.update_of_ne g2,
              Function.update_of_ne g3, Function.update_self, ht2, Function.update_of_ne e3, hv2]
            rw [if_neg hc]
            simp only [TID.getValue, Function.update_of_ne g1, Function.update_of_ne g2,
              Function.update_self]
            ring
        · simp only [Sys.step, TID.update, assign, Mem.alloc, Mem.write, if_true, ht2]
          split_ifs <;> exact ⟨rfl, rfl⟩
  | false =>
    simp only [Bool.false_eq_true, if_false] at hal
    cases act with
    | inplace f =>
      have hpv1 : prov ≠ v1 := n1.symm
      constructor
      · constructor
        · rw [lastVal_append]
          simp only [Sys.step, TID.update, assign, Mem.write, Act.val, Bool.false_eq_true, if_false]
          by_cases hv : prov = v2
          · subst hv; split_ifs <;> simp [hpv1]
          · split_ifs <;> simp [hpv1, hv]
        · rw [lastVal_append]
          simp only [Sys.step, TID.update, assign, Mem.write, Act.val, Bool.false_eq_true, if_false]
          split_ifs <;> simp [hpv1]
        · rw [lastTime_append]
          simp only [Sys.step, TID.update, assign, Mem.write, Bool.false_eq_true, if_false]
          split_ifs <;> rfl
        · simp only [Sys.step, TID.update, assign, Mem.write, Bool.false_eq_true, if_false]
          split_ifs <;> exact ⟨l1, l2, l3⟩
        · simp only [Sys.step, TID.update, assign, Mem.write, Bool.false_eq_true, if_false]
          split_ifs <;> exact ⟨n1, n2⟩
        · simp only [Bool.false_eq_true, if_false]
          rw [hmem]
          refine Iff.trans ?_ (hal.trans ⟨fun hh => ⟨hh, rfl⟩, fun hh => hh.1⟩)
          simp only [Sys.step, TID.update, assign, Mem.write, Bool.false_eq_true, if_false]
          split_ifs <;> rfl
      · have hnew : ∀ g, Function.update (Function.update (Function.update arr prov f) v1 g) v2
            ((Function.update (Function.update arr prov f) v1 g) prov) prov = f := by
          intro g
          by_cases hv : prov = v2
          · subst hv; simp [hpv1]
          · simp [hpv1, hv]
        have hold : ∀ g, Function.update (Function.update (Function.update arr prov f) v1
            ((Function.update arr prov f) v2)) v2 g v1 = old := by
          intro g
          rw [Function.update_of_ne n2, Function.update_self]
          by_cases hv : v2 = prov
          · rw [hold0.1 ⟨rfl, hv⟩]; subst hv; simp [Act.val]
          · rw [hold0.2 (fun hh => hv hh.2)]; simp [hv, hv2]
        constructor
        · constructor <;> intro hc time i
          · change (∀ j, f j ≠ old j) ∧ t ≠ lastTime t0 h at hc
            simp only [Sys.step, TID.update, assign, Mem.write, Act.val, Bool.false_eq_true, if_false]
            rw [hold]
            simp only [dvMin_ne_zero, hnew, ht2]
            rw [if_pos hc]; simp only [TID.getValue]
          · change ¬ ((∀ j, f j ≠ old j) ∧ t ≠ lastTime t0 h) at hc
            simp only [Sys.step, TID.update, assign, Mem.write, Act.val, Bool.false_eq_true, if_false]
            rw [hold]
            simp only [dvMin_ne_zero, hnew, ht2]
            rw [if_neg hc]
            simp only [TID.getValue, hnew]
            ring
        · simp only [Sys.step, TID.update, assign, Mem.write, Bool.false_eq_true, if_false, ht2]
          split_ifs <;> exact ⟨rfl, rfl⟩
    | rebind f =>
      have hold : old = lastVal v0 h := hold0.2 (fun hh => by cases hh.1)
      subst hold
      have g1 : next ≠ v1 := by omega
      have g2 : next ≠ v2 := by omega
      have g3 : v2 ≠ next := by omega
      constructor
      · constructor
        · rw [lastVal_append]
          simp only [Sys.step, TID.update, assign, Mem.alloc, Mem.write, Act.val,
            Bool.false_eq_true, if_false]
          split_ifs <;> simp [g1, g2]
        · rw [lastVal_append]
          simp only [Sys.step, TID.update, assign, Mem.alloc, Mem.write, Act.val,
            Bool.false_eq_true, if_false]
          split_ifs <;> simp [g1]
        · rw [lastTime_append]
          simp only [Sys.step, TID.update, assign, Mem.alloc, Mem.write, Bool.false_eq_true, if_false]
          split_ifs <;> rfl
        · simp only [Sys.step, TID.update, assign, Mem.alloc, Mem.write, Bool.false_eq_true, if_false]
          split_ifs <;> (simp only; omega)
        · simp only [Sys.step, TID.update, assign, Mem.alloc, Mem.write, Bool.false_eq_true, if_false]
          split_ifs <;> (simp only; omega)
        · simp only [Bool.false_eq_true, if_false]
          rw [hmem]
          simp only [Act.isRebind, Bool.true_eq_false, and_false, iff_false]
          simp only [Sys.step, TID.update, assign, Mem.alloc, Mem.write, Bool.false_eq_true, if_false]
          split_ifs <;> exact g3
      · constructor
        · constructor <;> intro hc time i
          · change (∀ j, f j ≠ lastVal v0 h j) ∧ t ≠ lastTime t0 h at hc
            simp only [Sys.step, TID.update, assign, Mem.alloc, Mem.write, Act.val,
              Bool.false_eq_true, if_false]
            simp only [dvMin_ne_zero, Function.update_of_ne n2, Function.update_of_ne g1,
              Function.update_of_ne g2, Function.update_of_ne g3, Function.update_self, hv2, ht2]
            rw [if_pos hc]; simp only [TID.getValue]
          · change ¬ ((∀ j, f j ≠ lastVal v0 h j) ∧ t ≠ lastTime t0 h) at hc
            simp only [Sys.step, TID.update, assign, Mem.alloc, Mem.write, Act.val,
              Bool.false_eq_true, if_false]
            simp only [dvMin_ne_zero, Function.update_of_ne n2, Function.update_of_ne g1,
              Function.update_of_ne g2, Function.update_of_ne g3, Function.update_self, hv2, ht2]
            rw [if_neg hc]
            simp only [TID.getValue, Function.update_of_ne g1, Function.update_of_ne g2,
              Function.update_self]
            ring
        · simp only [Sys.step, TID.update, assign, Mem.alloc, Mem.write, Bool.false_eq_true,
            if_false, ht2]
          split_ifs <;> exact ⟨rfl, rfl⟩

theorem run_inv (rank0 : Bool) (v0 : ι → K) (t0 : K) (h : List (Act ι K × K)) :
    RInv rank0 v0 t0 h (Sys.run rank0 v0 t0 h) := by
  induction h using List.reverseRecOn with
  | nil =>
    constructor <;> simp [Sys.run, Sys.start, TID.create, Mem.alloc, lastVal, lastTime]
  | append_singleton h x ih =>
    rw [run_append]
    by_cases hh : x.1.isRebind = false ∧
        (Sys.run rank0 v0 t0 h).tid.v2 = (Sys.run rank0 v0 t0 h).prov
    · exact (step_spec ih x.1 x.2 x.1.val ⟨fun _ => rfl, fun hn => absurd hh hn⟩).1
    · exact (step_spec ih x.1 x.2 (lastVal v0 h) ⟨fun hn => absurd hn hh, fun _ => rfl⟩).1

/-- The complete description of what is delivered after a history `h` followed by an update to
value `act.val` at time `t`. -/
theorem delivered_eq (rank0 : Bool) (v0 : ι → K) (t0 : K) (h : List (Act ι K × K))
    (act : Act ι K) (t time : K) (i : ι) :
    delivered rank0 v0 t0 (h ++ [(act, t)]) time i =
      if (∀ j, act.val j ≠ (if act.isRebind = false ∧
          (if rank0 then h = [] else ∀ x ∈ h, x.1.isRebind = false) then act.val
          else lastVal v0 h) j) ∧ t ≠ lastTime t0 h then
        chord (lastTime t0 h) (lastVal v0 h i) t (act.val i) time
      else act.val i := by
  have hi := run_inv rank0 v0 t0 h
  unfold delivered
  simp only [run_append]
  have hiff : (Sys.run rank0 v0 t0 h).tid.v2 = (Sys.run rank0 v0 t0 h).prov ↔
      (if rank0 = true then h = [] else ∀ x ∈ h, x.1.isRebind = false) := hi.shared
  by_cases hal : act.isRebind = false ∧
      (if rank0 = true then h = [] else ∀ x ∈ h, x.1.isRebind = false)
  · have hal' : act.isRebind = false ∧
        (Sys.run rank0 v0 t0 h).tid.v2 = (Sys.run rank0 v0 t0 h).prov :=
      ⟨hal.1, hiff.2 hal.2⟩
    rw [if_pos hal]
    have hn : ¬ ((∀ j, act.val j ≠ act.val j) ∧ t ≠ lastTime t0 h) :=
      fun hh => hh.1 (Classical.arbitrary ι) rfl
    rw [if_neg hn]
    exact (step_spec hi act t act.val ⟨fun _ => rfl, fun hn => absurd hal' hn⟩).2.out.2 hn time i
  · have hal' : ¬ (act.isRebind = false ∧
        (Sys.run rank0 v0 t0 h).tid.v2 = (Sys.run rank0 v0 t0 h).prov) :=
      fun hh => hal ⟨hh.1, hiff.1 hh.2⟩
    rw [if_neg hal]
    have hout := (step_spec hi act t (lastVal v0 h) ⟨fun hn => absurd hn hal', fun _ => rfl⟩).2.out
    by_cases hc : (∀ j, act.val j ≠ lastVal v0 h j) ∧ t ≠ lastTime t0 h
    · rw [if_pos hc, hout.1 hc]
      unfold chord
      have : t - lastTime t0 h ≠ 0 := sub_ne_zero.2 hc.2
      field_simp
      ring
    · rw [if_neg hc, hout.2 hc]

/-! ## The property theorems -/

/-- **C17, the part that holds.**  After any history of provider updates, if the last two stored
states differ in *every* cell, their times differ, and the provider's array is not shared with the
interpolator (the provider created a new array at least once; for scalars, at least one update came
before), then the value delivered at any time is on the chord, in every cell. -/
theorem C17_chord_partial (rank0 : Bool) (v0 : ι → K) (t0 : K) (h : List (Act ι K × K))
    (act : Act ι K) (t time : K)
    (hfresh : if rank0 then (act.isRebind = true ∨ h ≠ [])
      else ∃ x ∈ h ++ [(act, t)], x.1.isRebind = true)
    (hdiff : ∀ i, act.val i ≠ lastVal v0 h i) (ht : t ≠ lastTime t0 h) (i : ι) :
    delivered rank0 v0 t0 (h ++ [(act, t)]) time i =
      chord (lastTime t0 h) (lastVal v0 h i) t (act.val i) time := by
  rw [delivered_eq]
  have hn : ¬ (act.isRebind = false ∧
      (if rank0 = true then h = [] else ∀ x ∈ h, x.1.isRebind = false)) := by
    rintro ⟨h1, h2⟩
    cases rank0 with
    | true =>
      simp only [if_true] at h2 hfresh
      rcases hfresh with h' | h'
      · rw [h1] at h'; cases h'
      · exact h' h2
    | false =>
      simp only [Bool.false_eq_true, if_false] at h2 hfresh
      obtain ⟨x, hx, hr⟩ := hfresh
      rcases List.mem_append.1 hx with hx | hx
      · rw [h2 x hx] at hr; cases hr
      · simp only [List.mem_singleton] at hx
        subst hx; simp only at hr; rw [h1] at hr; cases hr
  rw [if_neg hn, if_pos ⟨hdiff, ht⟩]

/-- The chord takes the old value at `t1` and the new value at `t2`, and stays between the two
values for times in between. -/
theorem C17_chord_properties {t1 x1 t2 x2 t : K} (h : t1 < t2) :
    chord t1 x1 t2 x2 t1 = x1 ∧ chord t1 x1 t2 x2 t2 = x2 ∧
    (t1 ≤ t → t ≤ t2 → min x1 x2 ≤ chord t1 x1 t2 x2 t ∧ chord t1 x1 t2 x2 t ≤ max x1 x2) := by
  have hd : (0 : K) < t2 - t1 := sub_pos.2 h
  refine ⟨by simp [chord], ?_, ?_⟩
  · unfold chord; field_simp; ring
  · intro h1 h2
    have e : chord t1 x1 t2 x2 t = x1 + ((t - t1) / (t2 - t1)) * (x2 - x1) := by
      unfold chord; field_simp
    have w0 : 0 ≤ (t - t1) / (t2 - t1) := div_nonneg (by linarith) hd.le
    have w1 : (t - t1) / (t2 - t1) ≤ 1 := by rw [div_le_one hd]; linarith
    rw [e]
    generalize (t - t1) / (t2 - t1) = w at w0 w1
    constructor
    · rcases le_total x1 x2 with hx | hx
      · rw [min_eq_left hx]; nlinarith
      · rw [min_eq_right hx]; nlinarith
    · rcases le_total x1 x2 with hx | hx
      · rw [max_eq_right hx]; nlinarith
      · rw [max_eq_left hx]; nlinarith

/-- In all cases the value delivered at the time of the newest state is the newest state. -/
theorem C17_newest_state_at_t2 (rank0 : Bool) (v0 : ι → K) (t0 : K) (h : List (Act ι K × K))
    (act : Act ι K) (t : K) (i : ι) :
    delivered rank0 v0 t0 (h ++ [(act, t)]) t i = act.val i := by
  rw [delivered_eq]
  by_cases hc : (∀ j, act.val j ≠ (if act.isRebind = false ∧
          (if rank0 then h = [] else ∀ x ∈ h, x.1.isRebind = false) then act.val
          else lastVal v0 h) j) ∧ t ≠ lastTime t0 h
  · rw [if_pos hc]
    unfold chord
    have : t - lastTime t0 h ≠ 0 := sub_ne_zero.2 hc.2
    field_simp; ring
  · rw [if_neg hc]

/-- Finding: one cell whose value does not change switches interpolation off for the whole grid:
every cell gets its newest value at every time. -/
theorem C17_one_unchanged_cell_disables (rank0 : Bool) (v0 : ι → K) (t0 : K)
    (h : List (Act ι K × K)) (act : Act ι K) (t : K) (j : ι)
    (hj : act.val j = lastVal v0 h j) (time : K) (i : ι) :
    delivered rank0 v0 t0 (h ++ [(act, t)]) time i = act.val i := by
  rw [delivered_eq, if_neg]
  rintro ⟨h1, -⟩
  apply h1 j
  by_cases hc : act.isRebind = false ∧
      (if rank0 = true then h = [] else ∀ x ∈ h, x.1.isRebind = false)
  · rw [if_pos hc]
  · rw [if_neg hc]; exact hj

/-- Finding: a grid that its provider always updates in place is never interpolated: every request
gets the newest state, whatever the time. -/
theorem C17_inplace_grids_not_interpolated (v0 : ι → K) (t0 : K) (h : List (Act ι K × K))
    (hin : ∀ x ∈ h, x.1.isRebind = false) (f : ι → K) (t time : K) (i : ι) :
    delivered false v0 t0 (h ++ [(.inplace f, t)]) time i = f i := by
  rw [delivered_eq, if_neg]
  · rfl
  · rintro ⟨h1, -⟩
    apply h1 i
    rw [if_pos ⟨rfl, by simpa using hin⟩]

/-- C17 is false as stated: a two-cell grid, old value (0, 0), new value (0, 4) at times 0 and 2;
the value delivered at time 0 is (0, 4), not the old one. -/
theorem C17_violated : ∃ (v0 f : Fin 2 → ℚ),
    delivered false v0 0 [(.rebind f, 2)] 0 1 ≠ v0 1 := by
  refine ⟨fun _ => 0, fun i => if i = 0 then 0 else 4, ?_⟩
  have := C17_one_unchanged_cell_disables (ι := Fin 2) (K := ℚ) false (fun _ => 0) 0 []
    (.rebind fun i => if i = 0 then 0 else 4) 2 0 (by simp [Act.val, lastVal]) 0 1
  rw [List.nil_append] at this
  rw [this]; simp [Act.val]

/-- The hypotheses of `C17_chord_partial` are met: a two-cell grid, first update rebinds, second in
place; halfway between times 1 and 3 the value is halfway. -/
example : delivered false (fun _ : Fin 2 => (0 : ℚ)) 0
    ([(.rebind fun i => if i = 0 then 1 else 2, 1)] ++
      [(.inplace fun i => if i = 0 then 5 else 10, 3)]) 2 1 = 6 := by
  rw [C17_chord_partial]
  · simp [chord, lastTime, lastVal, Act.val]; norm_num
  · simp [Act.isRebind]
  · intro i; fin_cases i <;> simp [Act.val, lastVal]
  · simp [lastTime]

end TInterp
