import Verif.IndicatorModel
import Mathlib.Analysis.SpecialFunctions.Pow.Real
import Mathlib.Algebra.Order.BigOperators.Group.List
import Mathlib.Tactic.Ring
import Mathlib.Tactic.Linarith
import Mathlib.Tactic.FieldSimp
import Mathlib.Tactic.NormNum

/-!
# Properties of the monthly statistics

`utils/indicators.py`, `create_stat_grid_stacks`.
-/

set_option autoImplicit false
set_option linter.unusedSectionVars false

namespace Indicator

/-! ## Specification vocabulary -/

/-- `vs` cuts the sequence `fs` of grids into the visits of its months: stretches of grids
from the same month, as long as possible. -/
def Visits {ι K : Type*} (vs : List (List (Frame ι K))) (fs : List (Frame ι K)) : Prop :=
  vs.flatten = fs ∧
  (∀ v ∈ vs, v ≠ [] ∧ ∀ f ∈ v, ∀ g ∈ v, f.month = g.month) ∧
  vs.IsChain (fun v w => ∀ f ∈ v, ∀ g ∈ w, f.month ≠ g.month)

/-- The visits of month `m`. -/
def visitsOf {ι K : Type*} (m : Fin 12) (vs : List (List (Frame ι K))) :
    List (List (Frame ι K)) := vs.filter (fun v => v.any (fun f => f.month = m))

/-- Mean of the values of a visit in a cell. -/
def visitMean {ι K : Type*} [Field K] (v : List (Frame ι K)) (c : ι) : K :=
  (v.map (fun f => f.grid c)).sum / v.length

/-- (Population) standard deviation of the values of a visit in a cell. -/
noncomputable def visitSdev {ι : Type*} (v : List (Frame ι ℝ)) (c : ι) : ℝ :=
  Real.sqrt ((v.map (fun f => (f.grid c - visitMean v c) ^ 2)).sum / v.length)

/-! ## Largest and smallest values -/

section
variable {ι K : Type*} [Field K] [LinearOrder K]

theorem statLoop_snoc (rt : K → K) (f g : Frame ι K) (l : List (Frame ι K)) :
    statLoop rt (f :: (l ++ [g])) = statStep rt false (statLoop rt (f :: l)) g := by
  simp [statLoop, List.foldl_append]

/-- Universal property of the running maxima and minima. -/
structure MInv (lo hi : List (Frame ι K)) (s : Stat ι K) : Prop where
  month : ∃ m, s.month = some m
  maxs : ∀ m c x, (max (s.maxs m c) (if s.month = some m then s.maxGrid c else -maxNum) ≤ x) ↔
    -maxNum ≤ x ∧ ∀ f ∈ hi, f.month = m → f.grid c ≤ x
  mins : ∀ m c x, (x ≤ min (s.mins m c) (if s.month = some m then s.minGrid c else maxNum)) ↔
    x ≤ maxNum ∧ ∀ f ∈ lo, f.month = m → x ≤ f.grid c
  maxb : ∀ c, -maxNum ≤ s.maxGrid c
  minb : ∀ c, s.minGrid c ≤ maxNum
  maxsb : ∀ m c, -maxNum ≤ s.maxs m c
  minsb : ∀ m c, s.mins m c ≤ maxNum

theorem mInv_first (rt : K → K) (f : Frame ι K) :
    MInv [] [f] (statStep rt true statInit f) := by
  have e : statStep rt true statInit f = addGrid true f.grid (newMonth f.month statInit) := by
    simp [statStep, statInit]
  rw [e]
  refine ⟨⟨f.month, rfl⟩, ?_, ?_, ?_, ?_, fun m c => by simp [addGrid, newMonth, statInit],
    fun m c => by simp [addGrid, newMonth, statInit]⟩
  · intro m c x
    simp only [addGrid, newMonth, statInit, Option.some.injEq, List.mem_singleton,
      forall_eq, zero_add, min_self]
    by_cases h : f.month = m <;> simp [h]
  · intro m c x
    simp only [addGrid, newMonth, statInit, Option.some.injEq, zero_add, max_self]
    by_cases h : f.month = m <;> simp [h]
  · intro c; simp [addGrid, newMonth, statInit]
  · intro c; simp [addGrid, newMonth, statInit]

theorem mInv_step (rt : K → K) {lo hi : List (Frame ι K)} {s : Stat ι K} (h : MInv lo hi s)
    (f : Frame ι K) : MInv (lo ++ [f]) (hi ++ [f]) (statStep rt false s f) := by
  obtain ⟨⟨m0, hm0⟩, hmax, hmin, hxb, hnb, hxsb, hnsb⟩ := h
  by_cases hf : m0 = f.month
  · subst hf
    have e : statStep rt false s f = addGrid false f.grid s := by simp [statStep, hm0]
    rw [e]
    refine ⟨⟨f.month, hm0⟩, ?_, ?_, ?_, ?_, hxsb, hnsb⟩
    · intro m c x
      have := hmax m c x
      simp only [addGrid, hm0, Option.some.injEq] at this ⊢
      by_cases hm : f.month = m
      · simp only [hm, if_true, max_le_iff, List.mem_append, List.mem_singleton] at this ⊢
        constructor
        · rintro ⟨a, b, d⟩
          obtain ⟨p, q⟩ := this.1 ⟨a, b⟩
          refine ⟨p, ?_⟩
          rintro g (hg | rfl) hgm
          · exact q g hg hgm
          · exact d
        · rintro ⟨p, q⟩
          obtain ⟨a, b⟩ := this.2 ⟨p, fun g hg => q g (Or.inl hg)⟩
          exact ⟨a, b, q f (Or.inr rfl) hm⟩
      · simp only [hm, if_false, List.mem_append, List.mem_singleton] at this ⊢
        rw [this]
        constructor
        · rintro ⟨p, q⟩
          refine ⟨p, ?_⟩
          rintro g (hg | rfl) hgm
          · exact q g hg hgm
          · exact absurd hgm hm
        · rintro ⟨p, q⟩
          exact ⟨p, fun g hg => q g (Or.inl hg)⟩
    · intro m c x
      have := hmin m c x
      simp only [addGrid, hm0, Option.some.injEq, Bool.false_eq_true, if_false] at this ⊢
      by_cases hm : f.month = m
      · simp only [hm, if_true, le_min_iff, List.mem_append, List.mem_singleton] at this ⊢
        constructor
        · rintro ⟨a, b, d⟩
          obtain ⟨p, q⟩ := this.1 ⟨a, b⟩
          refine ⟨p, ?_⟩
          rintro g (hg | rfl) hgm
          · exact q g hg hgm
          · exact d
        · rintro ⟨p, q⟩
          obtain ⟨a, b⟩ := this.2 ⟨p, fun g hg => q g (Or.inl hg)⟩
          exact ⟨a, b, q f (Or.inr rfl) hm⟩
      · simp only [hm, if_false, List.mem_append, List.mem_singleton] at this ⊢
        rw [this]
        constructor
        · rintro ⟨p, q⟩
          refine ⟨p, ?_⟩
          rintro g (hg | rfl) hgm
          · exact q g hg hgm
          · exact absurd hgm hm
        · rintro ⟨p, q⟩
          exact ⟨p, fun g hg => q g (Or.inl hg)⟩
    · intro c; exact le_max_of_le_left (hxb c)
    · intro c
      simp only [addGrid, Bool.false_eq_true, if_false]
      exact min_le_of_left_le (hnb c)
  · have e : statStep rt false s f
        = addGrid false f.grid (newMonth f.month (endMonth rt true m0 s)) := by
      simp [statStep, hm0, hf]
    rw [e]
    have hne : ∀ c, max (s.minGrid c) maxNum = maxNum := fun c => max_eq_right (hnb c)
    have hxe : ∀ c, min (s.maxGrid c) (-maxNum) = -maxNum := fun c => min_eq_right (hxb c)
    refine ⟨⟨f.month, rfl⟩, ?_, ?_, ?_, ?_, ?_, ?_⟩
    · intro m c x
      have := hmax m c x
      simp only [addGrid, newMonth, endMonth, hm0, Option.some.injEq, hxe] at this ⊢
      have e1 : (Function.update s.maxs m0 (fun c => max (s.maxGrid c) (s.maxs m0 c)) m c ≤ x
          ∧ -maxNum ≤ x) ↔ -maxNum ≤ x ∧ ∀ f ∈ hi, f.month = m → f.grid c ≤ x := by
        rw [← this]
        by_cases hm : m0 = m
        · subst hm
          simp only [Function.update_self, if_true, max_le_iff]
          exact ⟨fun h => ⟨h.1.2, h.1.1⟩, fun h => ⟨⟨h.2, h.1⟩, (hxb c).trans h.2⟩⟩
        · simp [hm, Function.update_of_ne (Ne.symm hm)]
      by_cases hm : f.month = m
      · simp only [hm, if_true, max_le_iff, List.mem_append, List.mem_singleton]
        rw [← and_assoc, e1]
        constructor
        · rintro ⟨⟨p, q⟩, d⟩
          refine ⟨p, ?_⟩
          rintro g (hg | rfl) hgm
          · exact q g hg hgm
          · exact d
        · rintro ⟨p, q⟩
          exact ⟨⟨p, fun g hg => q g (Or.inl hg)⟩, q f (Or.inr rfl) hm⟩
      · simp only [hm, if_false, max_le_iff, List.mem_append, List.mem_singleton]
        rw [e1]
        constructor
        · rintro ⟨p, q⟩
          refine ⟨p, ?_⟩
          rintro g (hg | rfl) hgm
          · exact q g hg hgm
          · exact absurd hgm hm
        · rintro ⟨p, q⟩
          exact ⟨p, fun g hg => q g (Or.inl hg)⟩
    · intro m c x
      have := hmin m c x
      simp only [addGrid, newMonth, endMonth, hm0, Option.some.injEq, Bool.false_eq_true,
        if_false, hne] at this ⊢
      have e1 : (x ≤ Function.update s.mins m0 (fun c => min (s.minGrid c) (s.mins m0 c)) m c
          ∧ x ≤ maxNum) ↔ x ≤ maxNum ∧ ∀ f ∈ lo, f.month = m → x ≤ f.grid c := by
        rw [← this]
        by_cases hm : m0 = m
        · subst hm
          simp only [Function.update_self, if_true, le_min_iff]
          exact ⟨fun h => ⟨h.1.2, h.1.1⟩, fun h => ⟨⟨h.2, h.1⟩, h.2.trans (hnb c)⟩⟩
        · simp [hm, Function.update_of_ne (Ne.symm hm)]
      by_cases hm : f.month = m
      · simp only [hm, if_true, le_min_iff, List.mem_append, List.mem_singleton]
        rw [← and_assoc, e1]
        constructor
        · rintro ⟨⟨p, q⟩, d⟩
          refine ⟨p, ?_⟩
          rintro g (hg | rfl) hgm
          · exact q g hg hgm
          · exact d
        · rintro ⟨p, q⟩
          exact ⟨⟨p, fun g hg => q g (Or.inl hg)⟩, q f (Or.inr rfl) hm⟩
      · simp only [hm, if_false, le_min_iff, List.mem_append, List.mem_singleton]
        rw [e1]
        constructor
        · rintro ⟨p, q⟩
          refine ⟨p, ?_⟩
          rintro g (hg | rfl) hgm
          · exact q g hg hgm
          · exact absurd hgm hm
        · rintro ⟨p, q⟩
          exact ⟨p, fun g hg => q g (Or.inl hg)⟩
    · intro c
      simp only [addGrid, newMonth, endMonth, hxe]
      exact le_max_left _ _
    · intro c
      simp only [addGrid, newMonth, endMonth, Bool.false_eq_true, if_false, hne]
      exact min_le_left _ _
    · intro m c
      simp only [addGrid, newMonth, endMonth]
      by_cases hm : m = m0
      · subst hm; rw [Function.update_self]; exact le_max_of_le_left (hxb c)
      · rw [Function.update_of_ne hm]; exact hxsb m c
    · intro m c
      simp only [addGrid, newMonth, endMonth]
      by_cases hm : m = m0
      · subst hm; rw [Function.update_self]; exact min_le_of_left_le (hnb c)
      · rw [Function.update_of_ne hm]; exact hnsb m c

theorem mInv (rt : K → K) (f : Frame ι K) (l : List (Frame ι K)) :
    MInv l (f :: l) (statLoop rt (f :: l)) := by
  induction l using List.reverseRecOn with
  | nil => exact mInv_first rt f
  | append_singleton l g ih =>
    rw [statLoop_snoc]
    exact mInv_step rt ih g

/-- The statistics are computed exactly when there is at least one grid. -/
theorem stats_ok_iff (rt : K → K) (fs : List (Frame ι K)) :
    (∃ o, stats rt fs = .ok o) ↔ fs ≠ [] := by
  cases fs with
  | nil => simp [stats, statLoop, statInit]
  | cons f l =>
    obtain ⟨m, hm⟩ := (mInv rt f l).month
    simp [stats, hm]

/-- **C172.** For every sequence of grids, cell and month, the upper bounds of the monthly
maximum that is written are the upper bounds of the values of that month (over all years) that
are not below the fill value -9999999: the maximum is the largest of these values, or the fill
value if there are none. -/
theorem C172_max {rt : K → K} {fs : List (Frame ι K)} {o : StatOut ι K}
    (h : stats rt fs = .ok o) (m : Fin 12) (c : ι) (x : K) :
    o.max m c ≤ x ↔ -9999999 ≤ x ∧ ∀ f ∈ fs, f.month = m → f.grid c ≤ x := by
  cases fs with
  | nil => simp [stats, statLoop, statInit] at h
  | cons f l =>
    have inv := mInv rt f l
    obtain ⟨m0, hm0⟩ := inv.month
    have hx := inv.maxs m c x
    simp only [stats, hm0, Except.ok.injEq] at h
    subst h
    simp only [endMonth, hm0, Option.some.injEq] at hx ⊢
    by_cases hm : m0 = m
    · subst hm
      simp only [Function.update_self, if_true] at hx ⊢
      rw [max_comm, hx]; rfl
    · rw [Function.update_of_ne (Ne.symm hm)]
      simp only [hm, if_false] at hx
      rw [show (-9999999 : K) = -maxNum from rfl, ← hx]
      exact ⟨fun a => max_le a ((inv.maxsb m c).trans a), fun a => (le_max_left _ _).trans a⟩

/-- **C172.** The same for the minimum, with fill value 9999999; the first grid of the
sequence, which holds the state before the run, is left out. -/
theorem C172_min {rt : K → K} {fs : List (Frame ι K)} {o : StatOut ι K}
    (h : stats rt fs = .ok o) (m : Fin 12) (c : ι) (x : K) :
    x ≤ o.min m c ↔ x ≤ 9999999 ∧ ∀ f ∈ fs.tail, f.month = m → x ≤ f.grid c := by
  cases fs with
  | nil => simp [stats, statLoop, statInit] at h
  | cons f l =>
    have inv := mInv rt f l
    obtain ⟨m0, hm0⟩ := inv.month
    have hx := inv.mins m c x
    simp only [stats, hm0, Except.ok.injEq] at h
    subst h
    simp only [endMonth, hm0, Option.some.injEq, List.tail_cons] at hx ⊢
    by_cases hm : m0 = m
    · subst hm
      simp only [Function.update_self, if_true] at hx ⊢
      rw [min_comm, hx]; rfl
    · rw [Function.update_of_ne (Ne.symm hm)]
      simp only [hm, if_false] at hx
      rw [show (9999999 : K) = maxNum from rfl, ← hx]
      exact ⟨fun a => le_min a (a.trans (inv.minsb m c)), fun a => a.trans (min_le_left _ _)⟩

/-- **C172.** If month `m` occurs and its values are not below the fill value, then the
maximum that is written is one of the values of that month and none is larger. -/
theorem C172_max_attained {rt : K → K} {fs : List (Frame ι K)} {o : StatOut ι K}
    (h : stats rt fs = .ok o) (m : Fin 12) (c : ι) (hm : ∃ f ∈ fs, f.month = m)
    (hv : ∀ f ∈ fs, f.month = m → -9999999 ≤ f.grid c) :
    IsGreatest {x | ∃ f ∈ fs, f.month = m ∧ f.grid c = x} (o.max m c) := by
  have hle : ∀ f ∈ fs, f.month = m → f.grid c ≤ o.max m c :=
    ((C172_max h m c _).1 le_rfl).2
  refine ⟨?_, ?_⟩
  · by_contra hn
    simp only [Set.mem_ofPred_eq, not_exists, not_and] at hn
    -- the largest value of the month
    let l := (fs.filter (fun f => f.month = m)).map (fun f => f.grid c)
    have hl : l ≠ [] := by
      obtain ⟨f, hf, hfm⟩ := hm
      intro h0
      have : f.grid c ∈ l := List.mem_map_of_mem (List.mem_filter.2 ⟨hf, by simpa using hfm⟩)
      rw [h0] at this; simp at this
    have hmem := List.maximum_of_length_pos_mem (List.length_pos_of_ne_nil hl)
    set M := l.maximum_of_length_pos (List.length_pos_of_ne_nil hl) with hM
    obtain ⟨f, hf, hfx⟩ := List.mem_map.1 hmem
    have hf' := List.mem_filter.1 hf
    have hfm : f.month = m := by simpa using hf'.2
    have hlt : M < o.max m c := by
      rw [← hfx]
      exact lt_of_le_of_ne (hle f hf'.1 hfm) (hn f hf'.1 hfm)
    refine absurd ((C172_max h m c M).2 ⟨?_, ?_⟩) (not_le.2 hlt)
    · rw [← hfx]; exact hv f hf'.1 hfm
    · intro g hg hgm
      have hmm : g.grid c ∈ l :=
        List.mem_map_of_mem (List.mem_filter.2 ⟨hg, by simpa using hgm⟩)
      exact List.le_maximum_of_length_pos_of_mem hmm _
  · rintro x ⟨f, hf, hfm, rfl⟩
    exact hle f hf hfm

/-- **C172.** If month `m` occurs after the first grid and its values are not above the fill
value, then the minimum that is written is one of the values of that month after the first
grid and none of these is smaller. -/
theorem C172_min_attained {rt : K → K} {fs : List (Frame ι K)} {o : StatOut ι K}
    (h : stats rt fs = .ok o) (m : Fin 12) (c : ι) (hm : ∃ f ∈ fs.tail, f.month = m)
    (hv : ∀ f ∈ fs.tail, f.month = m → f.grid c ≤ 9999999) :
    IsLeast {x | ∃ f ∈ fs.tail, f.month = m ∧ f.grid c = x} (o.min m c) := by
  have hle : ∀ f ∈ fs.tail, f.month = m → o.min m c ≤ f.grid c :=
    ((C172_min h m c _).1 le_rfl).2
  refine ⟨?_, ?_⟩
  · by_contra hn
    simp only [Set.mem_ofPred_eq, not_exists, not_and] at hn
    let l := (fs.tail.filter (fun f => f.month = m)).map (fun f => f.grid c)
    have hl : l ≠ [] := by
      obtain ⟨f, hf, hfm⟩ := hm
      intro h0
      have : f.grid c ∈ l := List.mem_map_of_mem (List.mem_filter.2 ⟨hf, by simpa using hfm⟩)
      rw [h0] at this; simp at this
    have hmem := List.minimum_of_length_pos_mem (List.length_pos_of_ne_nil hl)
    set M := l.minimum_of_length_pos (List.length_pos_of_ne_nil hl) with hM
    obtain ⟨f, hf, hfx⟩ := List.mem_map.1 hmem
    have hf' := List.mem_filter.1 hf
    have hfm : f.month = m := by simpa using hf'.2
    have hlt : o.min m c < M := by
      rw [← hfx]
      exact lt_of_le_of_ne (hle f hf'.1 hfm) (Ne.symm (hn f hf'.1 hfm))
    refine absurd ((C172_min h m c M).2 ⟨?_, ?_⟩) (not_le.2 hlt)
    · rw [← hfx]; exact hv f hf'.1 hfm
    · intro g hg hgm
      have hmm : g.grid c ∈ l :=
        List.mem_map_of_mem (List.mem_filter.2 ⟨hg, by simpa using hgm⟩)
      exact List.minimum_of_length_pos_le_of_mem hmm _
  · rintro x ⟨f, hf, hfm, rfl⟩
    exact hle f hf hfm

end

/-- Two grids of January (the state before the run first), then two of February. -/
def exFrames : List (Frame (Fin 2) ℚ) :=
  [⟨0, 1, ![0, 0]⟩, ⟨0, 2, ![4, 2]⟩, ⟨1, 1, ![3, 5]⟩, ⟨1, 2, ![7, 5]⟩]

example : ∃ o, stats id exFrames = .ok o ∧ (∃ f ∈ exFrames.tail, f.month = 0) ∧
    (∀ f ∈ exFrames, ∀ c, -9999999 ≤ f.grid c ∧ f.grid c ≤ 9999999) ∧
    o.max 0 0 = 4 ∧ o.min 0 0 = 4 ∧ o.max 1 1 = 5 := by
  refine ⟨_, rfl, ?_, ?_, ?_, ?_, ?_⟩ <;> decide +kernel

/-! ## Means and standard deviations -/

section
variable {ι K : Type*} [Field K] [LinearOrder K]

/-- What the arrays hold while a visit is in progress. -/
structure VInv (rt : K → K) (done : List (List (Frame ι K))) (cur : List (Frame ι K))
    (s : Stat ι K) : Prop where
  month : ∀ f ∈ cur, s.month = some f.month
  n : s.n = cur.length
  mean : ∀ c, s.meanGrid c = (cur.map (fun f => f.grid c)).sum
  msq : ∀ c, s.meanSqr c = (cur.map (fun f => f.grid c ^ 2)).sum
  nYears : ∀ m, s.nYears m = (visitsOf m done).length
  means : ∀ m c, s.means m c = ((visitsOf m done).map (fun v => visitMean v c)).sum
  sdevs : ∀ m c, s.sdevs m c = ((visitsOf m done).map (fun v =>
    rt ((v.map (fun f => f.grid c ^ 2)).sum / v.length - visitMean v c ^ 2))).sum

theorem vInv_first (rt : K → K) (f : Frame ι K) :
    VInv rt [] [f] (statStep rt true statInit f) := by
  have e : statStep rt true statInit f = addGrid true f.grid (newMonth f.month statInit) := by
    simp [statStep, statInit]
  rw [e]
  constructor <;> simp [addGrid, newMonth, statInit, visitsOf]

theorem vInv_same (rt : K → K) {done : List (List (Frame ι K))} {cur : List (Frame ι K)}
    {s : Stat ι K} (h : VInv rt done cur s) (f : Frame ι K) (hc : cur ≠ [])
    (hf : ∀ g ∈ cur, g.month = f.month) : VInv rt done (cur ++ [f]) (statStep rt false s f) := by
  obtain ⟨g, hg⟩ := List.exists_mem_of_ne_nil _ hc
  have hm : s.month = some f.month := by rw [h.month g hg, hf g hg]
  have e : statStep rt false s f = addGrid false f.grid s := by simp [statStep, hm]
  rw [e]
  refine ⟨?_, ?_, ?_, ?_, h.nYears, h.means, h.sdevs⟩
  · intro g hg
    rcases List.mem_append.1 hg with hg | hg
    · exact h.month g hg
    · rw [List.mem_singleton] at hg; subst hg; exact hm
  · simp [addGrid, h.n]
  · intro c; simp [addGrid, h.mean]
  · intro c; simp [addGrid, h.msq]

theorem visitsOf_snoc (m : Fin 12) (vs : List (List (Frame ι K))) (v : List (Frame ι K)) :
    visitsOf m (vs ++ [v])
      = visitsOf m vs ++ if v.any (fun f => f.month = m) then [v] else [] := by
  unfold visitsOf
  rw [List.filter_append]
  congr 1
  by_cases h : v.any (fun f => f.month = m) <;> simp [h]

theorem any_month {cur : List (Frame ι K)} {m0 : Fin 12} (hc : cur ≠ [])
    (h : ∀ f ∈ cur, f.month = m0) (m : Fin 12) :
    (cur.any (fun f => f.month = m)) = decide (m0 = m) := by
  obtain ⟨g, hg⟩ := List.exists_mem_of_ne_nil _ hc
  rw [Bool.eq_iff_iff]
  simp only [List.any_eq_true, decide_eq_true_eq]
  constructor
  · rintro ⟨f, hf, rfl⟩; exact (h f hf).symm
  · rintro rfl; exact ⟨g, hg, h g hg⟩

theorem endMonth_vInv (rt : K → K) {done : List (List (Frame ι K))} {cur : List (Frame ι K)}
    {s : Stat ι K} (h : VInv rt done cur s) (hc : cur ≠ []) {m0 : Fin 12}
    (hf : ∀ g ∈ cur, g.month = m0) (b : Bool) :
    (∀ m, (endMonth rt b m0 s).nYears m
      = (visitsOf m (if b then done ++ [cur] else done)).length) ∧
    (∀ m c, (endMonth rt b m0 s).means m c
      = ((visitsOf m (done ++ [cur])).map (fun v => visitMean v c)).sum) ∧
    (∀ m c, (endMonth rt b m0 s).sdevs m c = ((visitsOf m (done ++ [cur])).map (fun v =>
      rt ((v.map (fun f => f.grid c ^ 2)).sum / v.length - visitMean v c ^ 2))).sum) := by
  refine ⟨?_, ?_, ?_⟩
  · intro m
    cases b with
    | false => simpa [endMonth] using h.nYears m
    | true =>
      simp only [endMonth, if_true, visitsOf_snoc, any_month hc hf]
      by_cases hm : m0 = m
      · subst hm; simp [h.nYears]
      · simp [hm, Function.update_of_ne (Ne.symm hm), h.nYears]
  · intro m c
    simp only [endMonth, visitsOf_snoc, any_month hc hf]
    by_cases hm : m0 = m
    · subst hm; simp [h.means, h.mean, h.n, visitMean]
    · simp [hm, Function.update_of_ne (Ne.symm hm), h.means]
  · intro m c
    simp only [endMonth, visitsOf_snoc, any_month hc hf]
    by_cases hm : m0 = m
    · subst hm; simp [h.sdevs, h.mean, h.msq, h.n, visitMean]
    · simp [hm, Function.update_of_ne (Ne.symm hm), h.sdevs]

theorem vInv_new (rt : K → K) {done : List (List (Frame ι K))} {cur : List (Frame ι K)}
    {s : Stat ι K} (h : VInv rt done cur s) (f : Frame ι K) (hc : cur ≠ []) {m0 : Fin 12}
    (hm0 : ∀ g ∈ cur, g.month = m0) (hf : m0 ≠ f.month) :
    VInv rt (done ++ [cur]) [f] (statStep rt false s f) := by
  obtain ⟨g, hg⟩ := List.exists_mem_of_ne_nil _ hc
  have hm : s.month = some m0 := by rw [h.month g hg, hm0 g hg]
  have e : statStep rt false s f
      = addGrid false f.grid (newMonth f.month (endMonth rt true m0 s)) := by
    simp [statStep, hm, hf]
  obtain ⟨h1, h2, h3⟩ := endMonth_vInv rt h hc hm0 true
  rw [e]
  refine ⟨?_, ?_, ?_, ?_, h1, h2, h3⟩
  · intro g hg; rw [List.mem_singleton] at hg; subst hg; rfl
  · simp [addGrid, newMonth]
  · intro c; simp [addGrid, newMonth]
  · intro c; simp [addGrid, newMonth]

theorem vInv_of_visits (rt : K → K) (n : ℕ) : ∀ (done : List (List (Frame ι K)))
    (cur fs : List (Frame ι K)), fs.length = n → Visits (done ++ [cur]) fs →
    VInv rt done cur (statLoop rt fs) := by
  induction n with
  | zero =>
    intro done cur fs hn hv
    have hc := (hv.2.1 cur (by simp)).1
    have : fs = [] := List.length_eq_zero_iff.1 hn
    have h1 := hv.1
    rw [this] at h1
    simp at h1
    exact absurd h1.2 hc
  | succ n ih =>
    intro done cur fs hn hv
    obtain ⟨hfl, hin, hch⟩ := hv
    obtain ⟨hc, hcm⟩ := hin cur (by simp)
    obtain ⟨cur', f, rfl⟩ : ∃ l f, cur = l ++ [f] :=
      ⟨cur.dropLast, cur.getLast hc, (List.dropLast_append_getLast hc).symm⟩
    by_cases hc' : cur' = []
    · subst hc'
      simp only [List.nil_append] at *
      rcases List.eq_nil_or_concat done with rfl | ⟨d', v, rfl⟩
      · simp only [List.nil_append, List.flatten_cons, List.flatten_nil, List.append_nil] at hfl
        subst hfl
        exact vInv_first rt f
      · simp only [List.concat_eq_append] at *
        have hv' : Visits (d' ++ [v]) (d' ++ [v]).flatten :=
          ⟨rfl, fun w hw => hin w (by
            rcases List.mem_append.1 hw with h | h
            · simp [h]
            · simp only [List.mem_singleton] at h; simp [h]), hch.left_of_append⟩
        have hfs : fs = (d' ++ [v]).flatten ++ [f] := by rw [← hfl]; simp
        have hlen : (d' ++ [v]).flatten.length = n := by
          rw [hfs, List.length_append] at hn; simpa using hn
        have hI := ih d' v _ hlen hv'
        obtain ⟨hvne, hvm⟩ := hin v (by simp)
        obtain ⟨g, hg⟩ := List.exists_mem_of_ne_nil _ hvne
        have hlt : ∀ f' ∈ v, ∀ g' ∈ [f], f'.month ≠ g'.month := by
          rw [List.append_assoc] at hch
          have := hch.right_of_append
          simpa using this
        have hne : (d' ++ [v]).flatten ≠ [] := by
          intro h0
          simp at h0
          exact hvne h0.2
        obtain ⟨a, l, hal⟩ := List.exists_cons_of_ne_nil hne
        rw [hfs, hal, List.cons_append, statLoop_snoc, ← hal]
        exact vInv_new rt hI f hvne (m0 := g.month) (fun x hx => hvm x hx g hg)
          (hlt g hg f (by simp))
    · have hv' : Visits (done ++ [cur']) (done ++ [cur']).flatten := by
        refine ⟨rfl, ?_, ?_⟩
        · intro w hw
          rcases List.mem_append.1 hw with h | h
          · exact hin w (by simp [h])
          · simp only [List.mem_singleton] at h
            subst h
            exact ⟨hc', fun x hx y hy => hcm x (by simp [hx]) y (by simp [hy])⟩
        · rw [List.isChain_append] at hch ⊢
          refine ⟨hch.1, by simp, ?_⟩
          intro x hx y hy
          simp only [List.head?_cons, Option.mem_def, Option.some.injEq] at hy
          subst hy
          intro a ha b hb
          exact hch.2.2 x hx (cur' ++ [f]) (by simp) a ha b (by simp [hb])
      have hfs : fs = (done ++ [cur']).flatten ++ [f] := by rw [← hfl]; simp
      have hlen : (done ++ [cur']).flatten.length = n := by
        rw [hfs, List.length_append] at hn; simpa using hn
      have hI := ih done cur' _ hlen hv'
      have hne : (done ++ [cur']).flatten ≠ [] := by
        intro h0
        simp at h0
        exact hc' h0.2
      obtain ⟨a, l, hal⟩ := List.exists_cons_of_ne_nil hne
      rw [hfs, hal, List.cons_append, statLoop_snoc, ← hal]
      exact vInv_same rt hI f hc' (fun g hg => hcm g (by simp [hg]) f (by simp))

/-- Every sequence of grids has such a decomposition. -/
theorem exists_visits (fs : List (Frame ι K)) : ∃ vs, Visits vs fs := by
  induction fs with
  | nil => exact ⟨[], rfl, by simp, by simp⟩
  | cons f l ih =>
    obtain ⟨vs, hfl, hin, hch⟩ := ih
    cases vs with
    | nil =>
      simp at hfl; subst hfl
      refine ⟨[[f]], rfl, ?_, by simp⟩
      intro v hv
      simp only [List.mem_singleton] at hv
      subst hv
      refine ⟨by simp, ?_⟩
      intro a ha b hb
      rw [List.mem_singleton.1 ha, List.mem_singleton.1 hb]
    | cons v w =>
      obtain ⟨hvne, hvm⟩ := hin v (by simp)
      obtain ⟨g, hg⟩ := List.exists_mem_of_ne_nil _ hvne
      by_cases hfg : f.month = g.month
      · refine ⟨(f :: v) :: w, by simpa using hfl, ?_, ?_⟩
        · intro u hu
          rcases List.mem_cons.1 hu with rfl | hu
          · refine ⟨by simp, ?_⟩
            have key : ∀ a ∈ f :: v, a.month = g.month := by
              intro a ha
              rcases List.mem_cons.1 ha with rfl | ha
              · exact hfg
              · exact hvm a ha g hg
            intro a ha b hb
            rw [key a ha, key b hb]
          · exact hin u (by simp [hu])
        · rw [List.isChain_cons] at hch ⊢
          refine ⟨?_, hch.2⟩
          intro y hy a ha b hb
          rcases List.mem_cons.1 ha with rfl | ha
          · rw [hfg]; exact hch.1 y hy g hg b hb
          · exact hch.1 y hy a ha b hb
      · refine ⟨[f] :: v :: w, by simpa using hfl, ?_, ?_⟩
        · intro u hu
          rcases List.mem_cons.1 hu with rfl | hu
          · refine ⟨by simp, ?_⟩
            intro a ha b hb
            rw [List.mem_singleton.1 ha, List.mem_singleton.1 hb]
          · exact hin u hu
        · rw [List.isChain_cons]
          refine ⟨?_, hch⟩
          intro y hy a ha b hb
          simp only [List.head?_cons, Option.mem_def, Option.some.injEq] at hy
          subst hy
          rw [List.mem_singleton.1 ha, hvm b hb g hg]
          exact hfg

theorem visits_ne_nil {vs : List (List (Frame ι K))} {f : Frame ι K} {l : List (Frame ι K)}
    (h : Visits vs (f :: l)) : vs ≠ [] := by
  rintro rfl
  have := h.1
  simp at this

/-- The exact result for means and standard deviations. -/
theorem stats_exact {rt : K → K} {fs : List (Frame ι K)} {o : StatOut ι K}
    (h : stats rt fs = .ok o) {done : List (List (Frame ι K))} {cur : List (Frame ι K)}
    (hv : Visits (done ++ [cur]) fs) (m : Fin 12) (c : ι) :
    o.mean m c = npDiv ((visitsOf m (done ++ [cur])).map (fun v => visitMean v c)).sum
      (visitsOf m done).length ∧
    o.sdev m c = npDiv ((visitsOf m (done ++ [cur])).map (fun v =>
      rt ((v.map (fun f => f.grid c ^ 2)).sum / v.length - visitMean v c ^ 2))).sum
      (visitsOf m done).length := by
  have hI := vInv_of_visits rt _ done cur fs rfl hv
  obtain ⟨hc, hcm⟩ := hv.2.1 cur (by simp)
  obtain ⟨g, hg⟩ := List.exists_mem_of_ne_nil _ hc
  have hm := hI.month g hg
  simp only [stats, hm, Except.ok.injEq] at h
  subst h
  obtain ⟨h1, h2, h3⟩ := endMonth_vInv rt hI hc (m0 := g.month) (fun x hx => hcm x hx g hg) false
  simp only at h1 h2 h3 ⊢
  rw [h1 m, h2 m c, h3 m c]
  exact ⟨rfl, rfl⟩

/-- **C173.** For every month that is not the month of the last grid, the mean that is written
is the average, over the visits of that month, of the means of the visits; if the month does
not occur then no number is written. -/
theorem C173_mean_partial {rt : K → K} {fs : List (Frame ι K)} {o : StatOut ι K}
    (h : stats rt fs = .ok o) {vs : List (List (Frame ι K))} (hv : Visits vs fs)
    (m : Fin 12) (hm : ∀ f ∈ fs.getLast?, f.month ≠ m) (c : ι) :
    (visitsOf m vs ≠ [] → o.mean m c = some
      (((visitsOf m vs).map (fun v => visitMean v c)).sum / (visitsOf m vs).length)) ∧
    (visitsOf m vs = [] → o.mean m c = none) := by
  obtain ⟨done, cur, rfl⟩ : ∃ d e, vs = d ++ [e] := by
    rcases List.eq_nil_or_concat vs with rfl | ⟨d, e, rfl⟩
    · have := hv.1
      simp at this; subst this
      simp [stats, statLoop, statInit] at h
    · exact ⟨d, e, by simp⟩
  obtain ⟨hc, hcm⟩ := hv.2.1 cur (by simp)
  have hlast : fs.getLast? = some (cur.getLast hc) := by
    rw [← hv.1]
    simp [List.getLast?_append, List.getLast?_eq_some_getLast hc]
  have hcur : ∀ f ∈ cur, f.month = (cur.getLast hc).month :=
    fun f hf => hcm f hf _ (List.getLast_mem hc)
  have hne : (cur.getLast hc).month ≠ m := hm _ hlast
  have he : visitsOf m (done ++ [cur]) = visitsOf m done := by
    rw [visitsOf_snoc, any_month hc hcur]; simp [hne]
  have hx := (stats_exact h hv m c).1
  rw [he] at hx ⊢
  rw [hx]
  constructor
  · intro h0
    have : (visitsOf m done).length ≠ 0 := by simpa using h0
    simp [npDiv, this]
  · intro h0; simp [npDiv, h0]

/-- **C173.** In the month of the last grid the sum of the means is divided by one less than
the number of visits: with two visits the sum of the two means is written instead of their
average, and with one visit (every file of less than a year) no number is written. -/
theorem C173_last_month_violated {rt : K → K} {fs : List (Frame ι K)} {o : StatOut ι K}
    (h : stats rt fs = .ok o) {vs : List (List (Frame ι K))} (hv : Visits vs fs)
    (m : Fin 12) (hm : ∃ f ∈ fs.getLast?, f.month = m) (c : ι) :
    ((visitsOf m vs).length = 1 → o.mean m c = none ∧ o.sdev m c = none) ∧
    (1 < (visitsOf m vs).length → o.mean m c = some
      (((visitsOf m vs).map (fun v => visitMean v c)).sum /
        (((visitsOf m vs).length - 1 : ℕ) : K))) := by
  obtain ⟨done, cur, rfl⟩ : ∃ d e, vs = d ++ [e] := by
    rcases List.eq_nil_or_concat vs with rfl | ⟨d, e, rfl⟩
    · have := hv.1
      simp at this; subst this
      simp [stats, statLoop, statInit] at h
    · exact ⟨d, e, by simp⟩
  obtain ⟨hc, hcm⟩ := hv.2.1 cur (by simp)
  have hlast : fs.getLast? = some (cur.getLast hc) := by
    rw [← hv.1]
    simp [List.getLast?_append, List.getLast?_eq_some_getLast hc]
  have hcur : ∀ f ∈ cur, f.month = (cur.getLast hc).month :=
    fun f hf => hcm f hf _ (List.getLast_mem hc)
  obtain ⟨f, hf, hfm⟩ := hm
  rw [hlast, Option.mem_def, Option.some.injEq] at hf
  rw [hf, hfm] at hcur
  have he : (visitsOf m done).length = (visitsOf m (done ++ [cur])).length - 1 := by
    rw [visitsOf_snoc, any_month hc hcur]; simp
  have hx := stats_exact h hv m c
  rw [hx.1, hx.2, he]
  constructor
  · intro h1; simp [npDiv, h1]
  · intro h1
    have : (visitsOf m (done ++ [cur])).length - 1 ≠ 0 := by omega
    simp [npDiv, this]

end

theorem visitSdev_eq {ι : Type*} (v : List (Frame ι ℝ)) (hv : v ≠ []) (c : ι) :
    Real.sqrt ((v.map (fun f => f.grid c ^ 2)).sum / v.length - visitMean v c ^ 2)
      = visitSdev v c := by
  unfold visitSdev
  congr 1
  have hl : (v.length : ℝ) ≠ 0 := by
    simpa using hv
  set μ := visitMean v c with hμ
  have hs : (v.map (fun f => f.grid c)).sum = μ * v.length := by
    rw [hμ, visitMean]; field_simp
  have key : ∀ (l : List (Frame ι ℝ)), (l.map (fun f => (f.grid c - μ) ^ 2)).sum
      = (l.map (fun f => f.grid c ^ 2)).sum - 2 * μ * (l.map (fun f => f.grid c)).sum
        + μ ^ 2 * l.length := by
    intro l
    induction l with
    | nil => simp
    | cons a l ih =>
      simp only [List.map_cons, List.sum_cons, ih, List.length_cons]
      push_cast
      ring
  rw [key, hs]
  field_simp
  ring

/-- **C173.** For every month that is not the month of the last grid, the standard deviation
that is written is the average, over the visits of that month, of the population standard
deviations of the visits. -/
theorem C173_sdev_partial {ι : Type*} {fs : List (Frame ι ℝ)} {o : StatOut ι ℝ}
    (h : stats Real.sqrt fs = .ok o) {vs : List (List (Frame ι ℝ))} (hv : Visits vs fs)
    (m : Fin 12) (hm : ∀ f ∈ fs.getLast?, f.month ≠ m) (hne : visitsOf m vs ≠ []) (c : ι) :
    o.sdev m c = some
      (((visitsOf m vs).map (fun v => visitSdev v c)).sum / (visitsOf m vs).length) := by
  obtain ⟨done, cur, rfl⟩ : ∃ d e, vs = d ++ [e] := by
    rcases List.eq_nil_or_concat vs with rfl | ⟨d, e, rfl⟩
    · have := hv.1
      simp at this; subst this
      simp [stats, statLoop, statInit] at h
    · exact ⟨d, e, by simp⟩
  obtain ⟨hc, hcm⟩ := hv.2.1 cur (by simp)
  have hlast : fs.getLast? = some (cur.getLast hc) := by
    rw [← hv.1]
    simp [List.getLast?_append, List.getLast?_eq_some_getLast hc]
  have hcur : ∀ f ∈ cur, f.month = (cur.getLast hc).month :=
    fun f hf => hcm f hf _ (List.getLast_mem hc)
  have hnm : (cur.getLast hc).month ≠ m := hm _ hlast
  have he : visitsOf m (done ++ [cur]) = visitsOf m done := by
    rw [visitsOf_snoc, any_month hc hcur]; simp [hnm]
  have hx := (stats_exact h hv m c).2
  rw [hx]
  rw [he] at hne ⊢
  have h0 : (visitsOf m done).length ≠ 0 := by simpa using hne
  rw [npDiv, if_neg h0]
  congr 3
  apply List.map_congr_left
  intro v hvm
  refine visitSdev_eq v (hv.2.1 v ?_).1 c
  exact List.mem_append_left _ (List.mem_of_mem_filter hvm)

theorem sum_div_bounds {α K : Type*} [Field K] [LinearOrder K] [IsStrictOrderedRing K]
    (l : List α) (f : α → K) (lo hi : K) (hl : l ≠ []) (h : ∀ a ∈ l, lo ≤ f a ∧ f a ≤ hi) :
    lo ≤ (l.map f).sum / l.length ∧ (l.map f).sum / l.length ≤ hi := by
  have hpos : (0 : K) < l.length := by
    have := List.length_pos_of_ne_nil hl
    exact_mod_cast this
  have key : ∀ l : List α, (∀ a ∈ l, lo ≤ f a ∧ f a ≤ hi) →
      lo * l.length ≤ (l.map f).sum ∧ (l.map f).sum ≤ hi * l.length := by
    intro l
    induction l with
    | nil => simp
    | cons a l ih =>
      intro h
      obtain ⟨h1, h2⟩ := ih (fun b hb => h b (by simp [hb]))
      obtain ⟨h3, h4⟩ := h a (by simp)
      simp only [List.map_cons, List.sum_cons, List.length_cons]
      push_cast
      constructor <;> linarith [mul_add lo (l.length : K) 1, mul_add hi (l.length : K) 1]
  rw [le_div_iff₀ hpos, div_le_iff₀ hpos]
  exact key l h

/-- **C173.** For every month that is not the month of the last grid, the mean that is written
lies between any two bounds of the values of that month. -/
theorem C173_mean_between_partial {ι K : Type*} [Field K] [LinearOrder K] [IsStrictOrderedRing K]
    {rt : K → K} {fs : List (Frame ι K)} {o : StatOut ι K} (h : stats rt fs = .ok o)
    (m : Fin 12) (hm : ∀ f ∈ fs.getLast?, f.month ≠ m) (hne : ∃ f ∈ fs, f.month = m) (c : ι)
    (lo hi : K) (hb : ∀ f ∈ fs, f.month = m → lo ≤ f.grid c ∧ f.grid c ≤ hi) :
    ∃ x, o.mean m c = some x ∧ lo ≤ x ∧ x ≤ hi := by
  obtain ⟨vs, hv⟩ := exists_visits fs
  obtain ⟨f, hf, hfm⟩ := hne
  have hvm : ∀ v ∈ visitsOf m vs, v ∈ vs ∧ ∀ f ∈ v, f.month = m := by
    intro v hv'
    obtain ⟨a, b⟩ := List.mem_filter.1 hv'
    simp only [List.any_eq_true, decide_eq_true_eq] at b
    obtain ⟨g, hg, hgm⟩ := b
    exact ⟨a, fun x hx => ((hv.2.1 v a).2 x hx g hg).trans hgm⟩
  have hn : visitsOf m vs ≠ [] := by
    rw [← hv.1] at hf
    obtain ⟨v, hv1, hv2⟩ := List.mem_flatten.1 hf
    apply List.ne_nil_of_mem (a := v)
    refine List.mem_filter.2 ⟨hv1, ?_⟩
    simp only [List.any_eq_true, decide_eq_true_eq]
    exact ⟨f, hv2, hfm⟩
  refine ⟨_, (C173_mean_partial h hv m hm c).1 hn, ?_⟩
  apply sum_div_bounds _ _ _ _ hn
  intro v hv'
  obtain ⟨h1, h2⟩ := hvm v hv'
  unfold visitMean
  refine sum_div_bounds v (fun f => f.grid c) lo hi (hv.2.1 v h1).1 ?_
  intro g hg
  refine hb g ?_ (h2 g hg)
  rw [← hv.1]
  exact List.mem_flatten.2 ⟨v, h1, hg⟩

/-- The hypotheses hold for two visits of January around one of February: January's means are
2 and 4 but the file ends in January, so 6 is written; February's mean is 5. -/
def exYears : List (List (Frame (Fin 1) ℚ)) :=
  [[⟨0, 30, ![1]⟩, ⟨0, 31, ![3]⟩], [⟨1, 1, ![5]⟩], [⟨0, 1, ![4]⟩]]

example : Visits exYears exYears.flatten ∧
    (∃ o, stats id exYears.flatten = .ok o ∧ o.mean 0 0 = some 6 ∧ o.mean 1 0 = some 5) ∧
    (visitsOf 0 exYears).length = 2 ∧ (visitsOf 1 exYears).length = 1 ∧
    (∀ f ∈ exYears.flatten.getLast?, f.month ≠ 1) := by
  refine ⟨⟨rfl, ?_, ?_⟩, ⟨_, rfl, ?_, ?_⟩, ?_, ?_, ?_⟩
  · decide +kernel
  · simp [exYears]
  all_goals decide +kernel

end Indicator
