import Verif.IndicatorProps
import Mathlib.Algebra.BigOperators.Fin

/-!
# Properties of the day counts and of the affected population

`utils/indicators.py`, `create_day_count_grid_stack` and
`create_affected_population_grid_stack`.
-/

set_option autoImplicit false
set_option linter.unusedSectionVars false

namespace Indicator

/-! ## Specification vocabulary -/

/-- The stack of grids, month by month and day by day: `ms` is a list of months, a month is a
list of days, a day is a list of grids.  All grids of a month carry that month and all grids
of a day carry that day; consecutive months and consecutive days (also across the end of a
month) differ.  Every stack in chronological order whose time step is at most a day is of
this form. -/
structure Calendar {ι K : Type*} (ms : List (List (List (Frame ι K)))) : Prop where
  month_ne : ∀ mo ∈ ms, mo ≠ []
  day_ne : ∀ d ∈ ms.flatten, d ≠ []
  month : ∀ mo ∈ ms, ∀ f ∈ mo.flatten, ∀ g ∈ mo.flatten, f.month = g.month
  day : ∀ d ∈ ms.flatten, ∀ f ∈ d, ∀ g ∈ d, f.day = g.day
  next_month : ms.IsChain (fun a b => ∀ f ∈ a.flatten, ∀ g ∈ b.flatten, f.month ≠ g.month)
  next_day : ms.flatten.IsChain (fun a b => ∀ f ∈ a, ∀ g ∈ b, f.day ≠ g.day)

section
variable {ι K : Type*} [Field K] [LinearOrder K]

/-- What each condition means for a grid: below the mean minus the standard deviation of its
month, above their sum, deeper than 0.1, above or below the grid before it (`prev`; the grid
before the first one is taken to be 0). -/
def Meets (k : Kind) (mean sdev : Fin 12 → ι → Option K) (prev : Option (Frame ι K))
    (f : Frame ι K) (c : ι) : Prop :=
  match k with
  | .low => ∃ μ σ, mean f.month c = some μ ∧ sdev f.month c = some σ ∧ f.grid c < μ - σ
  | .high => ∃ μ σ, mean f.month c = some μ ∧ sdev f.month c = some σ ∧ μ + σ < f.grid c
  | .flood => 1 / 10 < f.grid c
  | .incr => (prev.map (fun p => p.grid c)).getD 0 < f.grid c
  | .decr => f.grid c < (prev.map (fun p => p.grid c)).getD 0

/-- The condition occurs on a day (in one of its grids); `prev` is the last grid before that
day. -/
def Occurs (k : Kind) (mean sdev : Fin 12 → ι → Option K) (prev : Option (Frame ι K))
    (day : List (Frame ι K)) (c : ι) : Prop :=
  ∃ a f b, day = a ++ f :: b ∧ Meets k mean sdev (a.getLast?.or prev) f c

open Classical in
/-- For each day, whether the condition occurs on it. -/
noncomputable def flags (k : Kind) (mean sdev : Fin 12 → ι → Option K) (c : ι) :
    Option (Frame ι K) → List (List (Frame ι K)) → List Bool
  | _, [] => []
  | prev, d :: ds => decide (Occurs k mean sdev prev d c) :: flags k mean sdev c d.getLast? ds

/-- Number of days before month `j`. -/
def daysBefore (ms : List (List (List (Frame ι K)))) (j : ℕ) : ℕ :=
  ((ms.take j).map List.length).sum

/-! ## One day -/

theorem detects_iff (k : Kind) (mean sdev : Fin 12 → ι → Option K)
    (prev : Option (Frame ι K)) (f : Frame ι K) (c : ι) (last : K)
    (hl : k = .incr ∨ k = .decr → last = (prev.map (fun p => p.grid c)).getD 0) :
    detects k (threshold k (mean f.month c) (sdev f.month c)) last (f.grid c) = true ↔
      Meets k mean sdev prev f c := by
  cases k with
  | low =>
    simp only [detects, threshold, Meets, npSub]
    cases h1 : mean f.month c <;> cases h2 : sdev f.month c <;> simp
  | high =>
    simp only [detects, threshold, Meets, npAdd]
    cases h1 : mean f.month c <;> cases h2 : sdev f.month c <;> simp
  | flood => simp [detects, Meets]
  | incr => simp [detects, Meets, hl (by simp)]
  | decr => simp [detects, Meets, hl (by simp)]

/-- What the loop variables hold within a day: `prev` is the last grid read. -/
structure DInv (k : Kind) (mean sdev : Fin 12 → ι → Option K) (m : Fin 12) (d : ℕ)
    (prev : Option (Frame ι K)) (s : Days ι K) : Prop where
  month : s.month = some m
  day : s.day = some d
  thr : ∀ c, s.thr c = threshold k (mean m c) (sdev m c)
  last : k = .incr ∨ k = .decr → ∀ c, s.last c = (prev.map (fun p => p.grid c)).getD 0

theorem foldl_day {k : Kind} {mean sdev : Fin 12 → ι → Option K} {m : Fin 12} {d : ℕ}
    (l : List (Frame ι K)) : ∀ (prev : Option (Frame ι K)) (s : Days ι K),
    DInv k mean sdev m d prev s → (∀ f ∈ l, f.month = m ∧ f.day = d) →
    DInv k mean sdev m d (l.getLast?.or prev) (l.foldl (dayStep k mean sdev) s) ∧
    (l.foldl (dayStep k mean sdev) s).out = s.out ∧
    (l.foldl (dayStep k mean sdev) s).days = s.days ∧
    ∀ c, ((l.foldl (dayStep k mean sdev) s).detect c = true ↔
      s.detect c = true ∨ Occurs k mean sdev prev l c) := by
  induction l with
  | nil =>
    intro prev s h _
    refine ⟨by simpa using h, rfl, rfl, ?_⟩
    intro c
    simp [Occurs]
  | cons f l ih =>
    intro prev s h hl
    obtain ⟨hfm, hfd⟩ := hl f (by simp)
    have e : dayStep k mean sdev s f = dayDetect k f.grid s := by
      simp [dayStep, dayNewMonth, dayNewDay, h.month, h.day, hfm, hfd]
    have h' : DInv k mean sdev m d (some f) (dayDetect k f.grid s) := by
      refine ⟨h.month, h.day, h.thr, ?_⟩
      intro hk c
      simp [dayDetect, hk]
    obtain ⟨i1, i2, i3, i4⟩ := ih (some f) _ h' (fun g hg => hl g (by simp [hg]))
    rw [List.foldl_cons, e]
    refine ⟨?_, i2, i3, ?_⟩
    · have : ((f :: l).getLast?.or prev) = l.getLast?.or (some f) := by
        cases l with
        | nil => simp
        | cons a t => simp [List.getLast?_cons]
      rw [this]; exact i1
    · intro c
      rw [i4 c]
      have hd : (dayDetect k f.grid s).detect c = true ↔
          s.detect c = true ∨ Meets k mean sdev prev f c := by
        have := detects_iff k mean sdev prev f c (s.last c) (fun hk => h.last hk c)
        simp only [dayDetect, h.thr, ← hfm]
        rw [← this]
        by_cases hx : detects k (threshold k (mean f.month c) (sdev f.month c)) (s.last c)
            (f.grid c) = true <;> simp [hx]
      rw [hd, or_assoc]
      apply or_congr_right
      constructor
      · rintro (hM | ⟨a, g, b, rfl, hM⟩)
        · exact ⟨[], f, l, rfl, by simpa using hM⟩
        · refine ⟨f :: a, g, b, rfl, ?_⟩
          have : ((f :: a).getLast?.or prev) = a.getLast?.or (some f) := by
            cases a with
            | nil => simp
            | cons x t => simp [List.getLast?_cons]
          rw [this]; exact hM
      · rintro ⟨a, g, b, hab, hM⟩
        cases a with
        | nil =>
          simp only [List.nil_append, List.cons.injEq] at hab
          obtain ⟨rfl, rfl⟩ := hab
          exact Or.inl (by simpa using hM)
        | cons x t =>
          simp only [List.cons_append, List.cons.injEq] at hab
          obtain ⟨rfl, rfl⟩ := hab
          refine Or.inr ⟨t, g, b, rfl, ?_⟩
          have : ((f :: t).getLast?.or prev) = t.getLast?.or (some f) := by
            cases t with
            | nil => simp
            | cons x t => simp [List.getLast?_cons]
          rw [this] at hM; exact hM

/-! ## A sequence of days -/

/-- What the loop variables hold between two grids. -/
structure BInv (k : Kind) (mean sdev : Fin 12 → ι → Option K)
    (prev : Option (Frame ι K)) (s : Days ι K) : Prop where
  thr : ∀ m, s.month = some m → ∀ c, s.thr c = threshold k (mean m c) (sdev m c)
  last : k = .incr ∨ k = .decr → ∀ c, s.last c = (prev.map (fun p => p.grid c)).getD 0
  none : s.day = none → ∀ c, s.detect c = false

theorem foldl_new_day {k : Kind} {mean sdev : Fin 12 → ι → Option K} {m : Fin 12} {d : ℕ}
    (day : List (Frame ι K)) (hne : day ≠ []) (hday : ∀ f ∈ day, f.month = m ∧ f.day = d)
    (prev : Option (Frame ι K)) (s : Days ι K) (hs : BInv k mean sdev prev s)
    (hd : s.day ≠ some d) :
    let s1 := day.foldl (dayStep k mean sdev) s
    BInv k mean sdev day.getLast? s1 ∧ s1.month = some m ∧ s1.day = some d ∧
    s1.out = (if s.month = none ∨ s.month = some m then s.out else s.out ++ [s.days]) ∧
    (∀ c, s1.days c = (if s.month = some m then s.days c else 0) +
      (if s.detect c = true then 1 else 0)) ∧
    (∀ c, s1.detect c = true ↔ Occurs k mean sdev prev day c) := by
  intro s1
  obtain ⟨f, l, rfl⟩ := List.exists_cons_of_ne_nil hne
  obtain ⟨hfm, hfd⟩ := hday f (by simp)
  set s0 := dayNewMonth k mean sdev m s with hs0
  have h0m : s0.month = some m := by
    rw [hs0, dayNewMonth]
    by_cases h : s.month = some m
    · rw [if_pos h]; exact h
    · rw [if_neg h]
  have h0d : s0.day = s.day := by rw [hs0, dayNewMonth]; split_ifs <;> rfl
  have h0t : ∀ c, s0.thr c = threshold k (mean m c) (sdev m c) := by
    rw [hs0, dayNewMonth]
    by_cases h : s.month = some m
    · rw [if_pos h]; exact hs.thr m h
    · rw [if_neg h]; intro c; rfl
  have h0l : s0.last = s.last := by rw [hs0, dayNewMonth]; split_ifs <;> rfl
  have h0e : s0.detect = s.detect := by rw [hs0, dayNewMonth]; split_ifs <;> rfl
  have h0days : ∀ c, s0.days c = if s.month = some m then s.days c else 0 := by
    intro c
    rw [hs0, dayNewMonth]; split_ifs <;> rfl
  have h0out : s0.out = if s.month = none ∨ s.month = some m then s.out
      else s.out ++ [s.days] := by
    rw [hs0, dayNewMonth]
    by_cases h1 : s.month = some m
    · simp [h1]
    · by_cases h2 : s.month = none <;> simp [h1, h2]
  set s' := dayNewDay d s0 with hs'
  have e' : s' = { s0 with
      days := if s0.day = none then s0.days
              else fun c => if s0.detect c = true then s0.days c + 1 else s0.days c
      day := some d
      detect := fun _ => false } := by
    rw [hs', dayNewDay, if_neg (by rw [h0d]; exact hd)]
  have hD : DInv k mean sdev m d prev s' := by
    refine ⟨by rw [e']; exact h0m, by rw [e'], by rw [e']; exact h0t, ?_⟩
    intro hk c
    rw [e']
    show s0.last c = _
    rw [h0l]; exact hs.last hk c
  have hstep : dayStep k mean sdev s f = dayStep k mean sdev s' f := by
    unfold dayStep
    rw [hfm, hfd, ← hs0, ← hs']
    have : dayNewMonth k mean sdev m s' = s' := by rw [dayNewMonth, if_pos hD.month]
    rw [this, dayNewDay, if_pos hD.day]
  have hfold : s1 = (f :: l).foldl (dayStep k mean sdev) s' := by
    show (f :: l).foldl (dayStep k mean sdev) s = _
    rw [List.foldl_cons, List.foldl_cons, hstep]
  obtain ⟨i1, i2, i3, i4⟩ := foldl_day (f :: l) prev s' hD hday
  rw [← hfold] at i1 i2 i3 i4
  have hor : ((f :: l).getLast?.or prev) = (f :: l).getLast? := by
    simp [List.getLast?_cons]
  rw [hor] at i1
  refine ⟨⟨?_, i1.last, ?_⟩, i1.month, i1.day, ?_, ?_, ?_⟩
  · intro m' hm'
    rw [i1.month, Option.some.injEq] at hm'
    subst hm'; exact i1.thr
  · intro h; rw [i1.day] at h; simp at h
  · rw [i2, e']; exact h0out
  · intro c
    rw [i3, e']
    show (if s0.day = none then s0.days
              else fun c => if s0.detect c = true then s0.days c + 1 else s0.days c) c = _
    by_cases hn : s.day = none
    · rw [h0d, if_pos hn, h0days, hs.none hn c]; simp
    · rw [h0d, if_neg hn, h0e, h0days]
      by_cases hx : s.detect c = true <;> simp [hx]
  · intro c
    rw [i4 c, e']
    simp

theorem flags_length (k : Kind) (mean sdev : Fin 12 → ι → Option K) (c : ι)
    (ds : List (List (Frame ι K))) : ∀ prev, (flags k mean sdev c prev ds).length = ds.length := by
  induction ds with
  | nil => intro prev; rfl
  | cons d ds ih => intro prev; simp [flags, ih]

theorem flags_append (k : Kind) (mean sdev : Fin 12 → ι → Option K) (c : ι)
    (as bs : List (List (Frame ι K))) (ha : ∀ d ∈ as, d ≠ []) : ∀ prev,
    flags k mean sdev c prev (as ++ bs) = flags k mean sdev c prev as ++
      flags k mean sdev c (as.flatten.getLast?.or prev) bs := by
  induction as with
  | nil => intro prev; simp [flags]
  | cons d as ih =>
    intro prev
    have hd : d ≠ [] := ha d (by simp)
    simp only [List.cons_append, flags, List.cons.injEq, true_and]
    rw [ih (fun e he => ha e (by simp [he]))]
    congr 2
    rw [List.flatten_cons, List.getLast?_append, List.getLast?_eq_some_getLast hd]
    cases as.flatten.getLast? <;> simp

theorem foldl_days {k : Kind} {mean sdev : Fin 12 → ι → Option K} {m : Fin 12}
    (ds : List (List (Frame ι K))) : ∀ (prev : Option (Frame ι K)) (s : Days ι K),
    BInv k mean sdev prev s → s.month = some m →
    (∀ d ∈ ds, d ≠ []) → (∀ d ∈ ds, ∀ f ∈ d, f.month = m) →
    (∀ d ∈ ds, ∀ f ∈ d, ∀ g ∈ d, f.day = g.day) →
    ds.IsChain (fun a b => ∀ f ∈ a, ∀ g ∈ b, f.day ≠ g.day) →
    (∀ d ∈ ds.head?, ∀ f ∈ d, s.day ≠ some f.day) →
    let s1 := ds.flatten.foldl (dayStep k mean sdev) s
    BInv k mean sdev (ds.flatten.getLast?.or prev) s1 ∧ s1.month = some m ∧ s1.out = s.out ∧
    (∀ d ∈ ds.getLast?, ∀ f ∈ d, s1.day = some f.day) ∧ (ds = [] → s1.day = s.day) ∧
    ∀ c, s1.days c = s.days c +
      ((s.detect c :: flags k mean sdev c prev ds).take ds.length).count true ∧
      some (s1.detect c) = (s.detect c :: flags k mean sdev c prev ds)[ds.length]? := by
  induction ds with
  | nil =>
    intro prev s hs hm _ _ _ _ _
    refine ⟨by simpa using hs, hm, rfl, by simp, by simp, ?_⟩
    intro c; simp [flags]
  | cons day ds ih =>
    intro prev s hs hm hne hmo hda hch hhd
    have hdne := hne day (by simp)
    obtain ⟨f, hf⟩ := List.exists_mem_of_ne_nil _ hdne
    have hfold := foldl_new_day (k := k) (mean := mean) (sdev := sdev) (m := m) (d := f.day)
      day hdne (fun g hg => ⟨hmo day (by simp) g hg, hda day (by simp) g hg f hf⟩) prev s hs
      (hhd day (by simp) f hf)
    obtain ⟨b1, b2, b3, b4, b5, b6⟩ := hfold
    set t := day.foldl (dayStep k mean sdev) s with ht
    rw [List.isChain_cons] at hch
    have hhd' : ∀ d ∈ ds.head?, ∀ g ∈ d, t.day ≠ some g.day := by
      intro d hd g hg
      rw [b3]
      simp only [ne_eq, Option.some.injEq]
      exact hch.1 d hd f hf g hg
    obtain ⟨c1, c2, c3, c4, c5, c6⟩ := ih day.getLast? t b1 b2 (fun d hd => hne d (by simp [hd]))
      (fun d hd => hmo d (by simp [hd])) (fun d hd => hda d (by simp [hd])) hch.2 hhd'
    intro s1
    have hs1 : s1 = ds.flatten.foldl (dayStep k mean sdev) t := by
      show (day :: ds).flatten.foldl (dayStep k mean sdev) s = _
      rw [List.flatten_cons, List.foldl_append]
    rw [hs1]
    refine ⟨?_, c2, ?_, ?_, by simp, ?_⟩
    · have : ((day :: ds).flatten.getLast?.or prev) = ds.flatten.getLast?.or day.getLast? := by
        rw [List.flatten_cons, List.getLast?_append, List.getLast?_eq_some_getLast hdne]
        cases ds.flatten.getLast? <;> simp
      rw [this]; exact c1
    · rw [c3, b4]; simp [hm]
    · intro d hd g hg
      cases ds with
      | nil =>
        simp only [List.getLast?_singleton, Option.mem_def, Option.some.injEq] at hd
        subst hd
        rw [c5 rfl, b3, hda _ (by simp) g hg f hf]
      | cons e es =>
        exact c4 d (by simpa [List.getLast?_cons] using hd) g hg
    · intro c
      obtain ⟨e1, e2⟩ := c6 c
      have hx : t.detect c = @decide (Occurs k mean sdev prev day c) (Classical.propDecidable _) := by
        rw [Bool.eq_iff_iff, b6 c]; simp
      rw [hx] at e1 e2
      constructor
      · rw [e1, b5 c]
        simp only [hm, if_true, flags, List.length_cons, List.take_succ_cons, List.count_cons]
        by_cases h1 : s.detect c = true <;> simp [h1] <;> omega
      · rw [e2]; simp [flags]

/-- The counts that are written, if `L` are the marks of the days that are ended within the
months `ms`. -/
def countsOf (L : List Bool) : List (List (List (Frame ι K))) → List ℕ
  | [] => []
  | mo :: ms => (L.take mo.length).count true :: countsOf (L.drop mo.length) ms

theorem countsOf_get (ms : List (List (List (Frame ι K)))) : ∀ (L : List Bool) (j : ℕ)
    (hj : j < ms.length), (countsOf L ms)[j]? =
      some (((L.drop (daysBefore ms j)).take ms[j].length).count true) := by
  induction ms with
  | nil => intro L j hj; simp at hj
  | cons mo ms ih =>
    intro L j hj
    cases j with
    | zero => simp [countsOf, daysBefore]
    | succ j =>
      have := ih (L.drop mo.length) j (by simpa using hj)
      simp only [countsOf, List.getElem?_cons_succ, this, List.drop_drop, List.getElem_cons_succ]
      simp [daysBefore]

theorem countsOf_length (ms : List (List (List (Frame ι K)))) : ∀ (L : List Bool),
    (countsOf L ms).length = ms.length := by
  induction ms with
  | nil => intro L; rfl
  | cons mo ms ih => intro L; simp [countsOf, ih]

theorem calendar_tail {mo : List (List (Frame ι K))} {ms : List (List (List (Frame ι K)))}
    (h : Calendar (mo :: ms)) : Calendar ms := by
  refine ⟨fun x hx => h.month_ne x (by simp [hx]), fun d hd => h.day_ne d (by simp [hd]),
    fun x hx => h.month x (by simp [hx]), fun d hd => h.day d (by simp [hd]), ?_, ?_⟩
  · exact (List.isChain_cons.1 h.next_month).2
  · have := h.next_day
    rw [List.flatten_cons] at this
    exact this.right_of_append

/-- All months. -/
theorem foldl_months {k : Kind} {mean sdev : Fin 12 → ι → Option K}
    (ms : List (List (List (Frame ι K)))) : ∀ (prev : Option (Frame ι K)) (s : Days ι K),
    Calendar ms → BInv k mean sdev prev s →
    (∀ d ∈ ms.flatten.head?, ∀ f ∈ d, s.day ≠ some f.day) →
    (∀ mo ∈ ms.head?, ∀ f ∈ mo.flatten, s.month ≠ some f.month) →
    ∀ c, let s1 := ms.flatten.flatten.foldl (dayStep k mean sdev) s
      (s1.out ++ [s1.days]).map (fun g => g c) =
        (if ms = [] then s.out ++ [s.days]
          else if s.month = none then s.out else s.out ++ [s.days]).map (fun g => g c) ++
        countsOf (s.detect c :: flags k mean sdev c prev ms.flatten) ms := by
  induction ms with
  | nil => intro prev s _ _ _ _ c; simp [countsOf]
  | cons mo ms ih =>
    intro prev s hcal hs hday hmon c
    have hmone := hcal.month_ne mo (by simp)
    obtain ⟨day, ds, rfl⟩ := List.exists_cons_of_ne_nil hmone
    have hdne := hcal.day_ne day (by simp)
    obtain ⟨f, hf⟩ := List.exists_mem_of_ne_nil _ hdne
    have hmeq : ∀ g ∈ (day :: ds).flatten, g.month = f.month :=
      fun g hg => hcal.month _ (by simp) g hg f (by simp [hf])
    have hfold := foldl_new_day (k := k) (mean := mean) (sdev := sdev) (m := f.month)
      (d := f.day) day hdne
      (fun g hg => ⟨hmeq g (by simp [hg]), hcal.day day (by simp) g hg f hf⟩) prev s hs
      (hday day (by simp) f hf)
    obtain ⟨b1, b2, b3, b4, b5, b6⟩ := hfold
    set t := day.foldl (dayStep k mean sdev) s with ht
    have hfl : (((day :: ds) :: ms).flatten) = day :: (ds ++ ms.flatten) := by simp
    have hch := hcal.next_day
    rw [hfl, List.isChain_cons] at hch
    have hne' : ∀ d ∈ ds, d ≠ [] := fun d hd => hcal.day_ne d (by simp [hd])
    have hhd' : ∀ d ∈ ds.head?, ∀ g ∈ d, t.day ≠ some g.day := by
      intro d hd g hg
      rw [b3]
      simp only [ne_eq, Option.some.injEq]
      refine hch.1 d ?_ f hf g hg
      rw [List.head?_append, hd]; simp
    obtain ⟨c1, c2, c3, c4, c5, c6⟩ := foldl_days (k := k) (mean := mean) (sdev := sdev)
      (m := f.month) ds day.getLast? t b1 b2 hne'
      (fun d hd g hg => hmeq g (by
        rw [List.mem_flatten]; exact ⟨d, by simp [hd], hg⟩))
      (fun d hd => hcal.day d (by simp [hd])) hch.2.left_of_append hhd'
    set u := ds.flatten.foldl (dayStep k mean sdev) t with hu
    have hprev : ds.flatten.getLast?.or day.getLast? = ((day :: ds).flatten.getLast?.or prev) := by
      rw [List.flatten_cons, List.getLast?_append, List.getLast?_eq_some_getLast hdne]
      cases ds.flatten.getLast? <;> simp
    rw [hprev] at c1
    have huday : ∀ d ∈ (day :: ds).getLast?, ∀ g ∈ d, u.day = some g.day := by
      intro d hd g hg
      cases ds with
      | nil =>
        simp only [List.getLast?_singleton, Option.mem_def, Option.some.injEq] at hd
        subst hd
        rw [c5 rfl, b3, hcal.day _ (by simp) g hg f hf]
      | cons e es =>
        exact c4 d (by simpa [List.getLast?_cons] using hd) g hg
    have hIH := ih ((day :: ds).flatten.getLast?.or prev) u (calendar_tail hcal) c1 ?_ ?_ c
    · intro s1
      have hs1 : s1 = ms.flatten.flatten.foldl (dayStep k mean sdev) u := by
        show ((day :: ds) :: ms).flatten.flatten.foldl (dayStep k mean sdev) s = _
        rw [hfl, List.flatten_cons, List.foldl_append, List.flatten_append, List.foldl_append]
      rw [hs1, hIH]
      obtain ⟨e1, e2⟩ := c6 c
      have hx : t.detect c = @decide (Occurs k mean sdev prev day c) (Classical.propDecidable _) := by
        rw [Bool.eq_iff_iff, b6 c]; simp
      have hsm : s.month ≠ some f.month := hmon (day :: ds) (by simp) f (by simp [hf])
      have huo : u.out = if s.month = none then s.out else s.out ++ [s.days] := by
        rw [c3, b4]; simp [hsm]
      have hud : u.days c = ((s.detect c :: flags k mean sdev c prev (day :: ds)).take
          (day :: ds).length).count true := by
        rw [e1, b5 c, hx]
        simp only [hsm, if_false, flags, List.length_cons, List.take_succ_cons, List.count_cons]
        by_cases h1 : s.detect c = true <;> simp [h1] <;> omega
      have hflags : flags k mean sdev c prev ((day :: ds) :: ms).flatten
          = flags k mean sdev c prev (day :: ds) ++
            flags k mean sdev c ((day :: ds).flatten.getLast?.or prev) ms.flatten := by
        rw [List.flatten_cons]
        exact flags_append k mean sdev c _ _
          (fun d hd => hcal.day_ne d (by
            rw [List.flatten_cons]; exact List.mem_append_left _ hd)) prev
      have hlen : (flags k mean sdev c prev (day :: ds)).length = (day :: ds).length :=
        flags_length k mean sdev c _ prev
      have hdrop : (s.detect c :: flags k mean sdev c prev ((day :: ds) :: ms).flatten).drop
          (day :: ds).length = u.detect c ::
            flags k mean sdev c ((day :: ds).flatten.getLast?.or prev) ms.flatten := by
        have hget : some (u.detect c)
            = (s.detect c :: flags k mean sdev c prev (day :: ds))[(day :: ds).length]? := by
          rw [e2, hx]; simp [flags]
        rw [hflags, ← List.cons_append]
        have hl2 : (s.detect c :: flags k mean sdev c prev (day :: ds)).length
            = (day :: ds).length + 1 := by simp [hlen]
        rw [List.drop_append_of_le_length (by omega)]
        have : (s.detect c :: flags k mean sdev c prev (day :: ds)).drop (day :: ds).length
            = [u.detect c] := by
          rw [List.drop_eq_getElem_cons (by omega)]
          have hge := List.getElem?_eq_some_iff.1 hget.symm
          obtain ⟨h1, h2⟩ := hge
          rw [h2, List.drop_eq_nil_of_le (by omega)]
        rw [this]; rfl
      have htake : ((s.detect c :: flags k mean sdev c prev ((day :: ds) :: ms).flatten).take
          (day :: ds).length) = ((s.detect c :: flags k mean sdev c prev (day :: ds)).take
            (day :: ds).length) := by
        rw [hflags, ← List.cons_append, List.take_append_of_le_length]
        simp [hlen]
      rw [countsOf, hdrop, htake, ← hud]
      have hum : u.month ≠ none := by rw [c2]; simp
      simp only [hum, if_false, ite_self, List.map_append, huo, List.map_cons, List.map_nil,
        List.cons_ne_nil]
      simp
    · intro d hd g hg
      obtain ⟨a, as, has⟩ : ∃ a as, (day :: ds) = as ++ [a] :=
        ⟨(day :: ds).getLast (by simp), (day :: ds).dropLast,
          (List.dropLast_append_getLast (by simp)).symm⟩
      have hane : a ≠ [] := hcal.day_ne a (by rw [List.flatten_cons, has]; simp)
      obtain ⟨x, hxa⟩ := List.exists_mem_of_ne_nil _ hane
      rw [huday a (by rw [has]; simp) x hxa]
      simp only [ne_eq, Option.some.injEq]
      have hc2 := hcal.next_day
      rw [List.flatten_cons, List.isChain_append] at hc2
      exact hc2.2.2 a (by rw [has]; simp) d hd x hxa g hg
    · intro mo' hmo' g hg
      rw [c2]
      simp only [ne_eq, Option.some.injEq]
      have := (List.isChain_cons.1 hcal.next_month).1 mo' hmo' f (by simp [hf]) g hg
      exact this

/-! ## The grids that are written -/

/-- The seven conditions and what they stand for; any other condition is refused. -/
theorem kindOf_ok_iff (cond : String) (k : Kind) : kindOf cond = .ok k ↔
    (cond, k) ∈ [("low_discharge", Kind.low), ("high_discharge", .high), ("flooding", .flood),
      ("low_rainrate", .low), ("high_rainrate", .high), ("incr_discharge", .incr),
      ("decr_discharge", .decr)] := by
  by_cases h : conditionMap.lookup cond = none
  · have e : kindOf cond = .error "KeyError" := by rw [kindOf, if_pos h]
    rw [e]
    simp only [reduceCtorEq, false_iff]
    intro hm
    simp only [List.mem_cons, Prod.mk.injEq, List.not_mem_nil, or_false] at hm
    revert h
    rcases hm with ⟨rfl, rfl⟩ | ⟨rfl, rfl⟩ | ⟨rfl, rfl⟩ | ⟨rfl, rfl⟩ | ⟨rfl, rfl⟩ | ⟨rfl, rfl⟩ |
      ⟨rfl, rfl⟩ <;> decide +kernel
  · have hc : cond ∈ ["low_discharge", "high_discharge", "flooding", "low_rainrate",
        "high_rainrate", "incr_discharge", "decr_discharge"] := by
      by_contra hn
      apply h
      simp only [List.mem_cons, List.not_mem_nil, or_false, not_or] at hn
      obtain ⟨h1, h2, h3, h4, h5, h6, h7⟩ := hn
      simp [conditionMap, List.lookup, beq_eq_false_iff_ne.2 h1, beq_eq_false_iff_ne.2 h2,
        beq_eq_false_iff_ne.2 h3, beq_eq_false_iff_ne.2 h4, beq_eq_false_iff_ne.2 h5,
        beq_eq_false_iff_ne.2 h6, beq_eq_false_iff_ne.2 h7]
    simp only [List.mem_cons, List.not_mem_nil, or_false] at hc
    rcases hc with rfl | rfl | rfl | rfl | rfl | rfl | rfl <;> cases k <;> decide +kernel

/-- **C174.** For every calendar of grids, every condition and every cell: one grid of day
counts is written for each month, and the count for month `j` is the number of days with the
condition among the last day of the month before and all but the last day of month `j`. -/
theorem C174_counts_partial [Nonempty ι] {cond : String} {k : Kind} (hk : kindOf cond = .ok k)
    {mean sdev : Fin 12 → ι → Option K} {ms : List (List (List (Frame ι K)))}
    (hcal : Calendar ms) (hms : ms ≠ []) :
    ∃ out, dayCounts cond mean sdev ms.flatten.flatten = .ok out ∧ out.length = ms.length ∧
    ∀ (j : ℕ) (hj : j < ms.length) (c : ι), (out[j]?).map (fun g => g c) =
      some ((((false :: flags k mean sdev c none ms.flatten).drop (daysBefore ms j)).take
        ms[j].length).count true) := by
  set s1 := ms.flatten.flatten.foldl (dayStep k mean sdev) daysInit with hs1
  have hB : BInv k mean sdev none (daysInit : Days ι K) :=
    ⟨by intro m h; simp [daysInit] at h, by intro _ c; simp [daysInit], by intro _ c; rfl⟩
  have hmain : ∀ c, (s1.out ++ [s1.days]).map (fun g => g c) =
      countsOf (false :: flags k mean sdev c none ms.flatten) ms := by
    intro c
    have := foldl_months (k := k) (mean := mean) (sdev := sdev) ms none daysInit hcal hB
      (by intro d _ f _; simp [daysInit]) (by intro d _ f _; simp [daysInit]) c
    rw [← hs1] at this
    simpa [hms, daysInit] using this
  refine ⟨s1.out ++ [s1.days], by simp [dayCounts, hk, hs1], ?_, ?_⟩
  · obtain ⟨c⟩ := (inferInstance : Nonempty ι)
    have := congrArg List.length (hmain c)
    rwa [countsOf_length, List.length_map] at this
  · intro j hj c
    rw [← List.getElem?_map, hmain c]
    exact countsOf_get ms _ j hj

theorem count_shift (a b : Bool) (l : List Bool) :
    (a :: l).count true = (l ++ [b]).count true ↔ a = b := by
  rw [List.count_cons, List.count_append]
  cases a <;> cases b <;> simp

/-- **C174.** The count for month `j` is the number of days of that month with the condition
exactly when the last day of the month and the last day of the month before agree (`false`
before the first month). -/
theorem C174_correct_iff {cond : String} {k : Kind} (hk : kindOf cond = .ok k)
    {mean sdev : Fin 12 → ι → Option K} {ms : List (List (List (Frame ι K)))}
    (hcal : Calendar ms) {out : List (ι → ℕ)}
    (hout : dayCounts cond mean sdev ms.flatten.flatten = .ok out)
    (j : ℕ) (hj : j < ms.length) (c : ι) :
    ((out[j]?).map (fun g => g c) = some ((((flags k mean sdev c none ms.flatten).drop
        (daysBefore ms j)).take ms[j].length).count true)) ↔
      (false :: flags k mean sdev c none ms.flatten)[daysBefore ms j]? =
        (false :: flags k mean sdev c none ms.flatten)[daysBefore ms j + ms[j].length]? := by
  have hms : ms ≠ [] := by rintro rfl; simp at hj
  have : Nonempty ι := ⟨c⟩
  obtain ⟨out', h1, -, h3⟩ := C174_counts_partial hk (mean := mean) (sdev := sdev) hcal hms
  rw [hout, Except.ok.injEq] at h1
  subst h1
  rw [h3 j hj c, Option.some.injEq]
  set F := flags k mean sdev c none ms.flatten with hF
  have hFl : F.length = ms.flatten.length := flags_length _ _ _ _ _ _
  have hlen : daysBefore ms j + ms[j].length ≤ F.length := by
    rw [hFl, List.length_flatten]
    have e : ms = ms.take j ++ ms[j] :: ms.drop (j + 1) := by
      rw [← List.drop_eq_getElem_cons hj, List.take_append_drop]
    have e2 : (ms.map List.length).sum = ((ms.take j ++ ms[j] :: ms.drop (j + 1)).map
        List.length).sum := by rw [← e]
    rw [e2, List.map_append, List.sum_append, List.map_cons, List.sum_cons]
    simp only [daysBefore]
    omega
  have hpos : 0 < ms[j].length := List.length_pos_of_ne_nil (hcal.month_ne _ (List.getElem_mem hj))
  set a := daysBefore ms j
  set n := ms[j].length
  -- both windows share the days `a .. a + n - 2`
  obtain ⟨n', hn'⟩ : ∃ n', n = n' + 1 := ⟨n - 1, by omega⟩
  have hL : (((false :: F).drop a).take n) = (false :: F)[a]'(by simp; omega) ::
      (F.drop a).take n' := by
    rw [hn', List.drop_eq_getElem_cons (by simp; omega), List.take_succ_cons, List.drop_succ_cons]
  have hR : ((F.drop a).take n) = (F.drop a).take n' ++ [F[a + n']'(by omega)] := by
    rw [hn', List.take_succ_eq_append_getElem (by simp; omega)]
    simp
  rw [hL, hR, count_shift]
  rw [List.getElem?_eq_getElem (by simp; omega), List.getElem?_eq_getElem (by simp; omega),
    Option.some.injEq]
  have : (false :: F)[a + n]'(by simp; omega) = F[a + n']'(by omega) := by
    simp only [hn', ← add_assoc, List.getElem_cons_succ]
  rw [this]

end

/-- The last days of January and the first days of February, 0.5 m deep on January 31 only. -/
def exCal : List (List (List (Frame (Fin 1) ℚ))) :=
  [[[⟨0, 30, ![0]⟩], [⟨0, 31, ![1/2]⟩, ⟨0, 31, ![0]⟩]], [[⟨1, 1, ![0]⟩], [⟨1, 2, ![0]⟩]]]

theorem exCal_calendar : Calendar exCal := by
  refine ⟨?_, ?_, ?_, ?_, ?_, ?_⟩
  · decide +kernel
  · decide +kernel
  · decide +kernel
  · decide +kernel
  · simp only [exCal, List.isChain_cons_cons, List.isChain_singleton, and_true]
    decide +kernel
  · simp only [exCal, List.flatten_cons, List.flatten_nil, List.append_nil, List.cons_append,
      List.nil_append, List.isChain_cons_cons, List.isChain_singleton, and_true]
    decide +kernel

/-- **C174.** The flood of January 31 is reported for February. -/
theorem C174_counts_violated :
    ∃ out, dayCounts "flooding" (fun _ _ => none) (fun _ _ => none) exCal.flatten.flatten
      = .ok out ∧ out.map (fun g => g 0) = [0, 1] ∧
      flags .flood (fun _ _ => none) (fun _ _ => none) 0 none exCal.flatten
        = [false, true, false, false] := by
  refine ⟨_, rfl, by decide +kernel, ?_⟩
  simp only [exCal, List.flatten_cons, List.flatten_nil, List.append_nil, List.cons_append,
    List.nil_append, flags, List.cons.injEq, decide_eq_true_eq, decide_eq_false_iff_not, and_true]
  refine ⟨?_, ?_, ?_, ?_⟩
  · rintro ⟨a, f, b, h, hM⟩
    have : f ∈ [(⟨0, 30, ![0]⟩ : Frame (Fin 1) ℚ)] := by rw [h]; simp
    simp only [List.mem_singleton] at this; subst this
    revert hM; simp [Meets]
  · exact ⟨[], _, [⟨0, 31, ![0]⟩], rfl, by simp only [Meets]; norm_num⟩
  · rintro ⟨a, f, b, h, hM⟩
    have : f ∈ [(⟨1, 1, ![0]⟩ : Frame (Fin 1) ℚ)] := by rw [h]; simp
    simp only [List.mem_singleton] at this; subst this
    revert hM; simp [Meets]
  · rintro ⟨a, f, b, h, hM⟩
    have : f ∈ [(⟨1, 2, ![0]⟩ : Frame (Fin 1) ℚ)] := by rw [h]; simp
    simp only [List.mem_singleton] at this; subst this
    revert hM; simp [Meets]

example : Calendar exCal ∧ exCal ≠ [] ∧ kindOf "flooding" = .ok .flood :=
  ⟨exCal_calendar, by simp [exCal], by decide +kernel⟩

/-! ## Conditions relative to the statistics of the same file -/

section
variable {ι : Type*}

/-- **C175.** For a grid that is not from the month of the last grid, low and high mean below
and above the average of the visits' means minus and plus the average of their standard
deviations. -/
theorem C175_threshold_partial {fs : List (Frame ι ℝ)} {o : StatOut ι ℝ}
    (h : stats Real.sqrt fs = .ok o) {vs : List (List (Frame ι ℝ))} (hv : Visits vs fs)
    (prev : Option (Frame ι ℝ)) (f : Frame ι ℝ) (hf : f ∈ fs)
    (hm : ∀ g ∈ fs.getLast?, g.month ≠ f.month) (c : ι) :
    (Meets .low o.mean o.sdev prev f c ↔ f.grid c <
      ((visitsOf f.month vs).map (fun v => visitMean v c)).sum / (visitsOf f.month vs).length -
      ((visitsOf f.month vs).map (fun v => visitSdev v c)).sum / (visitsOf f.month vs).length) ∧
    (Meets .high o.mean o.sdev prev f c ↔
      ((visitsOf f.month vs).map (fun v => visitMean v c)).sum / (visitsOf f.month vs).length +
      ((visitsOf f.month vs).map (fun v => visitSdev v c)).sum / (visitsOf f.month vs).length
        < f.grid c) := by
  have hn : visitsOf f.month vs ≠ [] := by
    rw [← hv.1] at hf
    obtain ⟨v, hv1, hv2⟩ := List.mem_flatten.1 hf
    apply List.ne_nil_of_mem (a := v)
    refine List.mem_filter.2 ⟨hv1, ?_⟩
    simp only [List.any_eq_true, decide_eq_true_eq]
    exact ⟨f, hv2, rfl⟩
  have h1 := (C173_mean_partial h hv f.month hm c).1 hn
  have h2 := C173_sdev_partial h hv f.month hm hn c
  simp [Meets, h1, h2]

/-- **C175.** If the month of the last grid occurs only once (every file of less than a year),
then no grid of that month is ever found low or high, whatever its values. -/
theorem C175_last_month_violated {fs : List (Frame ι ℝ)} {o : StatOut ι ℝ}
    (h : stats Real.sqrt fs = .ok o) {vs : List (List (Frame ι ℝ))} (hv : Visits vs fs)
    (m : Fin 12) (hm : ∃ f ∈ fs.getLast?, f.month = m) (h1 : (visitsOf m vs).length = 1)
    (prev : Option (Frame ι ℝ)) (f : Frame ι ℝ) (hf : f.month = m) (c : ι) :
    ¬ Meets .low o.mean o.sdev prev f c ∧ ¬ Meets .high o.mean o.sdev prev f c := by
  have := ((C173_last_month_violated h hv m hm c).1 h1).1
  subst hf
  simp [Meets, this]

example : ∃ (fs : List (Frame (Fin 1) ℝ)) (o : StatOut (Fin 1) ℝ) (vs : _),
    stats Real.sqrt fs = .ok o ∧ Visits vs fs ∧ (∃ f ∈ fs.getLast?, f.month = 0) ∧
    (visitsOf 0 vs).length = 1 := by
  refine ⟨[⟨0, 1, ![1]⟩, ⟨0, 2, ![9]⟩], _, [[⟨0, 1, ![1]⟩, ⟨0, 2, ![9]⟩]], rfl,
    ⟨rfl, ?_, by simp⟩, ⟨⟨0, 2, ![9]⟩, by simp, rfl⟩, by simp [visitsOf]⟩
  intro v hv
  simp only [List.mem_singleton] at hv
  subst hv
  refine ⟨by simp, ?_⟩
  intro f hf g hg
  simp at hf hg
  rcases hf with rfl | rfl <;> rcases hg with rfl | rfl <;> rfl

end

/-! ## Affected population -/

section
variable {ι K : Type*} [Field K] [LinearOrder K]

/-- **C176.** One grid is written for each month; in each cell it holds the population of the
cell (0 for nodata, that is negative, cells) if the count of that month is at least one, and 0
otherwise. -/
theorem C176_affected (pop : ι → K) (counts : List (ι → ℕ)) :
    (affected pop counts).length = counts.length ∧
    ∀ (j : ℕ) (n : ι → ℕ), counts[j]? = some n → ∃ g, (affected pop counts)[j]? = some g ∧
      ∀ c, (1 ≤ n c → 0 ≤ pop c → g c = pop c) ∧ (1 ≤ n c → pop c < 0 → g c = 0) ∧
        (n c = 0 → g c = 0) := by
  refine ⟨by simp [affected], ?_⟩
  intro j n hn
  refine ⟨_, by simp [affected, List.getElem?_map, hn]; rfl, ?_⟩
  intro c
  refine ⟨?_, ?_, ?_⟩
  · intro h1 h2
    simp [show n c > 0 from h1, not_lt.2 h2]
  · intro h1 h2
    simp [show n c > 0 from h1, h2]
  · intro h1; simp [h1]

/-- **C176.** With the counts of two conditions, one never above the other, the affected
population of the first is never larger; and it never exceeds the population. -/
theorem C176_monotone (pop : ι → K) (a b : ι → ℕ) (h : ∀ c, a c ≤ b c) :
    ∀ g ∈ affected pop [a], ∀ g' ∈ affected pop [b], ∀ c,
      0 ≤ g c ∧ g c ≤ g' c ∧ g' c ≤ max (pop c) 0 := by
  intro g hg g' hg' c
  simp only [affected, List.map_cons, List.map_nil, List.mem_singleton] at hg hg'
  subst hg hg'
  have := h c
  by_cases h1 : pop c < 0
  · simp [h1]
  · have hp := not_lt.1 h1
    by_cases h2 : a c > 0
    · simp [h1, h2, show b c > 0 by omega, hp]
    · by_cases h3 : b c > 0 <;> simp [h1, h2, h3, hp]

end

example : affected ![(3 : ℚ), -9999, 5] [![1, 2, 0]] = [![3, 0, 0]] := by
  simp only [affected, List.map_cons, List.map_nil, List.cons.injEq, and_true]
  funext c
  fin_cases c <;> simp <;> norm_num

end Indicator
