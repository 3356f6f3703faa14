import Verif.InfilCheckModel
import Verif.D8IdProps
import Mathlib.Data.Fintype.Card
import Mathlib.Data.Fintype.Prod
import Mathlib.Data.Finset.Card

/-!
# C271: a run stops at the first infiltration rate that is not a number
-/

set_option autoImplicit false
set_option linter.unusedSectionVars false

namespace InfilCheckSpec

open D8 (Cell)
open FloatGrid (Fl)
open InfilCheck (Rates)

variable {K : Type} {ny nx : ℕ}

/-- A value that is no finite number: NaN or an infinity. -/
def Bad (x : Fl K) : Prop := x = .nan ∨ x = .pinf ∨ x = .ninf

/-- Some infiltration rate is no finite number. -/
def HasBad : Rates K ny nx → Prop
  | .scalar x => Bad x
  | .grid g => ∃ c, Bad (g c)

open Classical in
/-- The number of rates that are no finite numbers. -/
noncomputable def countBad : Rates K ny nx → ℕ
  | .scalar x => if Bad x then 1 else 0
  | .grid g => (Finset.univ.filter (fun c : Fin ny × Fin nx => Bad (g c))).card

end InfilCheckSpec

namespace InfilCheck

open D8 (Cell)
open FloatGrid (Fl)
open InfilCheckSpec

variable {K : Type} {ny nx : ℕ}

theorem isFinite_iff (x : Fl K) : isFinite x = false ↔ Bad x := by
  cases x <;> simp [isFinite, Bad]

theorem isFinite_true_iff (x : Fl K) : isFinite x = true ↔ ¬ Bad x := by
  rw [← isFinite_iff]; simp

theorem hasBad_iff (r : Rates K ny nx) : HasBad r ↔ ∃ x ∈ r.elems, Bad x := by
  cases r with
  | scalar x => simp [HasBad, Rates.elems]
  | grid g =>
    simp only [HasBad, Rates.elems, List.mem_map]
    constructor
    · rintro ⟨c, h⟩; exact ⟨g c, ⟨c, D8.mem_allCells c, rfl⟩, h⟩
    · rintro ⟨_, ⟨c, _, rfl⟩, h⟩; exact ⟨c, h⟩

theorem count_eq (r : Rates K ny nx) :
    (r.elems.filter (fun x => !isFinite x)).length = countBad r := by
  classical
  cases r with
  | scalar x =>
    by_cases h : Bad x
    · have h' := (isFinite_iff x).2 h
      simp [Rates.elems, countBad, h, h']
    · have h' := (isFinite_true_iff x).2 h
      simp [Rates.elems, countBad, h, h']
  | grid g =>
    simp only [Rates.elems, countBad, List.filter_map, List.length_map]
    have hnd : ((D8.allCells ny nx).filter ((fun x => !isFinite x) ∘ g)).Nodup :=
      D8.allCells_nodup.filter _
    rw [← List.toFinset_card_of_nodup hnd]
    congr 1
    ext c
    simp only [List.mem_toFinset, List.mem_filter, Finset.mem_filter, Finset.mem_univ, true_and,
      Function.comp, D8.mem_allCells c]
    rw [← isFinite_iff]
    simp

theorem hasBad_count (r : Rates K ny nx) : HasBad r ↔ countBad r ≠ 0 := by
  rw [← count_eq, hasBad_iff, ne_eq, List.length_eq_zero_iff, List.filter_eq_nil_iff]
  push Not
  constructor
  · rintro ⟨x, h, hb⟩
    exact ⟨x, h, by rw [(isFinite_iff x).2 hb]; rfl⟩
  · rintro ⟨x, h, hb⟩
    exact ⟨x, h, (isFinite_iff x).1 (by simpa using hb)⟩

theorem check_good (r : Rates K ny nx) (s : St K ny nx) (h : ¬ HasBad r) :
    checkInfiltration r s = s := by
  have hc : countBad r = 0 := by
    by_contra hc; exact h ((hasBad_count r).2 hc)
  have hl := count_eq r
  rw [hc] at hl
  unfold checkInfiltration
  rw [hasBad_iff] at h
  generalize r.elems = l at hl h
  match l with
  | [x] =>
    have hx : isFinite x = true := by
      rw [isFinite_true_iff]; intro hb; exact h ⟨x, by simp, hb⟩
    simp [hx]
  | [] => simp
  | x :: y :: l =>
    dsimp only
    rw [hl]; simp

theorem check_bad (r : Rates K ny nx) (s : St K ny nx) (h : HasBad r) :
    checkInfiltration r s =
      { s with status := "failed", done := true, message := some (countBad r), exited := true } := by
  have hc : countBad r ≠ 0 := (hasBad_count r).1 h
  have hl := count_eq r
  unfold checkInfiltration
  rw [hasBad_iff] at h
  generalize r.elems = l at hl h
  match l with
  | [x] =>
    have hx : isFinite x = false := by
      rw [isFinite_iff]
      obtain ⟨y, hy, hb⟩ := h
      rw [List.mem_singleton] at hy
      exact hy ▸ hb
    have h1 : countBad r = 1 := by rw [← hl]; simp [hx]
    simp [hx, h1]
  | [] => obtain ⟨y, hy, _⟩ := h; simp at hy
  | x :: y :: l =>
    dsimp only
    rw [hl]
    simp [hc]

/-- Missing: the Richards component with its default settings (see `C271_richards_violated`).  An update
of a component that is running completes if all rates are finite numbers: the rates are handed to the
output, the clock goes on, nothing else changes.  Otherwise the process ends, with the status "failed"
and the number of the rates that are not finite; nothing is written and the clock stays. -/
theorem C271_update_partial (richards check debug : Bool) (hc : richards = false ∨ check = true ∨ debug = true)
    (r : Rates K ny nx) (s : St K ny nx) (hs : s.exited = false) :
    (¬ HasBad r → update richards check debug r s =
      { s with status := "updated", timeIndex := s.timeIndex + 1, out := s.out ++ [r] }) ∧
    (HasBad r → update richards check debug r s =
      { s with status := "failed", done := true, message := some (countBad r), exited := true }) := by
  have hcond : (!richards || (check || debug)) = true := by
    rcases hc with h | h | h <;> simp [h]
  constructor
  · intro h
    simp [update, hcond, check_good r _ h, hs]
  · intro h
    simp [update, hcond, check_bad r _ h]

/-- A run of any length: if all rates of all updates are finite numbers, all are written; otherwise the
written rates are exactly those of the updates before the first bad one, and the process ends there. -/
theorem C271_run_partial (richards check debug : Bool)
    (hc : richards = false ∨ check = true ∨ debug = true) (rs : List (Rates K ny nx)) :
    ((∀ r ∈ rs, ¬ HasBad r) →
      (run richards check debug rs initSt).out = rs ∧
      (run richards check debug rs initSt).timeIndex = rs.length ∧
      (run richards check debug rs initSt).exited = false ∧
      (run richards check debug rs initSt).done = false ∧
      (run richards check debug rs initSt).message = none) ∧
    (∀ a b c, rs = a ++ b :: c → (∀ r ∈ a, ¬ HasBad r) → HasBad b →
      (run richards check debug rs initSt).out = a ∧
      (run richards check debug rs initSt).timeIndex = a.length ∧
      (run richards check debug rs initSt).status = "failed" ∧
      (run richards check debug rs initSt).message = some (countBad b) ∧
      (run richards check debug rs initSt).exited = true) := by
  have key : ∀ (a l : List (Rates K ny nx)) (s : St K ny nx), s.exited = false →
      (∀ r ∈ a, ¬ HasBad r) →
      ∃ s' : St K ny nx, s'.exited = false ∧ s'.out = s.out ++ a ∧ s'.timeIndex = s.timeIndex + a.length ∧
        run richards check debug (a ++ l) s = run richards check debug l s' ∧ s'.done = s.done ∧
        s'.message = s.message := by
    intro a
    induction a with
    | nil => intro l s hs _; exact ⟨s, hs, by simp, by simp, rfl, rfl, rfl⟩
    | cons r a ih =>
      intro l s hs ha
      have hu := (C271_update_partial richards check debug hc r s hs).1 (ha r (by simp))
      obtain ⟨s', h1, h2, h3, h4, h5, h6⟩ := ih l (update richards check debug r s) (by rw [hu]; exact hs)
        (fun x hx => ha x (by simp [hx]))
      refine ⟨s', h1, ?_, ?_, ?_, by rw [h5, hu], by rw [h6, hu]⟩
      · rw [h2, hu]; simp
      · rw [h3, hu]; simp; omega
      · rw [← h4, List.cons_append, run]
        rw [if_neg (by rw [hu]; simp [hs])]
  constructor
  · intro h
    obtain ⟨s', h1, h2, h3, h4, h5, h6⟩ := key rs [] initSt rfl h
    rw [List.append_nil] at h4
    rw [h4]
    refine ⟨?_, ?_, h1, h5, h6⟩
    · rw [run, h2]; rfl
    · rw [run, h3]; simp [initSt]
  · rintro a b c rfl ha hb
    obtain ⟨s', h1, h2, h3, h4, _, _⟩ := key a (b :: c) initSt rfl ha
    have hu := (C271_update_partial richards check debug hc b s' h1).2 hb
    rw [h4, run]
    rw [if_pos (by rw [hu]), hu]
    refine ⟨?_, ?_, rfl, rfl, rfl⟩
    · show s'.out = a
      rw [h2]; rfl
    · show s'.timeIndex = a.length
      rw [h3]; simp [initSt]

example : HasBad (.grid (fun c : Cell 2 3 => if c = (1, 2) then Fl.nan else Fl.fin (0 : ℚ))) :=
  ⟨(1, 2), by simp [Bad]⟩

example : ¬ HasBad (.grid (fun _ : Cell 2 3 => Fl.fin (7 : ℚ))) := by
  rintro ⟨c, h⟩; simp [Bad] at h

/-- The Richards component with its defaults (no stability check, no debugging) never stops: whatever the
rates are, NaN included, all of them are written and the run goes on. -/
theorem C271_richards_violated (rs : List (Rates K ny nx)) :
    (run true false false rs initSt).out = rs ∧
    (run true false false rs initSt).exited = false ∧
    (∃ bad : List (Rates ℚ 2 2), (∃ r ∈ bad, HasBad r) ∧
      (run true false false bad initSt).out = bad ∧
      (run true false false bad initSt).status = "updated") := by
  have key : ∀ (a : List (Rates K ny nx)) (s : St K ny nx), s.exited = false →
      (run true false false a s).out = s.out ++ a ∧ (run true false false a s).exited = false := by
    intro a
    induction a with
    | nil => intro s hs; exact ⟨by simp [run], hs⟩
    | cons r a ih =>
      intro s hs
      have hu : update true false false r s =
          { s with status := "updated", timeIndex := s.timeIndex + 1, out := s.out ++ [r] } := by
        simp [update, hs]
      rw [run]
      rw [if_neg (by rw [hu]; simp [hs])]
      have := ih (update true false false r s) (by rw [hu]; exact hs)
      rw [this.1, hu]
      refine ⟨by simp, ?_⟩
      rw [← hu]; exact this.2
  refine ⟨by simpa [initSt] using (key rs initSt rfl).1, (key rs initSt rfl).2,
    [.grid (fun _ => .nan)], ⟨_, List.mem_singleton.2 rfl, (0, 0), Or.inl rfl⟩, rfl, rfl⟩

end InfilCheck
