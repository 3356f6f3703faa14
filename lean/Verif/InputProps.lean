import Verif.InputModel
import Mathlib.Tactic.Ring
import Mathlib.Tactic.Linarith
import Mathlib.Tactic.FinCases
import Mathlib.Tactic.NormNum
import Mathlib.Algebra.Order.Field.Rat
import Mathlib.Algebra.Field.Rat

/-!
# Time-varying input is read in order and the last value persists (C40)
-/

set_option autoImplicit false
set_option linter.unusedSectionVars false

namespace InputSpec

open D8 (Cell)

variable {ny nx : ℕ} {K : Type*}

/-- A binary file holds the grids `gs` one after the other, each row by row. -/
def Stores (items : List K) (gs : List (Cell ny nx → K)) : Prop :=
  items.length = gs.length * (ny * nx) ∧
  ∀ (k : ℕ) (g : Cell ny nx → K), gs[k]? = some g → ∀ (i : Fin ny) (j : Fin nx),
    items[k * (ny * nx) + (i.val * nx + j.val)]? = some (g (i, j))

/-- A text file holds the numbers `vs`, one per line. -/
def lines (vs : List K) : List (Input.Line K) := vs.map .value

end InputSpec

namespace Input

open D8 (Cell)
open InputSpec

variable {ny nx : ℕ} {K : Type*} [Field K] [LinearOrder K] [IsStrictOrderedRing K]

/-- **C40**, time series: from a file with one number on each of its lines, the `k`-th read delivers
the `k`-th number in the model's units, and after the data are exhausted the last number stays. -/
theorem C40_time_series (vs : List K) (units factor x : K) (k : ℕ) (hk : 0 < k)
    (hne : vs ≠ []) (v : K) (hv : vs[min k vs.length - 1]? = some v) :
    ∃ f, readMany .timeSeries units factor k ((.sc x : Val K ny nx), .text (lines vs))
      = .ok (.sc (v * units * factor), f) := by
  induction vs generalizing x k with
  | nil => exact absurd rfl hne
  | cons a vs ih =>
    obtain ⟨k, rfl⟩ : ∃ j, k = j + 1 := ⟨k - 1, by omega⟩
    have e : readVar .timeSeries units factor ((.sc x : Val K ny nx), .text (lines (a :: vs)))
        = .ok (.sc (a * units * factor), .text (lines vs)) := rfl
    simp only [readMany, e]
    cases vs with
    | nil =>
      have hv' : a = v := by simpa using hv
      subst hv'
      refine ⟨.text [], ?_⟩
      clear ih hv hk e
      induction k with
      | zero => rfl
      | succ k ih2 => simpa [readMany, readVar, readNext, readScalar, updateVar, lines] using ih2
    | cons b vs =>
      cases k with
      | zero =>
        have hv' : a = v := by simpa using hv
        subst hv'
        exact ⟨_, rfl⟩
      | succ k =>
        refine ih _ (k + 1) (by omega) (by simp) ?_
        have : min (k + 1 + 1) (a :: b :: vs).length - 1 = min (k + 1) (b :: vs).length - 1 + 1 := by
          simp only [List.length_cons]; omega
        rw [this] at hv
        simpa using hv

example : readMany .timeSeries (1/2 : ℚ) 3 5 ((.sc 0 : Val ℚ 2 2), .text (lines [4, 6, 8]))
    = .ok (.sc 12, .text []) := by
  simp [readMany, readVar, readNext, readScalar, updateVar, lines, Val.scale]
  norm_num

/-- **C40**: a blank line is read as "no new value", so the value in force stays. -/
theorem C40_blank_line (ls : List (Line K)) (units factor : K) (x : Val K ny nx) :
    readVar .timeSeries units factor (x, .text (.blank :: ls)) = .ok (x, .text ls) := rfl

/-- **C40**: a line that is not a number stops the run. -/
theorem C40_bad_line (ls : List (Line K)) (units factor : K) (x : Val K ny nx) :
    ∃ e, readVar .timeSeries units factor (x, .text (.bad :: ls)) = .error e := ⟨_, rfl⟩

theorem stores_tail {items : List K} {g : Cell ny nx → K} {gs : List (Cell ny nx → K)}
    (h : Stores items (g :: gs)) : Stores (items.drop (ny * nx)) gs := by
  obtain ⟨h1, h2⟩ := h
  refine ⟨?_, ?_⟩
  · rw [List.length_drop, h1, List.length_cons, Nat.add_mul]; omega
  · intro k g' hk i j
    rw [List.getElem?_drop]
    have := h2 (k + 1) g' (by simpa using hk) i j
    rw [← this]
    congr 1
    ring

theorem readGrid_stores {items : List K} {g : Cell ny nx → K} {gs : List (Cell ny nx → K)}
    (hp : 0 < ny * nx) (h : Stores items (g :: gs)) :
    readGrid ny nx items = .ok (some g, items.drop (ny * nx)) := by
  have hlen : (items.take (ny * nx)).length = ny * nx := by
    rw [List.length_take, h.1, List.length_cons, Nat.add_mul, Nat.one_mul]; omega
  unfold readGrid
  simp only [hlen]
  rw [if_neg (by omega), dif_pos trivial]
  congr 3
  funext c
  have := h.2 0 g (by simp) c.1 c.2
  rw [Nat.zero_mul, Nat.zero_add] at this
  have hlt : c.1.val * nx + c.2.val < ny * nx :=
    calc c.1.val * nx + c.2.val < c.1.val * nx + nx := by have := c.2.2; omega
      _ = (c.1.val + 1) * nx := by rw [Nat.add_mul, Nat.one_mul]
      _ ≤ ny * nx := Nat.mul_le_mul_right _ c.1.2
  rw [← List.getElem?_take_of_lt hlt, List.getElem?_eq_getElem (by omega)] at this
  simpa using Option.some.inj this

theorem readGrid_nil : readGrid ny nx ([] : List K) = .ok (none, []) := by simp [readGrid]

/-- **C40**, grids: from a binary file that holds a sequence of grids, the `k`-th read delivers the
`k`-th grid in the model's units, cell by cell, and after the data are exhausted the last grid stays. -/
theorem C40_grid_sequence (ty : VarType) (hty : ty = .grid ∨ ty = .gridSequence) (hp : 0 < ny * nx)
    (items : List K) (gs : List (Cell ny nx → K)) (hs : Stores items gs) (units factor : K)
    (x : Cell ny nx → K) (k : ℕ) (hk : 0 < k) (hne : gs ≠ [])
    (g : Cell ny nx → K) (hg : gs[min k gs.length - 1]? = some g) :
    ∃ f, readMany ty units factor k ((.gr x : Val K ny nx), .binary items)
      = .ok (.gr (fun c => g c * units * factor), f) := by
  induction gs generalizing x k items with
  | nil => exact absurd rfl hne
  | cons a gs ih =>
    obtain ⟨k, rfl⟩ : ∃ j, k = j + 1 := ⟨k - 1, by omega⟩
    have e : readVar ty units factor ((.gr x : Val K ny nx), .binary items)
        = .ok (.gr (fun c => a c * units * factor), .binary (items.drop (ny * nx))) := by
      rcases hty with rfl | rfl <;>
      · simp only [readVar, readNext, readGrid_stores hp hs, Option.map_some, updateVar, Val.scale]
        rfl
    have hs' := stores_tail hs
    simp only [readMany, e]
    cases gs with
    | nil =>
      have hv' : a = g := by simpa using hg
      subst hv'
      have hnil : items.drop (ny * nx) = [] := by
        have := hs'.1
        simp only [List.length_nil, Nat.zero_mul] at this
        exact List.eq_nil_of_length_eq_zero this
      rw [hnil]
      refine ⟨.binary [], ?_⟩
      clear ih hg hk e
      induction k with
      | zero => rfl
      | succ k ih2 =>
        have : readVar ty units factor ((.gr (fun c => a c * units * factor) : Val K ny nx),
            .binary []) = .ok (.gr (fun c => a c * units * factor), .binary []) := by
          rcases hty with rfl | rfl <;> simp [readVar, readNext, readGrid_nil, updateVar]
        simp only [readMany, this]
        exact ih2
    | cons b gs =>
      cases k with
      | zero =>
        have hv' : a = g := by simpa using hg
        subst hv'
        exact ⟨_, rfl⟩
      | succ k =>
        refine ih _ hs' _ (k + 1) (by omega) (by simp) ?_
        have : min (k + 1 + 1) (a :: b :: gs).length - 1
            = min (k + 1) (b :: gs).length - 1 + 1 := by
          simp only [List.length_cons]; omega
        rw [this] at hg
        simpa using hg

example : Stores (ny := 1) (nx := 2) [(1 : ℚ), 2, 3, 4] [fun c => 1 + c.2.val, fun c => 3 + c.2.val] := by
  refine ⟨rfl, ?_⟩
  intro k g hk i j
  match k with
  | 0 =>
    simp only [List.getElem?_cons_zero, Option.some.injEq] at hk; subst hk
    fin_cases i; fin_cases j <;> norm_num
  | 1 =>
    simp only [List.getElem?_cons_succ, List.getElem?_cons_zero, Option.some.injEq] at hk; subst hk
    fin_cases i; fin_cases j <;> norm_num
  | k + 2 => simp at hk

/-- **C40**: a file that ends in the middle of a grid stops the run when that grid is read. -/
theorem C40_truncated (ty : VarType) (hty : ty = .grid ∨ ty = .gridSequence)
    (items : List K) (units factor : K) (x : Val K ny nx)
    (h0 : 0 < items.length) (h1 : items.length < ny * nx) :
    ∃ e, readVar ty units factor (x, .binary items) = .error e := by
  have e : readGrid ny nx items = .error "ValueError" := by
    unfold readGrid
    have : items.take (ny * nx) = items := List.take_of_length_le h1.le
    simp only [this]
    rw [if_neg (by omega), dif_neg (by omega)]
  refine ⟨"ValueError", ?_⟩
  rcases hty with rfl | rfl <;> simp [readVar, readNext, e]

/-- **C40**: an input given as a number in the CFG file is never changed by reading. -/
theorem C40_scalar (units factor : K) (x : Val K ny nx) (f : File K) (k : ℕ) :
    readMany .scalar units factor k (x, f) = .ok (x, f) := by
  induction k with
  | zero => rfl
  | succ k ih => simpa [readMany, readVar, readNext, updateVar] using ih

end Input
