import Mathlib.Order.Bounds.Basic
import Mathlib.Data.Nat.Basic

/-!
# Specification vocabulary for depression filling

Cells are flat IDs; the cell in row `r`, column `c` of a grid with `nx` columns is `r * nx + c`.
-/

namespace FillSpec

/-- `a` and `b` are two of the at most eight neighbours of each other on an `ny × nx` grid. -/
def GridNbr (ny nx : ℕ) (a b : ℕ) : Prop :=
  a < ny * nx ∧ b < ny * nx ∧ a ≠ b ∧
  a / nx ≤ b / nx + 1 ∧ b / nx ≤ a / nx + 1 ∧ a % nx ≤ b % nx + 1 ∧ b % nx ≤ a % nx + 1

/-- `v` can be reached from an outlet, along adjacent cells in which water may stand (`ok`),
without ever having to climb above level `h`. -/
inductive Spills {K : Type*} [LE K] (adj : ℕ → ℕ → Prop) (ok : ℕ → Prop) (outlet : ℕ → Prop)
    (z : ℕ → K) : ℕ → K → Prop
  | outlet {s : ℕ} {h : K} (hs : outlet s) (hz : z s ≤ h) : Spills adj ok outlet z s h
  | step {u v : ℕ} {h : K} (hu : Spills adj ok outlet z u h) (ha : adj u v) (hok : ok v)
      (hz : z v ≤ h) : Spills adj ok outlet z v h

/-- From `v` there is a path of adjacent cells to an outlet along which `z` never increases. -/
inductive DrainsTo {K : Type*} [LE K] (adj : ℕ → ℕ → Prop) (ok : ℕ → Prop)
    (outlet : ℕ → Prop) (z : ℕ → K) : ℕ → Prop
  | outlet {s : ℕ} (hs : outlet s) : DrainsTo adj ok outlet z s
  | step {u v : ℕ} (hu : DrainsTo adj ok outlet z u) (ha : adj u v) (hok : ok v)
      (hz : z u ≤ z v) : DrainsTo adj ok outlet z v

end FillSpec
