import Mathlib.Logic.Function.Basic
import Mathlib.Order.Basic
import Mathlib.Order.Defs.LinearOrder
import Mathlib.Data.Int.Notation

/-!
# Model of `heap_base` (`topoflow/utils/heap_base.py:149-367`)

The arrays `heap` and `IDs` are always written together at the same index, so they are modelled
as one array of pairs `a : ℕ → K × ℤ` (1-based, as in the code).  Values are elements of an
arbitrary linear order (finite floats); a non-finite value is `none`.
-/

namespace Heap
variable {K : Type*} [LinearOrder K]

/-- `self.size`, `self.n`, `self.nmax`, `self.heap`, `self.IDs`.
Used in the model of heap_base.py:152-174. -/
structure St (K : Type*) where
  size : ℕ
  n : ℕ
  nmax : ℕ
  a : ℕ → K × ℤ

/-- `initialize(nx, ny)` (heap_base.py:152-174); `zero` is the initial content of the arrays. -/
def init (zero : K) (nx ny : ℕ) : St K :=
  { size := 500 * (nx + ny) + 1, n := 0, nmax := 0, a := fun _ => (zero, 0) }

/-- Outcome of a call: the state after it, and whether an exception was raised.
Used in the model of heap_base.py:178-275. -/
inductive Result (K : Type*)
  | ok (s : St K)
  | raised (s : St K)

/-- `insert(x, ID)` as executed by Python 3 (heap_base.py:178-275): for a finite `x`, `n` and
`nmax` are updated and then `self.heap[i / 2]` is evaluated; `i / 2` is a float in Python 3 and
indexing with it raises `IndexError` before anything is stored. -/
def insertPy3 (s : St K) (x : Option K) (_ID : ℤ) : Result K :=
  match x with
  | none => .ok s
  | some _ => .raised { s with n := s.n + 1, nmax := max s.nmax (s.n + 1) }

/-- The `while` loop of `insert` with `i / 2` read as integer division (the meaning it has in
Python 2 and in the IDL original), followed by the final store (heap_base.py:250-275). -/
def siftUp (a : ℕ → K × ℤ) (x : K × ℤ) (i : ℕ) : ℕ → K × ℤ :=
  if h : x.1 < (a (i / 2)).1 ∧ 1 < i then
    siftUp (Function.update a i (a (i / 2))) x (i / 2)
  else Function.update a i x
termination_by i
decreasing_by omega

/-- `insert` with integer division (heap_base.py:178-275).  Storing past the end of the array
raises `IndexError`; `n` and `nmax` have been incremented by then. -/
def insert (s : St K) (x : Option K) (ID : ℤ) : Result K :=
  match x with
  | none => .ok s
  | some x =>
    let n := s.n + 1
    if n < s.size then
      .ok { s with n := n, nmax := max s.nmax n, a := siftUp s.a (x, ID) n }
    else .raised { s with n := n, nmax := max s.nmax n }

/-- The `while` loop of `get_min` and the final store (heap_base.py:335-361); `y` is
`(heap_last, last_ID)`, `n` the already decremented size. -/
def siftDown (n : ℕ) (a : ℕ → K × ℤ) (y : K × ℤ) (i : ℕ) : ℕ → K × ℤ :=
  if h : 1 ≤ i ∧ i * 2 ≤ n then
    let child := if i * 2 ≠ n ∧ (a (i * 2 + 1)).1 < (a (i * 2)).1 then i * 2 + 1 else i * 2
    if (a child).1 < y.1 then siftDown n (Function.update a i (a child)) y child
    else Function.update a i y
  else Function.update a i y
termination_by n - i
decreasing_by
  split_ifs <;> omega

/-- `get_min_ID()` followed by `get_min()` (heap_base.py:279-363): returns `(heap[1], IDs[1])`
and the new state.  The code has no check for an empty heap; calls with `n = 0` are not modelled
(`none`). -/
def getMin (s : St K) : Option ((K × ℤ) × St K) :=
  if s.n = 0 then none
  else
    let y := s.a s.n
    let n := s.n - 1
    some (s.a 1, { s with n := n, a := siftDown n s.a y 1 })

end Heap
