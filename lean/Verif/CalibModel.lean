import Verif.FilesModel
import Mathlib.Analysis.SpecialFunctions.Pow.Real

/-!
# Calibration (topoflow/utils/calibrate.py)

`calibrate()` varies one channel parameter: it makes a backup of an input grid, and for each
parameter value overwrites the grid, runs the model, finds the newest output file, reads it and
compares it with the observations; at the end it restores the grid and keeps the value with the
smallest cost.

A model run together with the reading of its output and the cost function is an argument
(`run k content`: the k-th run with the given input grid); it may raise an error at any time.
Parameter values and costs are real numbers (the code uses float32 and float64); a cost that is not
a number is `none`.
-/

set_option autoImplicit false

noncomputable section

namespace Calib

/-! ## The search -/

/-- `get_parameter_values`, calibrate.py:817-833. -/
def paramValues (vmin vmax : ℝ) (n : ℕ) : List ℝ :=
  if n = 1 ∨ vmin = vmax then [vmin]
  else (List.range n).map fun (k : ℕ) => (vmax - vmin) * ((k : ℝ) / ((n : ℝ) - 1)) + vmin

/-- The input grid file and its backup (`backup_input_file`, `restore_input_file`,
calibrate.py:699-737). -/
structure Disk (α : Type*) where
  input : α
  backup : Option α

/-- What the loop keeps (`min_cost`, `best_index`, `costs`, calibrate.py:882, 902, 941-947). -/
structure Search where
  minCost : ℝ
  best : Option ℕ
  costs : List (Option ℝ)

/-- One comparison (calibrate.py:944-946): `cost < min_cost` is false if the cost is not a number. -/
def Search.add (s : Search) (k : ℕ) (c : Option ℝ) : Search :=
  match c with
  | some x => if x < s.minCost then ⟨x, some k, s.costs ++ [c]⟩ else ⟨s.minCost, s.best, s.costs ++ [c]⟩
  | none => ⟨s.minCost, s.best, s.costs ++ [c]⟩

variable {α : Type*}

/-- The loop over the parameter values (calibrate.py:909-961): the content of the input file after
it, and the result or the error that ended it.  `n` is the size of the array of costs. -/
def loop (mk : ℝ → α) (run : ℕ → α → Except String (Option ℝ)) (n : ℕ) :
    List ℝ → ℕ → α → Search → α × Except String Search
  | [], _, inp, s => (inp, .ok s)
  | p :: ps, k, _, s =>
    match run k (mk p) with
    | .error e => (mk p, .error e)
    | .ok c =>
      if n ≤ k then (mk p, .error "IndexError")
      else loop mk run n ps (k + 1) (mk p) (s.add k c)

/-- `self.params`, `self.costs`, `self.best_param`.  Used in the model of calibrate.py:835-985. -/
structure Saved where
  params : List ℝ
  costs : List (Option ℝ)
  best : Option ℝ

/-- What a call leaves behind: the files, the saved results and the error raised.
Used in the model of calibrate.py:835-985. -/
structure Outcome (α : Type*) where
  files : Disk α
  saved : Option Saved
  raised : Option String

/-- `calibrate`, calibrate.py:835-985.  `known` says whether the name of the varied parameter is
one of the four that are supported; `costs` is an array of zeros of size `n` to begin with.  The
report at the end uses the name `cal`, which is not defined (980-982). -/
def calibrate (known silent : Bool) (mk : ℝ → α) (run : ℕ → α → Except String (Option ℝ))
    (vmin vmax : ℝ) (n : ℕ) (f : Disk α) : Outcome α :=
  if !known then ⟨f, none, none⟩
  else
    let orig := f.input
    let ps := paramValues vmin vmax n
    match loop mk run n ps 0 orig ⟨1000000, none, []⟩ with
    | (inp, .error e) => ⟨⟨inp, some orig⟩, none, some e⟩
    | (_, .ok s) =>
      let restored : Disk α := ⟨orig, some orig⟩
      match s.best with
      | none => ⟨restored, none, some "UnboundLocalError: best_index"⟩
      | some b =>
        ⟨restored, some ⟨ps, s.costs ++ List.replicate (n - s.costs.length) (some 0), ps[b]?⟩,
          if silent then none else some "NameError: cal"⟩

/-- The contents of the two files at every point of a call where it may be interrupted: at the start,
after the backup, after each overwriting of the input (all of them, also those that are not reached
because a run fails), at the end.  Built on the model of calibrate.py:835-985. -/
def crashPoints (mk : ℝ → α) (run : ℕ → α → Except String (Option ℝ))
    (vmin vmax : ℝ) (n : ℕ) (f : Disk α) : List (Disk α) :=
  f :: ⟨f.input, some f.input⟩ ::
    ((paramValues vmin vmax n).map fun p => ⟨mk p, some f.input⟩) ++
    [(calibrate true true mk run vmin vmax n f).files]

/-! ## Cost -/

/-- `Lp_norm`, calibrate.py:1207-1216: the difference of two arrays of different sizes is an error, and
`1.0/p` is one for `p = 0`.  Simplified: an array of size one is not spread over a longer one.  For `p > 0`
and `p = 0`; for `p < 0` numpy computes with infinities, see `costNeg`. -/
def lpNorm (p : ℝ) (x y : List ℝ) : Option ℝ :=
  if x.length = y.length then
    (if p = 0 then none else some (((List.zipWith (fun a b => |a - b| ^ p) x y).sum) ^ (1 / p)))
  else none

/-- `compute_cost` with cost function `Lp_norm`, calibrate.py:779-815: the longer series is cut. -/
def computeCost (p : ℝ) (obs sim : List ℝ) : Option ℝ :=
  if obs.length ≠ sim.length then
    (if obs.length < sim.length then lpNorm p obs (sim.take obs.length)
     else lpNorm p (obs.take sim.length) sim)
  else lpNorm p obs sim

/-- `Lp_norm` for `p < 0`, calibrate.py:1207-1216, with the infinities of numpy: zero to a negative power
is infinite, infinity to a negative power is zero; both only give warnings. -/
def lpNeg (p : ℝ) (x y : List ℝ) : WithTop ℝ :=
  match (List.zipWith (fun a b => if |a - b| = 0 then (⊤ : WithTop ℝ) else ((|a - b| ^ p : ℝ) : WithTop ℝ)) x y).sum with
  | ⊤ => ((0 : ℝ) : WithTop ℝ)
  | (d : ℝ) => if d = 0 then ⊤ else ((d ^ (1 / p) : ℝ) : WithTop ℝ)

/-- `compute_cost` with cost function `Lp_norm` and `p < 0`, calibrate.py:779-815. -/
def costNeg (p : ℝ) (obs sim : List ℝ) : WithTop ℝ :=
  if obs.length ≠ sim.length then
    (if obs.length < sim.length then lpNeg p obs (sim.take obs.length)
     else lpNeg p (obs.take sim.length) sim)
  else lpNeg p obs sim

/-! ## The newest output file -/

open Files (Name)

/-- `'_0D-Q'`.  Used in the model of calibrate.py:1044-1051. -/
def sep : Name := ['_', '0', 'D', '-', 'Q']

/-- What follows the first occurrence of `'_0D-Q'`.  Used in the model of calibrate.py:1044-1051. -/
def afterSep : Name → Option Name
  | [] => none
  | c :: r => if sep.isPrefixOf (c :: r) then some ((c :: r).drop 5) else afterSep r

/-- What precedes the first occurrence of `'_0D-Q'` (everything, if there is none).
Used in the model of calibrate.py:1044-1051. -/
def beforeSep : Name → Name
  | [] => []
  | c :: r => if sep.isPrefixOf (c :: r) then [] else c :: beforeSep r

/-- `s.replace('.txt', '')`.  Used in the model of calibrate.py:1044-1051. -/
def removeTxt : Name → Name
  | '.' :: 't' :: 'x' :: 't' :: r => removeTxt r
  | c :: r => c :: removeTxt r
  | [] => []

/-- `int(s)`.  Simplified: only plain digits are accepted (Python also takes a sign, surrounding
blanks and underscores).
Used in the model of calibrate.py:1044-1051. -/
def parseNat (s : Name) : Option ℕ :=
  if s ≠ [] ∧ s.all Char.isDigit = true then some (Nat.ofDigitChars 10 s 0) else none

/-- The number of an output file (calibrate.py:1044-1051): `none` if `int()` fails. -/
def fileNumber (name : Name) : Option ℕ :=
  match afterSep name with
  | none => none
  | some r =>
    let numstr := (removeTxt (beforeSep r)).filter (· ≠ '_')
    if numstr ≠ [] then parseNat numstr else some 0

/-- `update_sim_data_file`, calibrate.py:1022-1060, for the files in the output directory (`glob`
keeps the names that start with `stem_0D-Q`; `stem` is the directory and the prefix).  The state is
the largest number so far and its file. -/
def newestLoop : List Name → Option (ℕ × Name) → Except String (Option (ℕ × Name))
  | [], t => .ok t
  | f :: fs, t =>
    if ".txt".toList.isSuffixOf f then
      match fileNumber f with
      | none => .error "ValueError"
      | some num =>
        match t with
        | none => newestLoop fs (some (num, f))
        | some (m, _) => newestLoop fs (if m < num then some (num, f) else t)
    else newestLoop fs t

/-- See `newestLoop`.  Built on the model of calibrate.py:1022-1060. -/
def newest (stem : Name) (listing : List Name) : Except String Name :=
  match newestLoop (listing.filter fun f => (stem ++ sep).isPrefixOf f) none with
  | .error e => .error e
  | .ok none => .error "UnboundLocalError: target"
  | .ok (some (_, f)) => .ok f

end Calib
