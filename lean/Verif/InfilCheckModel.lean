import Verif.FloatGridModel

/-!
# The check of the infiltration rates

topoflow/components/infil_base.py:906-950, as called by the `update` of the infiltration components.
The rates that an update computes are inputs here (they are modelled in InfilModel and RichardsModel,
over the reals): the check is about the values that are not real numbers.
-/

set_option autoImplicit false

namespace InfilCheck

open D8 (Cell)
open FloatGrid (Fl)

variable {K : Type} {ny nx : ℕ}

/-- `IN` is a numpy scalar or a numpy grid.  Used in the model of infil_base.py:906-950. -/
inductive Rates (K : Type) (ny nx : ℕ)
  | scalar (x : Fl K)
  | grid (g : Cell ny nx → Fl K)

/-- The elements of the array, row by row.  Used in the model of infil_base.py:906-950. -/
def Rates.elems : Rates K ny nx → List (Fl K)
  | .scalar x => [x]
  | .grid g => (D8.allCells ny nx).map g

/-- `np.isfinite(x)`.  Used in the model of infil_base.py:919-925. -/
def isFinite : Fl K → Bool
  | .fin _ => true
  | _ => false

/-- The attributes of the component that matter here; `out` is the series of rates that
`write_output_files` was given (each call is one entry, whatever the user saves of it) and `exited` says
that `SystemExit` was raised.  Used in the model of infil_base.py:301-356. -/
structure St (K : Type) (ny nx : ℕ) where
  status : String
  done : Bool
  timeIndex : ℕ
  out : List (Rates K ny nx)
  message : Option ℕ
  exited : Bool

/-- `check_infiltration`, infil_base.py:906-950; `message` is the number that is printed. -/
def checkInfiltration (r : Rates K ny nx) (s : St K ny nx) : St K ny nx :=
  let (ok, nbad) :=
    match r.elems with
    | [x] => (isFinite x, 1)
    | l =>
      let nbad := (l.filter (fun x => !isFinite x)).length
      (decide (nbad = 0), nbad)
  if ok then s
  else { s with status := "failed", done := true, message := some nbad, exited := true }

/-- `update`, infil_base.py:301-356 (`richards` false: Green-Ampt, Smith-Parlange, Beven) and
infil_richards_1D.py:931-1049, given the rates it computes.  An exit ends the update at once. -/
def update (richards checkStability debug : Bool) (r : Rates K ny nx) (s : St K ny nx) : St K ny nx :=
  let s := { s with status := "updating" }
  let s := if !richards || (checkStability || debug) then checkInfiltration r s else s
  if s.exited then s
  else { s with out := s.out ++ [r], timeIndex := s.timeIndex + 1, status := "updated" }

/-- The updates of a run, for the rates that they compute; `SystemExit` is caught by nobody
(EMELI's `run_model`, emeli.py:890-1110, has no handler), so the run ends with it.  Built on the model of
infil_base.py:301-356. -/
def run (richards checkStability debug : Bool) : List (Rates K ny nx) → St K ny nx → St K ny nx
  | [], s => s
  | r :: l, s =>
    let s := update richards checkStability debug r s
    if s.exited then s else run richards checkStability debug l s

/-- The state after `initialize`, infil_base.py:261-298; `CHECK_STABILITY` is False unless the
configuration file sets it (infil_base.py:157). -/
def initSt : St K ny nx :=
  { status := "initialized", done := false, timeIndex := 0, out := [], message := none, exited := false }

end InfilCheck
