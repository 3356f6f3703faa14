import Verif.RtiModel

/-!
# Text tables: files of monitored cells and text time series

Models `write_outlet_file`, `read_outlet_file`, `check_outlet_IDs` of
`topoflow/utils/outlets.py` and `write_header`, `add_values`, `values_at_IDs` of
`topoflow/utils/text_ts_files.py` at the level of characters.

Simplifications: numbers are exact rationals; `np.float64(word)` is modelled on plain decimal
numbers with an optional minus sign (Python accepts more spellings); the length of the printed
number is not bounded; `np.float32` is the identity.
-/

set_option autoImplicit false

namespace Table

/-- Used in the model of outlets.py:133-136. -/
abbrev Text := List Char

/-- `'%.kf' % q` for `k ≥ 1`: correctly rounded decimal with `k` digits after the point.
Used in the model of outlets.py:32. -/
def fmtFix (k : ℕ) (q : ℚ) : Text :=
  let n := Rti.roundHalfEven (|q| * 10 ^ k)
  (if q < 0 then ['-'] else []) ++ Nat.toDigits 10 (n / 10 ^ k) ++ ['.'] ++
    Rti.fracDigits k (n % 10 ^ k)

/-- `'%i' % n`.  Used in the model of outlets.py:32. -/
def fmtInt (n : ℤ) : Text := (if n < 0 then ['-'] else []) ++ Nat.toDigits 10 n.natAbs

/-- `s.rjust(w)`, and the padding of a `%w` format: blanks on the left, never cut.
Used in the model of outlets.py:32. -/
def rjust (w : ℕ) (s : Text) : Text := List.replicate (w - s.length) ' ' ++ s

/-- `line.split()`: the words between white space; `acc` is the word being read, reversed.
Used in the model of outlets.py:129-138. -/
def wordsAux : Text → Text → List Text
  | acc, [] => if acc.isEmpty then [] else [acc.reverse]
  | acc, c :: t =>
    if Rti.isWs c then
      (if acc.isEmpty then wordsAux [] t else acc.reverse :: wordsAux [] t)
    else wordsAux (c :: acc) t

/-- `line.split()`.  Used in the model of outlets.py:129-138. -/
def words (s : Text) : List Text := wordsAux [] s

/-- Unsigned number, with or without decimal point.  Used in the model of outlets.py:133-136. -/
def parseAbs (s : Text) : Except String ℚ :=
  if '.' ∈ s then Rti.parseUnsigned s
  else match Rti.parseNat s with
    | .ok n => .ok n
    | .error e => .error e

/-- `np.float64(word)` (outlets.py:133-136), on plain decimal numbers. -/
def parseReal : Text → Except String ℚ
  | '-' :: t =>
    match parseAbs t with
    | .ok q => .ok (-q)
    | .error e => .error e
  | t => parseAbs t

/-- `np.int64(x)`: truncation towards zero.  Used in the model of outlets.py:129-138. -/
def trunc (q : ℚ) : ℤ := if q < 0 then -⌊-q⌋ else ⌊q⌋

/-! ## Files of monitored cells -/

/-- The line of values, `format2` (outlets.py:32, 47). -/
def outletLine (col row : ℤ) (area relief lon lat : ℚ) : Text :=
  rjust 10 (fmtInt col) ++ rjust 10 (fmtInt row) ++ rjust 16 (fmtFix 2 area) ++
    rjust 16 (fmtFix 2 relief) ++ rjust 16 (fmtFix 8 lon) ++ rjust 16 (fmtFix 8 lat)

/-- The lines written by `write_outlet_file` (outlets.py:31-55). -/
def outletLines (col row : ℤ) (area relief lon lat : ℚ) : List Text :=
  [ List.replicate 60 '-',
    " Monitored Grid Cell (Outlet) Information".toList,
    List.replicate 86 '-',
    rjust 10 "Column".toList ++ rjust 10 "Row".toList ++ rjust 16 "Area [km^2]".toList ++
      rjust 16 "Relief [m]".toList ++ rjust 16 "Lon [deg]".toList ++ rjust 16 "Lat [deg]".toList,
    List.replicate 86 '-',
    outletLine col row area relief lon lat ]

/-- The file written by `write_outlet_file` (outlets.py:25-55). -/
def writeOutlet (col row : ℤ) (area relief lon lat : ℚ) : Text :=
  (outletLines col row area relief lon lat).flatMap (fun l => l ++ ['\n'])

/-- One monitored cell, as read.  Used in the model of outlets.py:31-55. -/
structure Outlet where
  col : ℤ
  row : ℤ
  area : ℚ
  relief : ℚ
deriving DecidableEq

/-- The loop over the lines (outlets.py:129-138): lines with fewer than four words are skipped,
a word that is not a number raises `ValueError`. -/
def readRows : List Text → Except String (List Outlet)
  | [] => .ok []
  | l :: ls =>
    match words l with
    | w0 :: w1 :: w2 :: w3 :: _ =>
      match parseReal w0, parseReal w1, parseReal w2, parseReal w3 with
      | .ok c, .ok r, .ok a, .ok h =>
        match readRows ls with
        | .ok os => .ok (⟨trunc c, trunc r, a, h⟩ :: os)
        | .error e => .error e
      | _, _, _, _ => .error "ValueError: could not convert string to float"
    | _ => readRows ls

/-- `check_outlet_IDs` (outlets.py:192-213). -/
def checkIDs (ids : List ℤ) (nPixels : ℤ) : Bool :=
  !(ids.any fun i => i < 0 || i > nPixels - 1)

/-- What `read_outlet_file` stores: area and relief of the first basin always; the cells only if
all IDs are in range, otherwise the attributes stay unset (outlets.py:148-186). -/
structure Stored where
  basinArea : ℚ
  basinRelief : ℚ
  cells : Option (List (ℤ × ℤ))
deriving DecidableEq

/-- `read_outlet_file` on the contents of the file, for a grid of `nx` columns and `nPixels`
cells (outlets.py:114-186): five header lines are skipped; an empty list ends in `IndexError`
at `basin_areas[0]`. -/
def readOutlet (nx nPixels : ℤ) (text : Text) : Except String Stored :=
  let lines := (Rti.splitLines [] (Rti.universalNewlines text)).drop 5
  match readRows lines with
  | .error e => .error e
  | .ok [] => .error "IndexError: index 0 is out of bounds"
  | .ok (o :: os) =>
    let all := o :: os
    let ids := all.map fun o => o.row * nx + o.col
    .ok ⟨o.area, o.relief,
      if checkIDs ids nPixels then some (all.map fun o => (o.row, o.col)) else none⟩

/-- Indexing a grid of `ny` rows and `nx` columns with one of the stored cells, `Q[rows, cols]`
(text_ts_files.py:183, and the same in the components): negative indices count from the end,
others out of range raise `IndexError`. -/
def gridAt {α : Type} (ny nx : ℕ) (g : ℤ → ℤ → α) (cell : ℤ × ℤ) : Except String α :=
  let fix (i : ℤ) (n : ℕ) : Option ℤ :=
    if 0 ≤ i ∧ i < n then some i else if -n ≤ i ∧ i < 0 then some (i + n) else none
  match fix cell.1 ny, fix cell.2 nx with
  | some r, some c => .ok (g r c)
  | _, _ => .error "IndexError"

/-! ## Text time series -/

/-- `ustr_map` of `write_header` (text_ts_files.py:126-128). -/
def unitLabel (units : String) : Option String :=
  if units = "minutes" then some "min" else if units = "seconds" then some "sec"
  else if units = "hours" then some "hrs" else if units = "days" then some "days"
  else if units = "months" then some "mon" else if units = "years" then some "yrs" else none

/-- `write_header` (text_ts_files.py:118-145): two lines; `none` for unknown units (KeyError, caught
by the caller, which then reports that the file could not be opened).  `units` is in lower
case already. -/
def headerLines (units : String) (names : List Text) : Option (List Text) :=
  match unitLabel units with
  | none => none
  | some u =>
    some [rjust 15 (("Time [" ++ u ++ "]").toList) ++ names.flatMap (rjust 15),
      List.replicate ((names.length + 1) * 15) '-']

/-- The line written by `add_values` (text_ts_files.py:149-160). -/
def rowLine (time : ℚ) (values : List ℚ) : Text :=
  rjust 20 (rjust 20 (fmtFix 7 time)) ++
    values.flatMap (fun v => rjust 20 (rjust 20 (fmtFix 7 v)))

/-- A variable passed to the output: a scalar or a grid.
Used in the model of text_ts_files.py:170-196. -/
inductive Var where
  | scalar (v : ℚ)
  | grid (g : ℤ → ℤ → ℚ)

/-- `values_at_IDs` (text_ts_files.py:170-196). -/
def valuesAt (ny nx : ℕ) (v : Var) (cells : List (ℤ × ℤ)) : Except String (List ℚ) :=
  match v with
  | .scalar x => .ok (cells.map fun _ => x)
  | .grid g => cells.mapM (gridAt ny nx g)

end Table
