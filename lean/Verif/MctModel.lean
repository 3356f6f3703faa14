import Mathlib.Algebra.Order.Ring.Defs
import Verif.TimeUtilsModel

/-!
# Multi-column text files (topoflow/utils/mct_files.py)

A file is the list of the lines `readline` hands out; each still carries its line end.  `parse` is
the conversion of one text to the requested numpy type (`none`: ValueError).  Messages are left out.
-/

set_option autoImplicit false

namespace Mct

open TimeUtils (Text splitOn parseNat)

/-- `count_lines`, mct_files.py:55-94: the number of all lines, blank ones too (93). -/
def countLines (file : List Text) : ℕ := file.length

section
variable {V : Type}

/-- The loop of `read_column`, mct_files.py:117-124, from row `k` on. -/
def readLoop (nLines : ℕ) (delim : Char) (col : ℕ) (parse : Text → Option V) :
    ℕ → List Text → Except String (List V)
  | _, [] => .ok []
  | k, line :: rest =>
    match (splitOn delim line)[col]? with
    | none => .error "IndexError"
    | some w =>
      match parse w with
      | none => .error "ValueError"
      | some v =>
        if k < nLines then
          match readLoop nLines delim col parse (k + 1) rest with
          | .error e => .error e
          | .ok vs => .ok (v :: vs)
        else .error "IndexError"

/-- `read_column` with `REPORT=False`, mct_files.py:98-134, for a delimiter of one character and a
column number that is not negative; `nLines` is the attribute that `count_lines` sets. -/
def readColumn (nLines : Option ℕ) (file : List Text) (col skip : ℕ) (delim : Char)
    (parse : Text → Option V) : Except String (List V) :=
  match nLines with
  | none => .error "AttributeError"
  | some n => readLoop n delim col parse 0 (file.drop skip)

end

/-- The conversion with `DATETIME=True`, mct_files.py:110-111: texts of at most 19 characters. -/
def datetimeOf (w : Text) : Option Text := some (w.take 19)

section
variable {K : Type} [AddCommMonoid K] [LinearOrder K]

/-- The variables of `find_wettest_month`, mct_files.py:146-150 and 157-160. -/
structure St (K : Type) where
  lastMonth : Option Text
  lastYear : Text
  minYear : ℕ
  sums : ℕ → ℕ → K
  rainSum : K
  yi : ℕ
  mi : ℕ

/-- The values at the start, mct_files.py:146-150. -/
def init : St K :=
  { lastMonth := none
    lastYear := []
    minYear := 0
    sums := fun _ _ => 0
    rainSum := 0
    yi := 0
    mi := 0 }

/-- The rest of one turn of the loop, mct_files.py:161-180. -/
def turn (done : Bool) (y m : Text) (rate : K) (s : St K) : Except String (St K) :=
  let newMonth := s.lastMonth ≠ some m ∨ done = true
  let newYear := s.lastYear ≠ y ∨ done = true
  if newMonth ∧ 20 ≤ s.yi then .error "IndexError"
  else
    let s1 : St K :=
      if newMonth then
        { s with
          sums := fun a b => if a = s.yi ∧ b = s.mi then s.rainSum else s.sums a b
          mi := (s.mi + 1) % 12
          lastMonth := some m
          rainSum := 0 }
      else s
    let s2 : St K := if newYear then { s1 with yi := s1.yi + 1, lastYear := y } else s1
    .ok { s2 with rainSum := s2.rainSum + rate }

/-- One turn of the loop, mct_files.py:152-180. -/
def step (done : Bool) (s : St K) (row : Text × K) : Except String (St K) :=
  match splitOn '-' (row.1.take 10) with
  | [y, m, _] =>
    match s.lastMonth with
    | some _ => turn done y m row.2 s
    | none =>
      match parseNat y with
      | .error e => .error e
      | .ok n => turn done y m row.2 { s with lastMonth := some m, lastYear := y, minYear := n }
  | _ => .error "ValueError"

/-- The loop, mct_files.py:152-180; `done` in the last turn. -/
def loop : St K → List (Text × K) → Except String (St K)
  | s, [] => .ok s
  | s, [r] => step true s r
  | s, r :: r' :: rest =>
    match step false s r with
    | .error e => .error e
    | .ok s' => loop s' (r' :: rest)

/-- The cells of the table in the order `np.where` lists them.
Used in the model of mct_files.py:185-188. -/
def cells : List (ℕ × ℕ) := (List.range 20).flatMap (fun y => (List.range 12).map (fun m => (y, m)))

/-- `rain_sums.max()` and the first cell that holds it, mct_files.py:185-188. -/
def wettest (sums : ℕ → ℕ → K) : K × Option (ℕ × ℕ) :=
  let rmax := (cells.map (fun c => sums c.1 c.2)).foldl max (sums 0 0)
  (rmax, cells.find? (fun c => sums c.1 c.2 == rmax))

/-- `find_wettest_month`, mct_files.py:138-192, from the two columns on: the year, the month and the
sum that are printed.  Without any data line `min_year` is not defined. -/
def findWettest (rows : List (Text × K)) : Except String (ℕ × ℕ × K) :=
  match loop init rows with
  | .error e => .error e
  | .ok s =>
    if rows = [] then .error "UnboundLocalError"
    else
      match wettest s.sums with
      | (rmax, some (y, m)) => .ok (y + s.minYear, m + 1, rmax)
      | (_, none) => .error "IndexError"

end

end Mct
