import Mathlib.Data.List.Lex
import Mathlib.Data.Char
import Mathlib.Data.Rat.Defs
import Mathlib.Algebra.Order.Field.Rat

set_option autoImplicit false

/-!
# Preparing the input files of a run (utils/prepare_inputs.py): the default monitored cell and the part of a forcing file
-/

namespace Prep

/-- The cells in the order in which `np.where` finds them.  Used in the model of prepare_inputs.py:1067. -/
def cells (ny nx : ℕ) : List (ℕ × ℕ) := (List.range ny).flatMap (fun i => (List.range nx).map (fun j => (i, j)))

/-- What `grid_info` holds.  Used in the model of prepare_inputs.py:1116-1132. -/
structure Info where
  fixedAngle : Bool
  west : ℚ
  north : ℚ
  xres : ℚ
  yres : ℚ

/-- What is written to the file of monitored cells (prepare_inputs.py:1135). -/
structure Outlet where
  col : ℕ
  row : ℕ
  area : ℚ
  relief : ℚ
  lon : ℚ
  lat : ℚ

/-- `get_outlets_file` (prepare_inputs.py:1012-1135) for a grid of areas with at least one cell.  A step back
(1082-1102) ends with an error: `argmax` returns a number, and `w[0]` is taken of it. -/
def outletsFile (A : ℕ × ℕ → ℚ) (ny nx : ℕ) (info : Info) (stepBacks : ℕ) : Except String Outlet :=
  match ((cells ny nx).map A).max? with
  | none => .error "ValueError: zero-size array to reduction operation maximum which has no identity"
  | some amax =>
    match (cells ny nx).find? (fun c => decide (A c = amax)) with
    | none => .error "IndexError: index 0 is out of bounds"
    | some (row, col) =>
      if 0 < stepBacks then .error "IndexError: invalid index to scalar variable."
      else
        let lonlat : ℚ × ℚ :=
          if info.fixedAngle then
            let xd := info.xres / 3600
            let yd := info.yres / 3600
            (info.west + xd * col + xd / 2, info.north - yd * row - yd / 2)
          else (-999, -999)
        .ok
          { col := col
            row := row
            area := amax
            relief := -9999
            lon := lonlat.1
            lat := lonlat.2 }

/-- A line of a text file.  Used in the model of prepare_inputs.py:1829-1880. -/
abbrev Line := List Char

/-- The second loop of `subset_ngen_csv_file` (prepare_inputs.py:1860-1874). -/
def untilEnd (e : Line) : List Line → List Line
  | [] => []
  | l :: ls => if e.isPrefixOf l then [] else l :: untilEnd e ls

/-- The first loop of `subset_ngen_csv_file` (prepare_inputs.py:1845-1858) and what follows it. -/
def fromStart (s e : Line) : List Line → List Line
  | [] => []
  | l :: ls => if s.isPrefixOf l then l :: untilEnd e ls else fromStart s e ls

/-- `subset_ngen_csv_file` (prepare_inputs.py:1829-1880), from the lines of the file to the lines written. -/
def subsetCsv (s e header : Line) (lines : List Line) : List Line := header :: fromStart s e lines

end Prep
