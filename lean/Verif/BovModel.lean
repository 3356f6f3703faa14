import Verif.CfgModel
import Mathlib.Algebra.Order.Ring.Rat

/-!
# Headers for visualization beside grid files

Model of `topoflow/utils/bov_files.py` and of the byte order in which
`topoflow/utils/rtg_files.py` writes a grid.  A text is a list of characters.
The coordinates of the corner are given by the text that `str` makes of them.
-/

set_option autoImplicit false

namespace Bov

open Cfg

/-- The two byte orders, of a machine or of a file.  rti_files.py:148-152. -/
inductive Order where
  | little
  | big
deriving DecidableEq, Repr

/-- `sys.byteorder.upper()`.  bov_files.py:30. -/
def Order.upper : Order → Str
  | .little => "LITTLE".toList
  | .big => "BIG".toList

/-- The grid information that is used: numbers of columns and rows, data type,
byte order, cell size in the units of the edges (degrees for a grid with cells of fixed
angle, whose information has arcseconds) and the text of the west and south edges.
rti_files.py:486-514. -/
structure Info where
  ncols : ℕ
  nrows : ℕ
  dataType : Str
  byteOrder : Order
  xres : ℚ
  yres : ℚ
  westEdge : Str
  southEdge : Str

/-- `get_file_prefix`: the text before the last dot; without a dot `rfind`
gives -1 and `file_name[:-1]` drops the last character.  rti_files.py:68-73. -/
def filePrefix (name : Str) : Str :=
  let pos := rfind '.' name
  if pos = -1 then name.dropLast else name.take pos.toNat

/-- `str(n)` of a count.  bov_files.py:43. -/
def strNat (n : ℕ) : Str := Nat.toDigits 10 n

/-- One `bov_unit.write` of a label and a value.  bov_files.py:48-56. -/
def line (label : String) (value : Str) : Str := label.toList ++ value ++ ['\n']

/-- `write_bov_file`: the content of the file.  bov_files.py:36-58. -/
def writeBov (dat var time : Str) (nx ny nz : ℕ) (centering dataType byteOrder west south : Str) : Str :=
  let dims := strNat nx ++ ' ' :: (strNat ny ++ ' ' :: strNat nz)
  let origin := west ++ ' ' :: (south ++ " 0.0".toList)
  line "TIME:          " time ++
  (line "DATA_FILE:     " dat ++
  (line "DATA_SIZE:     " dims ++
  (line "DATA_FORMAT:   " dataType ++
  (line "VARIABLE:      " var ++
  (line "DATA_ENDIAN:   " byteOrder ++
  (line "CENTERING:     " centering ++
  (line "BRICK_ORIGIN:  " origin ++
   line "BRICK_SIZE:    " dims)))))))

/-- `write_info_as_bov`: the name and the content of the file that is written on
a machine, as called by `check_and_store_info` with the time left at 0.0.
bov_files.py:18-32; rtg_files.py:287-288. -/
def writeInfo (machine : Order) (name : Str) (info : Info) (var : Str) : Str × Str :=
  (filePrefix name ++ ".bov".toList,
   writeBov name var "0.0".toList info.ncols info.nrows 1 "zonal".toList info.dataType
     machine.upper info.westEdge info.southEdge)

/-- `byte_swap_needed`.  rti_files.py:192-200. -/
def swapNeeded (machine : Order) (info : Info) : Bool := decide (machine ≠ info.byteOrder)

/-- The bytes of one value in the file: those of the machine, reversed if the
byte order of the grid is another.  rtg_files.py:345-362. -/
def valueBytes (machine : Order) (info : Info) (inMemory : List ℕ) : List ℕ :=
  if swapNeeded machine info then inMemory.reverse else inMemory

end Bov
