import Verif.RtsModel
import Mathlib.Data.Rat.Floor
import Mathlib.Algebra.Order.Floor.Ring

/-!
# RTI grid information files

Models `write_info`, `read_value` and `read_info` of
`topoflow/utils/rti_files.py` at the level of characters.

Simplifications: floating-point values are exact rationals, `nan` or infinite;
`eval` is modelled on the plain decimal numbers that `write_info` can produce
(and fails on `nan` and `inf`, which are not Python names); the rounding of the
value read to `float32`/`float64` is not modelled; `str.upper` is the ASCII one.
-/

set_option autoImplicit false

namespace Rti

/-- Used in the model of rti_files.py:330-349. -/
abbrev Text := List Char

/-- A Python float.  Used in the model of rti_files.py:330-349. -/
inductive Num where
  | fin (q : ℚ)
  | nan
  | posInf
  | negInf
deriving DecidableEq

/-- The grid information record (rti_files.py:330-349, 491-509). -/
structure Rec where
  gridFile : Text
  dataSource : Text
  ncols : ℕ
  nrows : ℕ
  dataType : Text
  byteOrder : Text
  pixelGeom : ℕ
  xres : Num
  yres : Num
  zres : Num
  zUnits : Text
  ySouth : Num
  yNorth : Num
  xEast : Num
  xWest : Num
  boxUnits : Text
  gmin : Num
  gmax : Num
  utmZone : Text
deriving DecidableEq

/-! ### Writing -/

/-- Correct rounding of a non-negative number to an integer, ties to even (what
the C library does with the exact value when printing).
Used in the model of rti_files.py:531-544. -/
def roundHalfEven (q : ℚ) : ℕ :=
  let f := ⌊q⌋₊
  let r := q - f
  if r < 1 / 2 then f
  else if 1 / 2 < r then f + 1
  else if f % 2 = 0 then f else f + 1

/-- The twelve digits after the decimal point, most significant first.
Used in the model of rti_files.py:531-544. -/
def fracDigits : ℕ → ℕ → Text
  | 0, _ => []
  | k + 1, n => fracDigits k (n / 10) ++ [Nat.digitChar (n % 10)]

/-- `("%22.12f" % x).strip()` (rti_files.py:531-544). -/
def fmt : Num → Text
  | .nan => "nan".toList
  | .posInf => "inf".toList
  | .negInf => "-inf".toList
  | .fin q =>
    let n := roundHalfEven (|q| * 10 ^ 12)
    (if q < 0 then ['-'] else []) ++ Nat.toDigits 10 (n / 10 ^ 12) ++ ['.'] ++
      fracDigits 12 (n % 10 ^ 12)

/-- A line `label: value`.  Used in the model of rti_files.py:554-629. -/
def labelled (label pad : String) (v : Text) : Text :=
  label.toList ++ [':'] ++ (pad.toList ++ v)

/-- The notes at the end of the file (rti_files.py:605-629). -/
def trailer : List Text :=
  [ "", "",
    ";----------------------------------",
    ";Notes About RiverTools Info Files",
    ";----------------------------------",
    ";(1)  RiverTools grid info filenames end with '.rti'.",
    ";(2)  The first line should be:  RiverTools Info File",
    ";(3)  Lines starting with a semi-colon are ignored.",
    ";(4)  Colons are used to delimit labels from values.",
    ";(5)  The order of the numbers above is important.",
    ";(6)  Number of rows and columns are required.",
    ";(7)  Pixel geometry codes are: 0=Fixed-Angle, 1=Fixed-Length.",
    ";(8)  Pixel x-resolution and y-resolution are required.",
    ";(9)  Measurement units must be METERS or DEGREES.",
    ";(10) Elevation data type is required.",
    ";     Allowed types are BYTE, INTEGER, LONG, LONG64, FLOAT, DOUBLE.",
    ";(11) Byte order is required; either LSB or MSB.",
    ";     (LSB = Least Significant Byte = little-endian)",
    ";     (MSB = Most Significant Byte  = big-endian)",
    ";(12) For 'fixed-angle' pixels, bounding lats and lons",
    ";     are required to compute lengths and areas correctly.",
    ";(13) Latitudes south of equator are negative and",
    ";     longitudes west of prime meridian are negative.",
    ";(14) This file is best modified with the View DEM Info",
    ";     dialog in the File menu.",
    "", "" ].map String.toList

/-- The lines written by `write_info` (rti_files.py:554-629). -/
def writeLines (r : Rec) : List Text :=
  [ "RiverTools Info File".toList,
    "".toList,
    ";--------------------".toList,
    ";Description of Grid".toList,
    ";--------------------".toList,
    labelled "Grid filename" "  " r.gridFile,
    labelled "Grid source" "    " r.dataSource,
    " ".toList,
    ";----------------------".toList,
    ";Grid dimensions, etc.".toList,
    ";----------------------".toList,
    labelled "Number of columns" "  " (Nat.toDigits 10 r.ncols),
    labelled "Number of rows" "     " (Nat.toDigits 10 r.nrows),
    labelled "Data type" "          " r.dataType,
    labelled "Byte order" "         " r.byteOrder,
    "".toList,
    ";--------------------".toList,
    ";Pixel geometry info".toList,
    ";--------------------".toList,
    labelled "Pixel geometry code" "  " (Nat.toDigits 10 r.pixelGeom),
    labelled "Pixel x-resolution" "   " (fmt r.xres),
    labelled "Pixel y-resolution" "   " (fmt r.yres),
    labelled "Pixel z-resolution" "   " (fmt r.zres),
    labelled "Z-resolution units" "   " r.zUnits,
    "".toList,
    ";--------------------------------------------------".toList,
    ";Bounding box coordinates (degrees lat/lon or UTM)".toList,
    ";--------------------------------------------------".toList,
    labelled "South edge y-coordinate" "  " (fmt r.ySouth),
    labelled "North edge y-coordinate" "  " (fmt r.yNorth),
    labelled "East  edge x-coordinate" "  " (fmt r.xEast),
    labelled "West  edge x-coordinate" "  " (fmt r.xWest),
    labelled "Measurement units" "        " r.boxUnits,
    "".toList,
    ";------------------".toList,
    ";Min and max value".toList,
    ";------------------".toList,
    labelled "Minimum value" "  " (fmt r.gmin),
    labelled "Maximum value" "  " (fmt r.gmax),
    "".toList,
    ";---------".toList,
    ";UTM zone".toList,
    ";---------".toList,
    labelled "UTM zone" " " r.utmZone ] ++ trailer

/-- `write_info` (rti_files.py:524-642): the contents of the RTI file. -/
def writeInfo (r : Rec) : Text := (writeLines r).flatMap (fun l => l ++ ['\n'])

/-! ### Reading -/

/-- Text mode reading translates `\r\n` and `\r` to `\n`.
Used in the model of rti_files.py:316-365. -/
def universalNewlines : Text → Text
  | [] => []
  | '\r' :: '\n' :: t => '\n' :: universalNewlines t
  | '\r' :: t => '\n' :: universalNewlines t
  | c :: t => c :: universalNewlines t

/-- The lines returned by successive `readline` calls (newline removed).
Used in the model of rti_files.py:316-365. -/
def splitLines : Text → Text → List Text
  | acc, [] => if acc.isEmpty then [] else [acc.reverse]
  | acc, c :: t => if c = '\n' then acc.reverse :: splitLines [] t else splitLines (c :: acc) t

/-- `str.isspace` for one character.  Used in the model of rti_files.py:244-253. -/
def isWs (c : Char) : Bool :=
  let n := c.toNat
  (9 ≤ n && n ≤ 13) || (28 ≤ n && n ≤ 32) || n == 0x85 || n == 0xa0 || n == 0x1680 ||
  (0x2000 ≤ n && n ≤ 0x200a) || n == 0x2028 || n == 0x2029 || n == 0x202f || n == 0x205f ||
  n == 0x3000

/-- `str.strip`.  Used in the model of rti_files.py:244-253. -/
def strip (s : Text) : Text := ((s.dropWhile isWs).reverse.dropWhile isWs).reverse

/-- `str.upper` (ASCII).  Used in the model of rti_files.py:229-282. -/
def upper (s : Text) : Text := s.map Char.toUpper

/-- The `while` loop of `read_value` (rti_files.py:244-253): the text after the
first colon of the next line that has one and is not a comment; at the end of
the file `s` is unbound. -/
def nextField : List Text → Except String (Text × List Text)
  | [] => .error "UnboundLocalError: s"
  | l :: ls =>
    if l.head? ≠ some ';' ∧ ':' ∈ l then
      .ok (strip ((l.dropWhile (· ≠ ':')).drop 1), ls)
    else nextField ls

/-- `eval(s)` on an unsigned decimal integer.  Used in the model of rti_files.py:229-282. -/
def parseNat (s : Text) : Except String ℕ :=
  if s ≠ [] ∧ s.all Char.isDigit then .ok (Nat.ofDigitChars 10 s 0)
  else .error "NameError or SyntaxError"

/-- `eval(s)` on `digits.digits`.  Used in the model of rti_files.py:229-282. -/
def parseUnsigned (s : Text) : Except String ℚ :=
  let a := s.takeWhile (· ≠ '.')
  let b := (s.dropWhile (· ≠ '.')).drop 1
  match parseNat a, parseNat b with
  | .ok m, .ok f => .ok (m + (f : ℚ) / 10 ^ b.length)
  | _, _ => .error "NameError or SyntaxError"

/-- `eval(s)` on a decimal number with optional minus sign.
Used in the model of rti_files.py:229-282. -/
def parseDec : Text → Except String ℚ
  | '-' :: t =>
    match parseUnsigned t with
    | .ok q => .ok (-q)
    | .error e => .error e
  | t => parseUnsigned t

/-- `read_value(RTI_unit, 'LONG')` (rti_files.py:229-282); `np.int32` rejects
values that do not fit. -/
def readLong (ls : List Text) : Except String (ℕ × List Text) :=
  match nextField ls with
  | .error e => .error e
  | .ok (s, r) =>
    match parseNat s with
    | .error e => .error e
    | .ok n => if n < 2 ^ 31 then .ok (n, r) else .error "OverflowError"

/-- `read_value(RTI_unit, 'BYTE')` (rti_files.py:229-282). -/
def readByte (ls : List Text) : Except String (ℕ × List Text) :=
  match nextField ls with
  | .error e => .error e
  | .ok (s, r) =>
    match parseNat s with
    | .error e => .error e
    | .ok n => if n < 2 ^ 8 then .ok (n, r) else .error "OverflowError"

/-- `read_value(RTI_unit, 'DOUBLE')` and `'FLOAT'` (rti_files.py:229-282). -/
def readFloat (ls : List Text) : Except String (Num × List Text) :=
  match nextField ls with
  | .error e => .error e
  | .ok (s, r) =>
    match parseDec s with
    | .error e => .error e
    | .ok q => .ok (.fin q, r)

/-- `read_value(RTI_unit, 'STRING', UPCASE=...)` (rti_files.py:229-282). -/
def readString (up : Bool) (ls : List Text) : Except String (Text × List Text) :=
  match nextField ls with
  | .error e => .error e
  | .ok (s, r) => .ok (if up then upper (strip s) else strip s, r)

/-- `read_info` on the contents of an RTI file (rti_files.py:316-365): the
nineteen fields in order.  With a wrong first line the code refers to the
undefined name `self`. -/
def readInfo (text : Text) : Except String Rec := do
  match splitLines [] (universalNewlines text) with
  | [] => .error "NameError: self"
  | l1 :: ls =>
    if strip (upper l1) ≠ "RIVERTOOLS INFO FILE".toList then .error "NameError: self"
    else do
      let (gridFile, ls) ← readString false ls
      let (dataSource, ls) ← readString false ls
      let (ncols, ls) ← readLong ls
      let (nrows, ls) ← readLong ls
      let (dataType, ls) ← readString true ls
      let (byteOrder, ls) ← readString true ls
      let (pixelGeom, ls) ← readByte ls
      let (xres, ls) ← readFloat ls
      let (yres, ls) ← readFloat ls
      let (zres, ls) ← readFloat ls
      let (zUnits, ls) ← readString true ls
      let (ySouth, ls) ← readFloat ls
      let (yNorth, ls) ← readFloat ls
      let (xEast, ls) ← readFloat ls
      let (xWest, ls) ← readFloat ls
      let (boxUnits, ls) ← readString true ls
      let (gmin, ls) ← readFloat ls
      let (gmax, ls) ← readFloat ls
      let (utm, _) ← readString true ls
      let utm := if utm = "-1".toList then "unknown".toList else utm
      -- `get_bpe(info.data_type)` must succeed (rti_files.py:363)
      let _ ← Rts.getBpe (String.ofList dataType)
      return { gridFile, dataSource, ncols, nrows, dataType, byteOrder, pixelGeom, xres, yres,
               zres, zUnits, ySouth, yNorth, xEast, xWest, boxUnits, gmin, gmax, utmZone := utm }

end Rti
