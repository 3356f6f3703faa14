import Verif.CfgModel
import Mathlib.Data.Rat.Defs

/-!
# The table of the ARS watersheds

Model of topoflow/utils/ngen/usda_utils.py.  The readers of numbers (`np.int32`, `np.float64`, `np.float32`) and the
writers of rounded numbers are parameters; the arithmetic between them is that of rational numbers.  A line is given
with its newline character.  A file that cannot be converted is `none`: the rows written before are not modelled.
-/

set_option autoImplicit false

namespace Ars

open Cfg (Str strip lower)

/-- The readers and writers of numbers used in usda_utils.py:226, 274-289, 303-318, 334-335. -/
structure Num where
  /-- `np.int32(s)` -/
  int : Str → Option ℤ
  /-- `np.float64(s)` -/
  real : Str → Option ℚ
  /-- `str( round(x, 5) )` -/
  deg : ℚ → Str
  /-- `str( round( np.float32(s) * 0.00404686, 4) )` -/
  km2 : Str → Option Str

/-- `line[a:b]`.  Used in the model of usda_utils.py:206-209, 246-248, 326, 342-365. -/
def slice (a b : ℕ) (l : Str) : Str := (l.drop a).take (b - a)

/-- `s[-n:]` for n > 0.  Used in the model of usda_utils.py:255, 345, 356. -/
def tail (n : ℕ) (s : Str) : Str := s.drop (s.length - n)

/-- `get_ars_state_codes`.  usda_utils.py:37-79. -/
def stateCodes : List Str :=
  ["AL", "AR", "AZ", "FL", "GA", "HI", "IA", "ID", "IL", "IN", "MD", "MO", "MS", "NC", "NE", "NM", "OH", "OK",
   "PA", "SD", "TX", "VA", "VT", "WA", "WI", "WV"].map String.toList

/-- `get_ars_url`.  usda_utils.py:118-136. -/
def url (st : Str) : Str := "https://hrsl.ba.ars.usda.gov/wdc/".toList ++ lower st ++ ".htm".toList

/-- `write_tsv_header`: the names of the columns; a comma stands inside the fourth.  usda_utils.py:140-153. -/
def headings : List Str :=
  ["Watershed ID", "Location", "State Code", "Alternate_Name, Watershed Name", "Latitude (DMS)", "Longitude (DMS)",
   "Latitude (dec deg)", "Longitude (dec deg)", "Acres", "Area (km2)", "Start Date", "End Date", "ARS DB Years",
   "Old Data URL", "Notes"].map String.toList

/-- The header line: each name is followed by a tab, and the last tab is cut off.  usda_utils.py:150-153. -/
def header : Str := (headings.flatMap (· ++ ['\t'])).dropLast ++ ['\n']

/-- `get_alternate_name`.  usda_utils.py:396-459. -/
def altName (n : ℤ) : Str := String.toList <|
  if n = 16001 then "Mahantango Cr. at Malta"
  else if n = 16003 then "Mahantango Cr. at Klgtn."
  else if n = 16006 then "Stehr Bros. Weir"
  else if 56001 ≤ n ∧ n ≤ 56004 then "Moscow"
  else if 62001 ≤ n ∧ n ≤ 62019 then "Pigeon Roost"
  else if 63001 ≤ n ∧ n ≤ 63015 then "Walnut Gulch"
  else if 63101 ≤ n ∧ n ≤ 63106 then "Lucky Hills"
  else if 63111 ≤ n ∧ n ≤ 63113 then "Kendall"
  else if n = 63121 then "Holiday Ranch"
  else if 63122 ≤ n ∧ n ≤ 63124 then "Cowen"
  else if 63201 ≤ n ∧ n ≤ 63223 then "Walnut Gulch Pond"
  else if n = 68001 then "Reynolds Creek Outlet"
  else if n = 68002 then "Salmon Creek"
  else if n = 68003 then "Reynolds Creek"
  else if n = 68004 then "Reynolds Creek at Tollgate"
  else if 68011 ≤ n ∧ n ≤ 68012 then "Reynolds Creek"
  else if n = 68013 then "Reynolds Mtn. East"
  else if n = 68014 then "Lower Sheep Creek"
  else if 68015 ≤ n ∧ n ≤ 68020 then "Reynolds Creek"
  else if n = 68021 then "Upper Sheep Creek 1"
  else if n = 68022 then "Upper Sheep Creek 2"
  else if n = 68023 then "Flats Watershed"
  else if n = 68024 then "Nancy's Gulch"
  else if 68033 ≤ n ∧ n ≤ 68034 then "Reynolds Creek"
  else if 74002 ≤ n ∧ n ≤ 74011 then "Little River"
  else if 83001 ≤ n ∧ n ≤ 83014 then "Goodwin Creek"
  else "-"

/-- `get_watershed_notes`; the conditions exclude each other.  usda_utils.py:463-492. -/
def note (n : ℤ) : Str := String.toList <|
  if n = 9001 then "Notice that first watershed name is W-1 but others use roman numerals."
  else if n = 9002 then "Watershed name in INDEX.TXT is W-I but according to info at URL it should be W-II."
  else if n = 68021 then "Lats and lons in INDEX.TXT and inventor.txt do not match exactly but number of acres is an exact match to Upper Sheep Creek 1."
  else if n = 68022 then "Lats and lons in INDEX.TXT and inventor.txt do not match exactly but number of acres is an exact match to Upper Sheep Creek 2."
  else if 69051 ≤ n ∧ n ≤ 69053 then "Longitude DMS in INDEX.txt does not match value in inventor.txt. From Google Maps degrees should be -97 not -98. Outlet is at a bridge near the town of Ninnekah."
  else " "

/-- Degrees of `s` whose degrees take `i` characters; two hyphens stand for unknown seconds.
usda_utils.py:274-284, 303-313. -/
def degrees (num : Num) (i : ℕ) (s : Str) : Option ℚ := do
  let d ← num.real (slice 0 i s)
  let m ← num.real (slice i (i + 2) s)
  let t := slice (i + 2) (i + 4) s
  let sec ← if t = ['-', '-'] then some 0 else num.real t
  return if d < 0 then d - m / 60 - sec / 3600 else d + m / 60 + sec / 3600

/-- The cell for the latitude in degrees.  usda_utils.py:272-290. -/
def latCell (num : Num) (s : Str) : Option Str :=
  if strip s = [] then some [] else (degrees num 2 s).map num.deg

/-- The cell for the longitude in degrees.  usda_utils.py:297-321. -/
def lonCell (num : Num) (s : Str) : Option Str :=
  if strip s = [] then some [] else (degrees num (if s.length = 6 then 2 else 3) s).map (fun q => '-' :: num.deg q)

/-- The longitude of a line, put right for three watersheds.  usda_utils.py:248-255. -/
def lonDms (n : ℤ) (l : Str) : Str :=
  if 69051 ≤ n ∧ n ≤ 69053 then "97".toList ++ tail 4 (strip (slice 83 90 l)) else strip (slice 83 90 l)

/-- The cell for the longitude as given.  usda_utils.py:261-265. -/
def lonDmsCell (s : Str) : Str := if s = [] then [] else '-' :: s

/-- A date `MM/DD/YY` in ISO format.  usda_utils.py:345, 356. -/
def iso (s : Str) : Str := "19".toList ++ tail 2 s ++ '-' :: (s.take 2 ++ '-' :: slice 3 5 s)

/-- The cell for the first date; blanks are not removed.  usda_utils.py:342-346. -/
def startCell (l : Str) : Str := let s := slice 47 55 l; if s = [] then [] else iso s

/-- The cell for the last date.  usda_utils.py:352-359. -/
def endCell (l : Str) : Str :=
  let e := strip (slice 56 64 l)
  if e = [] then [] else if lower e = "present".toList then "Present".toList else iso e

/-- The cell for the area.  usda_utils.py:332-336. -/
def areaCell (num : Num) (s : Str) : Option Str := if s = [] then some [] else num.km2 s

/-- The columns that are kept for the next line.  usda_utils.py:234-237. -/
structure Last where
  id : Str
  loc : Str
  st : Str
  name : Str

/-- The own text, or that of the row before; NameError in the first row.  usda_utils.py:211-218. -/
def orLast (blank : Bool) (own : Str) (last : Option Str) : Option Str := if blank then last else some own

/-- The cells of one line and what is kept for the next.  usda_utils.py:206-386. -/
def cells (num : Num) (last : Option Last) (l : Str) : Option (List Str × Last) := do
  let id ← orLast (strip (slice 0 5 l) == []) (slice 0 5 l) (last.map Last.id)
  let loc ← orLast (strip (slice 5 20 l) == []) (strip (slice 5 20 l)) (last.map Last.loc)
  let st ← orLast (strip (slice 20 22 l) == []) (slice 20 22 l) (last.map Last.st)
  let name ← orLast (strip (slice 23 36 l) == []) (strip (slice 23 36 l)) (last.map Last.name)
  let n ← num.int id
  let name := if n = 9002 then "W-II".toList else name
  let lat := strip (slice 76 82 l)
  let lon := lonDms n l
  let latDeg ← latCell num lat
  let lonDeg ← lonCell num lon
  let acres := strip (slice 36 47 l)
  let area ← areaCell num acres
  return ([id, loc, st, altName n, name, lat, lonDmsCell lon, latDeg, lonDeg, acres, area, startCell l, endCell l,
    strip (slice 65 76 l), if st ∈ stateCodes then url st else [], note n], ⟨id, loc, st, name⟩)

/-- A row: the cells with tabs between them.  usda_utils.py:220-386. -/
def rowLine (cs : List Str) : Str := List.intercalate ['\t'] cs ++ ['\n']

/-- The loop over the lines; empty lines are skipped.  usda_utils.py:190-386. -/
def loop (num : Num) : Option Last → List Str → Option (List (List Str))
  | _, [] => some []
  | last, l :: r =>
    if l = ['\n'] then loop num last r
    else do
      let (cs, k) ← cells num last l
      let rest ← loop num (some k) r
      return cs :: rest

/-- `create_tsv`: the lines of the table; eight lines are skipped.  usda_utils.py:157-392. -/
def createTsv (num : Num) (file : List Str) : Option (List Str) :=
  (loop num none (file.drop 8)).map (fun rows => header :: rows.map rowLine)

/-- `get_ars_name`; IndexError if there are too few values.  usda_utils.py:83-96. -/
def arsName (v : List Str) : Option Str := do
  let loc ← v[1]?
  let st ← v[2]?
  let w ← v[4]?
  return strip w ++ ", ".toList ++ strip loc ++ ", ".toList ++ strip st

/-- `get_ars_long_name`.  usda_utils.py:100-115. -/
def arsLongName (v : List Str) : Option Str := do
  let loc ← v[1]?
  let st ← v[2]?
  let alt ← v[3]?
  let w ← v[4]?
  return (if strip alt ≠ ['-'] then strip alt ++ ", ".toList else []) ++ strip w ++ ", ".toList ++ strip loc ++
    ", ".toList ++ strip st

end Ars
