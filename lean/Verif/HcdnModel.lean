import Verif.CfgModel
import Mathlib.Data.List.Infix

/-!
# Station tables with columns of fixed width; sites of the critical zone observatories

Model of `convert_dat_to_tsv` of topoflow/utils/ngen/hcdn_utils.py and of three
functions of topoflow/utils/ngen/czo_utils.py.  Lines come without their newline
character, which `strip` removes from the last column.
-/

set_option autoImplicit false

namespace Hcdn

open Cfg (Str strip)

/-- `line[a:b]` for 0 ≤ a ≤ b.  hcdn_utils.py:72-85. -/
def slice (a b : ℕ) (l : Str) : Str := (l.take b).drop a

/-- The columns of a station line.  hcdn_utils.py:72-86. -/
def columns (l : Str) : List Str :=
  [slice 0 9 l, slice 9 58 l, slice 58 67 l, slice 67 76 l, slice 76 77 l, slice 77 79 l, slice 79 82 l,
   slice 82 85 l, slice 85 88 l, slice 88 92 l, slice 92 100 l, slice 100 108 l, slice 108 117 l, slice 117 121 l,
   l.drop 121].map strip

/-- Texts with tabs between them.  hcdn_utils.py:46-61, 91-106. -/
def joined : List Str → Str
  | [] => []
  | [w] => w
  | w :: v :: ws => w ++ '\t' :: joined (v :: ws)

/-- The names of the columns.  hcdn_utils.py:47-61. -/
def header : List Str :=
  ["usgs_stn_id".toList, "usgs_stn_name".toList, "huc".toList, "area_sqmi".toList, "time_scale_cd".toList,
   "record_part_cd".toList, "n_comment_lines".toList, "district_code".toList, "state_code".toList,
   "county_code".toList, "gage_lat_dms".toList, "gage_lon_dms".toList, "gage_elev_ft".toList, "non_tca_pct".toList,
   "stn_type_code".toList]

/-- `convert_dat_to_tsv`: the lines of the new file.  hcdn_utils.py:29-110. -/
def convert (lines : List Str) : List Str := joined header :: lines.map (fun l => joined (columns l))

/-! ## Critical zone observatories -/

/-- `name[name.find('('):][1:-1]`; without a parenthesis `find` gives -1 and the last character is
taken first.  czo_utils.py:75-78, 81-83. -/
def abbr (name : Str) : Str :=
  let t := if '(' ∈ name then name.dropWhile (· ≠ '(') else name.drop (name.length - 1)
  t.tail.dropLast

/-- `get_czo_site_id` for the first two values of a row.  czo_utils.py:69-86. -/
def siteId (obs catch_ : Str) : Str :=
  "CZO-".toList ++ abbr (strip obs) ++ '-' :: abbr (strip catch_)

/-- `get_czo_long_name` for the second and third value of a row.  czo_utils.py:90-102. -/
def longName (catch_ state : Str) : Str :=
  let name := strip catch_
  let long :=
    if "(P30".toList <:+: name then name
    else strip (if '(' ∈ name then name.takeWhile (· ≠ '(') else name.dropLast)
  long ++ ", ".toList ++ strip state

/-- `site_id_map`.  czo_utils.py:129-148. -/
def siteMap : List (String × String × String × ℕ) :=
  [("CZO-BC-GG", "boulder", "gordon-gulch", 140), ("CZO-CH-WS4", "calhoun", "calhoun-czo-research-area-1", 148),
   ("CZO-CRB-CR", "christina", "christina-river-basin", 146), ("CZO-ER-EC", "eel", "eel-river-watershed", 141),
   ("CZO-IML-A-US", "iml", "sangamon-river-basin", 150), ("CZO-IML-A2-US", "iml", "sangamon-river-basin", 150),
   ("CZO-IML-B-CC", "iml", "clear-creek-watershed", 150), ("CZO-IML-C-MR", "iml", "minnesota-river-basin", 150),
   ("CZO-JRB-UJ", "catalina-jemez", "santa-catalina-mountains", 142),
   ("CZO-JRB-LJ", "catalina-jemez", "santa-catalina-mountains", 142), ("CZO-LUQ-MAM", "luquillo", "rio-icacos", 144),
   ("CZO-LUQ-IC", "luquillo", "rio-mameyes", 144), ("CZO-RC-JD", "reynolds", "johnston-draw", 143),
   ("CZO-SCM-OR", "catalina-jemez", "oracle-ridge-mid-elevation", 142),
   ("CZO-SCM-MG", "catalina-jemez", "bigelow-tower-marshall-gulch-high-elevation", 142),
   ("CZO-SS-P301", "sierra", "providence-creek-subcatchment-p301", 145),
   ("CZO-SS-P303", "sierra", "providence-creek-subcatchment-p303", 145),
   ("CZO-SS-P304", "sierra", "providence-creek-subcatchment-p304", 145),
   ("CZO-SH-SH", "shale-hills", "cole-farm-agricultural-site", 147)]

/-- `get_czo_site_url`; `none` is Python's None.  The report names a variable that does not exist.
czo_utils.py:106-173. -/
def siteUrl (m : List (String × String × String × ℕ)) (id : Str) (report sites base hydroshare : Bool) :
    Except String (Option Str) :=
  match m.find? (fun r => r.1.toList = id) with
  | none => .error "KeyError"
  | some (_, czo, site, num) =>
    let url1 := "https://czo-archive.criticalzone.org/".toList ++ czo.toList ++ ['/']
    let url2 := url1 ++ "infrastructure/field-area/".toList ++ site.toList ++ ['/']
    if report then .error "NameError: name 'czo_archive_url12' is not defined"
    else if sites then .ok (some url2)
    else if base then .ok (some url1)
    else if hydroshare then .ok (some ("https://www.hydroshare.org/group/".toList ++ Nat.toDigits 10 num))
    else .ok none

end Hcdn
