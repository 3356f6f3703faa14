import Verif.CfgModel
import Mathlib.Data.List.Lex
import Mathlib.Data.Char
import Mathlib.Data.List.Sort

/-!
# Collating basin datasets by site id

Model of `collate` in `topoflow/utils/ngen/collate_basins.py`: ten tab-separated files, each sorted by the id
of the gauge, are merged into one table with a line for each gauge; and of `sort_tsv_by_site_id` in
`data_utils.py`.

Not modelled: the names of the files, the printed messages, and the lines for the basins without USGS id that
are appended at the end (lines 1188-1270).  The dictionaries and web addresses used for some of the columns are
parameters (`Env`).  A `none` stands for an exception (an IndexError, KeyError or ValueError); `collate` catches
none.
-/

set_option autoImplicit false

namespace Collate

open Cfg (Str split strip)

/-- The datasets, in the order of `get_primary_keys` (collate_basins.py:271-281, 708-720). -/
inductive Key where
  | nwis | gages2all | gages2ref | sb3 | fps | hcdn | hads | camels | mopex | api
  deriving DecidableEq, Repr

/-- `get_inclusion_keys` (collate_basins.py:271-281). -/
def inclusionKeys : List Key := [.nwis, .gages2all, .gages2ref, .sb3, .fps, .hcdn, .hads, .camels, .mopex]

/-- `get_primary_keys` (collate_basins.py:708-720). -/
def primaryKeys : List Key := inclusionKeys ++ [.api]

/-- `get_id_column` for these datasets (data_utils.py:562-577). -/
def idColumn : Key → ℕ
  | .nwis => 1
  | _ => 0

/-- A file: the column headings and the lines after the header, each as `readline` returns it (with its
newline). -/
structure Dataset where
  headings : List Str
  lines : List Str

/-! ## Reading -/

/-- `if (len(id) == 7): id = '0' + id` (collate_basins.py:125-126, data_utils.py:857-858). -/
def pad (id : Str) : Str := if id.length = 7 then '0' :: id else id

/-- `get_next_id` (collate_basins.py:114-132). -/
def nextId (key : Key) (line : Str) : Option Str :=
  match (split '\t' line)[idColumn key]? with
  | none => none
  | some v => some (pad (strip v))

/-- `current_id[key]`, `current_line[key]` and what is left of the file. -/
structure Cursor where
  id : Str
  line : Str
  rest : List Str

/-- `get_next_line` (collate_basins.py:105-111): the line without its last character; at the end of the file
it is empty. -/
def nextLine : List Str → Str × List Str
  | [] => ([], [])
  | l :: rest => (l.dropLast, rest)

/-- Opening a file (collate_basins.py:823-837). -/
def openFile (key : Key) (d : Dataset) : Option Cursor :=
  let (line, rest) := nextLine d.lines
  match nextId key line with
  | none => none
  | some id => some ⟨id, line, rest⟩

/-- The `while (True)` loop that looks for the next id (collate_basins.py:1006-1024). -/
def skip (key : Key) (dbId curId curLine : Str) : List Str → Option Cursor
  | [] => some ⟨curId, curLine, []⟩
  | l :: rest =>
    let line := l.dropLast
    if line = [] then some ⟨curId, curLine, rest⟩
    else
      match nextId key line with
      | none => none
      | some id => if id ≠ dbId then some ⟨id, line, rest⟩ else skip key dbId curId curLine rest

/-! ## Attributes -/

/-- `att_dict`. -/
abbrev Atts := String → Str

/-- `att_dict[key] = v`. -/
def set (a : Atts) (k : String) (v : Str) : Atts := fun x => if x = k then v else a x

/-- `'-'`. -/
def dash : Str := ['-']

/-- `if (att_dict[k] == '-'): att_dict[k] = v`. -/
def setDash (a : Atts) (k : String) (v : String) : Atts := if a k = dash then set a k v.toList else a

/-- The dictionaries, web addresses and other functions that `collate` uses. -/
structure Env where
  alpha : Char → Bool
  siteUrl : Str → Str
  longName : Str → Str
  huc12 : Str → Option Str
  hucUrl : Str → Str
  nwsUrl : Str → Str
  rfc1 : Str → Option (Str × Str × Str)
  rfc2 : Str → Option Str
  numeric : Str → Bool
  fips : Str → Option Str
  stateCode : Str → Str → Option Str
  siteType : Str → Option Str
  hlrCode : Str → Str → Str
  hgraph : Str → Option (Str × Str × Str)
  czo : List Str

/-- `get_default_att_dict` (collate_basins.py:418-475). -/
def defaultAtts (env : Env) (siteId : Str) : Atts := fun k =>
  if k = "site_id" then siteId
  else if k ∈ ["lon", "lat", "elev", "area", "minlon", "maxlon", "minlat", "maxlat"] then "-9999".toList
  else if k = "site_url" then env.siteUrl siteId
  else if k = "hlr_code" then "0".toList
  else dash

/-- `headings` and `att_keys`, in pairs (collate_basins.py:483-687); no pairs where `UPDATE_ATTS` stays
`False`.  ('USGS_GAGES2_REF' at line 571 is not the name of the dataset, 'USGS_GAGES2_ref'; nothing is done
either way.) -/
def fields : Key → List (String × String)
  | .nwis => [("site_no", "site_id"), ("station_nm", "site_name"), ("site_tp_cd", "site_type"),
      ("dec_long_va", "lon"), ("dec_lat_va", "lat"), ("dec_coord_datum_cd", "horiz_datum"),
      ("state_cd", "state_code"), ("country_cd", "country_code"), ("alt_va", "elev"),
      ("alt_datum_cd", "vert_datum"), ("huc_cd", "huc"), ("drain_area_va", "area"),
      ("sv_begin_date", "start_date"), ("sv_end_date", "end_date")]
  | .gages2all => [("STAID", "site_id"), ("STANAME", "site_name"), ("AGGECOREGI", "eco_region"),
      ("DRAIN_SQKM", "area"), ("LAT_GAGE", "lat"), ("LNG_GAGE", "lon"), ("MINLON", "minlon"),
      ("MAXLON", "maxlon"), ("MINLAT", "minlat"), ("MAXLAT", "maxlat"), ("STATE", "state_code")]
  | .hads => [("USGS_ID", "site_id"), ("USGS_name", "site_name"), ("Site_type", "site_type"),
      ("Longitude", "lon"), ("Latitude", "lat"), ("RFC_ID", "rfc"), ("NWS_loc_ID", "nws_loc_id"),
      ("NWS_HSA_ID", "hsa"), ("GOES_ID", "goes_id")]
  | .api => [("usgs_id", "site_id"), ("nws_loc_id", "nws_loc_id"), ("rfc_abbrev", "rfc"),
      ("usgs_name", "site_name"), ("state_code", "state_code"), ("longitude", "lon"), ("latitude", "lat"),
      ("elevation", "elev"), ("pedts_obs", "pedts_obs")]
  | .fps => [("Status", "status")]
  | .hcdn => [("usgs_stn_id", "site_id"), ("usgs_stn_name", "site_name"), ("huc", "huc"),
      ("area_sqmi", "area"), ("state_code", "state_code"), ("gage_elev_ft", "elev")]
  | .mopex => [("SiteCode", "site_id"), ("SiteName", "site_name"), ("Latitude", "lat"),
      ("Longitude", "lon"), ("MINLON", "minlon"), ("MAXLON", "maxlon"), ("MINLAT", "minlat"),
      ("MAXLAT", "maxlat"), ("State", "state_code"), ("HUC8", "huc"), ("DrainageAr", "area")]
  | .gages2ref => []
  | .sb3 => []
  | .camels => []

/-- `all_headings.index(h)`; `none` is the ValueError. -/
def index (headings : List Str) (h : String) : Option ℕ :=
  let i := headings.idxOf h.toList
  if i < headings.length then some i else none

/-- The assignments of `update_attributes` before the loop over the headings (collate_basins.py:496-687). -/
def units (key : Key) (headings vals : List Str) (a : Atts) : Option Atts :=
  match key with
  | .nwis =>
    let a := set a "elev_units" "ft".toList
    let a := set a "area_units" "mi2".toList
    match index headings "data_types_cd" with
    | none => none
    | some dcol =>
      match vals[dcol]? with
      | none => none
      | some v =>
        match strip v with
        | c1 :: c2 :: _ => some (set a "stage_data" ['c', c1, 'i', c2])
        | _ => some a
  | .gages2all =>
    let a := setDash a "area_units" "km2"
    let a := setDash a "elev_units" "m"
    let a := setDash a "vert_datum" "CHECK_GAGES2"
    let a := setDash a "horiz_datum" "NAD83"
    let a := setDash a "site_type" "ST"
    let a := setDash a "country_code" "US"
    match vals[25]?, vals[22]?, vals[24]? with
    | some swb, some arid, some snow => some (set (set (set a "swb_class" swb) "aridity" arid) "snow_fraction" snow)
    | _, _, _ => none
  | .hcdn => some (setDash (setDash a "area_units" "mi2") "elev_units" "ft")
  | .mopex => some (setDash (setDash a "area_units" "mi2") "elev_units" "ft")
  | _ => some a

/-- `unset_list` (collate_basins.py:690). -/
def unset (v : Str) : Bool := v = dash || v = "unknown".toList || v = "-9999".toList

/-- The loop over the headings (collate_basins.py:689-703). -/
def fill (headings vals : List Str) : List (String × String) → Atts → Option Atts
  | [], a => some a
  | (h, k) :: rest, a =>
    match index headings h with
    | none => none
    | some col =>
      if unset (a k) then
        match vals[col]? with
        | none => none
        | some v =>
          let v := strip v
          let v := if k = "horiz_datum" then v.filter (· ≠ ' ') else v
          fill headings vals rest (set a k v)
      else fill headings vals rest a

/-- `update_attributes` (collate_basins.py:478-706). -/
def updateAttributes (key : Key) (headings vals : List Str) (a : Atts) : Option Atts :=
  match units key headings vals a with
  | none => none
  | some a => fill headings vals (fields key) a

/-- The long name (collate_basins.py:1034-1037). -/
def lookName (env : Env) (a : Atts) : Atts :=
  if a "site_name" ≠ dash then set a "long_name" (env.longName (a "site_name")) else a

/-- The HUC code and its web address (collate_basins.py:1045-1055). -/
def lookHuc (env : Env) (siteId : Str) (a : Atts) : Atts :=
  let a := match env.huc12 siteId with
    | some h => set a "huc" h
    | none => a
  set a "huc_url" (env.hucUrl (a "huc"))

/-- The web address of the NWS and the forecast office (collate_basins.py:1060-1095). -/
def lookNws (env : Env) (a : Atts) : Atts :=
  let nws := a "nws_loc_id"
  let a := set a "nws_url" (env.nwsUrl nws)
  let a := match env.rfc2 nws with
    | some wfo => set a "wfo" wfo
    | none =>
      match env.rfc1 nws with
      | some (wfo, _, _) => set a "wfo" wfo
      | none => a
  match env.rfc1 nws with
  | some (_, goes, hsa) => set (set a "goes_id" goes) "hsa" hsa
  | none => a

/-- The code of the state from its number (collate_basins.py:1108-1111); `none` is a KeyError. -/
def lookFips (env : Env) (a : Atts) : Option Atts :=
  if env.numeric (a "state_code") then
    match env.fips (a "state_code") with
    | some c => some (set a "state_code" c)
    | none => none
  else some a

/-- The code of the state from the name of the site (collate_basins.py:1112-1117), where `state` is the code
before the previous step; `none` is an IndexError. -/
def lookState (env : Env) (state : Str) (a : Atts) : Option Atts :=
  if state = dash ∧ a "long_name" ≠ dash then
    match env.stateCode (a "site_id") (a "long_name") with
    | some c => some (set a "state_code" c)
    | none => none
  else some a

/-- The other columns that are looked up (collate_basins.py:1122-1160). -/
def lookRest (env : Env) (siteId : Str) (a : Atts) : Atts :=
  let a := match env.siteType (a "site_type") with
    | some t => set a "site_type" t
    | none => a
  let a := set a "hlr_code" (env.hlrCode (a "lon") (a "lat"))
  let a := match env.hgraph siteId with
    | some (h, r, u) => set (set (set a "hgraph_type" h) "rfc_name" r) "huc8" u
    | none => a
  set (set a "closest_site_id" (a "site_id")) "closest_site_dist" "0.0".toList

/-- The columns that are looked up after the datasets have been read (collate_basins.py:1026-1160). -/
def lookups (env : Env) (siteId : Str) (a : Atts) : Option Atts :=
  let a := lookNws env (lookHuc env siteId (lookName env a))
  match lookFips env a with
  | none => none
  | some b =>
    match lookState env (a "state_code") b with
    | none => none
    | some a => some (lookRest env siteId a)

/-! ## The site ids -/

/-- `get_basin_ids` (data_utils.py:823-865) for these datasets. -/
def basinIds (key : Key) : List Str → Option (List Str)
  | [] => some []
  | l :: rest =>
    match nextId key l, basinIds key rest with
    | some id, some ids => some (id :: ids)
    | _, _ => none

/-- The ids that are left out (collate_basins.py:311-312). -/
def excluded (env : Env) (sid : Str) : Bool :=
  sid.length < 7 || (match sid with | c :: _ => env.alpha c | [] => false)

/-- `inclusion_dict`: the site ids in the order of insertion, each with its flags. -/
abbrev Dict := List (Str × (Key → Bool))

/-- `inclusion_dict[sid][key] = 'Y'`, with a new entry if there is none (collate_basins.py:313-318). -/
def addFlag (key : Key) (sid : Str) : Dict → Dict
  | [] => [(sid, fun k => k = key)]
  | (s, f) :: rest => if s = sid then (s, fun k => k = key || f k) :: rest else (s, f) :: addFlag key sid rest

/-- The inner loop of `get_inclusion_dict` (collate_basins.py:307-318). -/
def includeAll (env : Env) (key : Key) : List Str → Dict → Dict
  | [], d => d
  | sid :: rest, d => includeAll env key rest (if excluded env sid then d else addFlag key sid d)

/-- `get_inclusion_dict` (collate_basins.py:283-331). -/
def inclusionDict (env : Env) (ds : Key → Dataset) : List Key → Dict → Option Dict
  | [], d => some d
  | key :: rest, d =>
    match basinIds key (ds key).lines with
    | none => none
    | some ids => inclusionDict env ds rest (includeAll env key ids d)

/-- `get_all_site_ids` (collate_basins.py:351-357); the sorting of Python is modelled by insertion. -/
def allSiteIds (d : Dict) : List Str := (d.map Prod.fst).insertionSort (· ≤ ·)

/-- `'Y'` or `'N'`. -/
def flag (b : Bool) : Str := if b then ['Y'] else ['N']

/-- `get_inclusion_list` (collate_basins.py:333-349); `none` is the KeyError. -/
def inclusionList (d : Dict) (siteId : Str) : Option (List Str) :=
  match d.find? (fun e => e.1 = siteId) with
  | none => none
  | some e => some (inclusionKeys.map fun k => flag (e.2 k))

/-! ## The loop over the sites -/

/-- One dataset and one site (collate_basins.py:953-1024): the line that is used, if any, and the new
position in the file. -/
def stepOne (key : Key) (siteId : Str) (c : Cursor) : Option (Option Str × Cursor) :=
  if c.id = siteId then
    match skip key c.id c.id c.line c.rest with
    | none => none
    | some c' => some (some c.line, c')
  else some (none, c)

/-- The loop over the datasets (collate_basins.py:953-1024). -/
def stepKeys (ds : Key → Dataset) (siteId : Str) : List Key → (Key → Cursor) → Atts → Option (Atts × (Key → Cursor))
  | [], cs, a => some (a, cs)
  | key :: rest, cs, a =>
    match stepOne key siteId (cs key) with
    | none => none
    | some (none, c') => stepKeys ds siteId rest (fun k => if k = key then c' else cs k) a
    | some (some line, c') =>
      match updateAttributes key (ds key).headings (split '\t' line) a with
      | none => none
      | some a => stepKeys ds siteId rest (fun k => if k = key then c' else cs k) a

/-- `get_att_key_list` (collate_basins.py:360-382). -/
def attKeys : List String :=
  ["site_id", "nws_loc_id", "goes_id", "rfc", "wfo", "hsa", "huc", "site_name", "site_type", "stage_data",
    "pedts_obs", "state_code", "country_code", "lon", "lat", "elev", "elev_units", "area", "area_units",
    "horiz_datum", "vert_datum", "minlon", "maxlon", "minlat", "maxlat", "long_name", "closest_site_id",
    "closest_site_dist", "site_url", "huc_url", "nws_url", "status", "start_date", "end_date", "eco_region",
    "hlr_code", "swb_class", "hgraph_type", "aridity", "snow_fraction"]

/-- `get_heading_list` (collate_basins.py:384-415). -/
def attHeadings : List String :=
  ["Site_ID", "NWS_Loc_ID", "GOES_ID", "RFC", "WFO/CWA", "HSA", "HUC", "Site_Name", "Site_Type", "Stage_Data",
    "PEDTS_Obs", "State_Code", "Country_Code", "Lon", "Lat", "Elev", "Elev_Units", "Area", "Area_Units",
    "Horiz_Datum", "Vert_Datum", "Minlon", "Maxlon", "Minlat", "Maxlat", "Long_Name", "Closest_Site_ID",
    "Closest_Site_Dist", "Site_URL", "HUC_URL", "NWS_URL", "Status_as_FPS", "Start_Date", "End_Date",
    "Eco_Region", "HLR_Code_Outlet", "SWB_Class", "Hgraph_Type", "Aridity", "Snow Fraction"]

/-- `incl_headings` (collate_basins.py:198-203). -/
def inclHeadings : List String :=
  ["Is_USGS_NWIS_Web", "Is_GAGES2_Any", "Is_GAGES2_Ref", "Is_GAGES2_SB3", "Is_FPS", "Is_HCDN", "Is_RFC",
    "Is_CAMELS", "Is_MOPEX", "Is_CZO", "Is_LTER", "Is_NEON", "Is_ARS"]

/-- `extra_list` (collate_basins.py:920-923). -/
def extraList (env : Env) (siteId : Str) : List Str := [flag (env.czo.contains siteId), ['N'], ['N'], ['N']]

/-- One turn of the loop over the sites (collate_basins.py:910-1179). -/
def siteRow (env : Env) (ds : Key → Dataset) (d : Dict) (siteId : Str) (cs : Key → Cursor) :
    Option (List Str × (Key → Cursor)) :=
  match inclusionList d siteId with
  | none => none
  | some incl =>
    match stepKeys ds siteId primaryKeys cs (defaultAtts env siteId) with
    | none => none
    | some (a, cs') =>
      match lookups env siteId a with
      | none => none
      | some a => some (attKeys.map a ++ (incl ++ extraList env siteId), cs')

/-- The loop over the sites; `counter` is the number of lines written so far (collate_basins.py:910-1184). -/
def siteLoop (env : Env) (ds : Key → Dataset) (d : Dict) (maxCount : ℕ) :
    ℕ → List Str → (Key → Cursor) → Option (List (List Str))
  | _, [], _ => some []
  | counter, s :: rest, cs =>
    match siteRow env ds d s cs with
    | none => none
    | some (row, cs') =>
      if counter + 1 = maxCount then some [row]
      else
        match siteLoop env ds d maxCount (counter + 1) rest cs' with
        | none => none
        | some rows => some (row :: rows)

/-- The position in a file that has not been opened; never used. -/
def noCursor : Cursor := ⟨[], [], []⟩

/-- All files opened (collate_basins.py:819-837). -/
def openAll (ds : Key → Dataset) : List Key → Option (Key → Cursor)
  | [] => some fun _ => noCursor
  | key :: rest =>
    match openFile key (ds key), openAll ds rest with
    | some c, some cs => some fun k => if k = key then c else cs k
    | _, _ => none

/-- `collate` up to line 1190: the rows of values, one for each site. -/
def collate (env : Env) (ds : Key → Dataset) (maxCount : ℕ) : Option (List (List Str)) :=
  match openAll ds primaryKeys, inclusionDict env ds inclusionKeys [] with
  | some cs, some d => siteLoop env ds d maxCount 0 (allSiteIds d) cs
  | _, _ => none

/-- `write_new_values` and `write_new_header` (collate_basins.py:205-211, 261-268), without the newline. -/
def writeValues (vals : List Str) : Str := (vals.flatMap fun v => v ++ ['\t']).dropLast

/-! ## Sorting a file -/

/-- A line of the sorted file (data_utils.py:1376-1384). -/
def padLine (line : Str) : Str :=
  let id := strip ((split '\t' line).headD [])
  if id.length = 7 then '0' :: line else line

/-- `sort_tsv_by_site_id` (data_utils.py:1347-1395): the lines after the header of the new file, one after the
other. -/
def sortLines (lines : List Str) : List Str := (lines.map padLine).insertionSort (· ≤ ·)

end Collate
