import Verif.CfgModel

/-!
# Tables of the river forecast centers

`cull_usa_dcp_data_rows`, `get_hydrograph_type_dict` and `merge_rfc_basin_info` of
topoflow/utils/ngen/rfc_utils.py.  A text file is the list of its lines, each with its newline character, as
`readline()` returns them.
-/

set_option autoImplicit false

namespace Rfc

open Cfg (Str split strip)

/-! ## Data collection platforms of the US states -/

/-- The networks left out, rfc_utils.py:1231. -/
def skipList : List Str :=
  ["GU_DCP".toList, "P1_DCP".toList, "P2_DCP".toList, "P3_DCP".toList, "P4_DCP".toList]

/-- `vals = line.split(comma); name = vals[-1].strip()`, rfc_utils.py:1262-1263. -/
def networkName (l : Str) : Str := strip ((split ',' l).getLast?.getD [])

/-- The test of rfc_utils.py:1264-1265. -/
def keeps (l : Str) : Bool :=
  !(skipList.contains (networkName l)) && "_DCP".toList.isSuffixOf (networkName l) &&
    (networkName l).length == 6

/-- What the loop of rfc_utils.py:1252-1283 changes.  `counts` is `state_dict`. -/
structure CullSt where
  out : List Str
  nIn : ℕ
  nOut : ℕ
  nSkip : ℕ
  counts : Str → Option ℕ

/-- `try: state_dict[code] += 1  except: state_dict[code] = 0`, rfc_utils.py:1274-1277. -/
def bump (d : Str → Option ℕ) (code : Str) : Str → Option ℕ :=
  fun k => if k = code then (match d code with | some n => some (n + 1) | none => some 0) else d k

/-- One row, rfc_utils.py:1256-1283. -/
def cullRow (s : CullSt) (l : Str) : CullSt :=
  if keeps l then
    { out := s.out ++ [l], nIn := s.nIn + 1, nOut := s.nOut + 1, nSkip := s.nSkip,
      counts := bump s.counts ((networkName l).take 2) }
  else { s with nIn := s.nIn + 1, nSkip := s.nSkip + 1 }

/-- `cull_usa_dcp_data_rows()`, rfc_utils.py:1188-1301: the lines of the new file and what is printed.  The first
line is copied; an empty file has none. -/
def cull (file : List Str) : CullSt :=
  (file.drop 1).foldl cullRow { out := file.take 1, nIn := 0, nOut := 0, nSkip := 0, counts := fun _ => none }

/-! ## Hydrograph types -/

/-- The entries of the site table used, rfc_utils.py:1163-1166. -/
structure Info where
  lat : Str
  lon : Str
  huc : Str

/-- An entry of the dictionary, rfc_utils.py:1171-1173. -/
structure Entry where
  htype : Str
  rfc : Str
  huc8 : Str
  lat : Str
  lon : Str
  deriving DecidableEq

/-- Used in the model of rfc_utils.py:1135-1173. -/
abbrev Dict := Str → Option Entry

/-- Used in the model of rfc_utils.py:1171-1173: an assignment to a dictionary. -/
def put (d : Dict) (k : Str) (e : Entry) : Dict := fun k' => if k' = k then some e else d k'

/-- One row, rfc_utils.py:1150-1173.  A missing site gives a warning only. -/
def typeRow (site : Str → Option Info) (htype : Str) (d : Dict) (l : Str) : Except String Dict :=
  match split ',' l with
  | v0 :: v1 :: v2 :: _ :: _ :: _ :: v6 :: v7 :: _ =>
    let sid := strip v0
    if strip v1 = "NA".toList then
      match site sid with
      | some i => if i.lat = "NA".toList then .ok d
                  else .ok (put d sid ⟨htype, "-".toList, i.huc, i.lat, i.lon⟩)
      | none => .ok d
    else .ok (put d sid ⟨htype, strip v7, strip v6, strip v1, strip v2⟩)
  | _ => .error "IndexError"

/-- The rows of one file, rfc_utils.py:1146-1174. -/
def typeRows (site : Str → Option Info) (htype : Str) : Dict → List Str → Except String Dict
  | d, [] => .ok d
  | d, l :: ls =>
    match typeRow site htype d l with
    | .error e => .error e
    | .ok d' => typeRows site htype d' ls

/-- All files, rfc_utils.py:1141-1174: each with its type; the first line of each is skipped. -/
def typeFiles (site : Str → Option Info) : Dict → List (Str × List Str) → Except String Dict
  | d, [] => .ok d
  | d, (t, f) :: fs =>
    match typeRows site t d (f.drop 1) with
    | .error e => .error e
    | .ok d' => typeFiles site d' fs

/-- The names of the types in the order of the files, rfc_utils.py:1119-1130. -/
def htypes : List Str :=
  ["flashy".toList, "slow".toList, "regulated".toList, "snow-dom".toList, "normal".toList, "low-flow".toList]

/-- `get_hydrograph_type_dict()`, rfc_utils.py:1091-1184, with the dictionary saved by an earlier call, if any, and
the six files.  The second result is the saved dictionary afterwards.  Simplified: all six files can be opened. -/
def hydrographTypes (saved : Option Dict) (site : Str → Option Info) (files : List (List Str)) (saveToFile : Bool) :
    Except String (Dict × Option Dict) :=
  match saved with
  | some d => .ok (d, some d)
  | none =>
    match typeFiles site (fun _ => none) (htypes.zip files) with
    | .error e => .error e
    | .ok d => .ok (d, if saveToFile then some d else none)

/-! ## Basins of the forecast centers -/

/-- `headings.index(name)`, rfc_utils.py:1495-1499. -/
def colOf (headings : List Str) (name : String) : Option ℕ :=
  if name.toList ∈ headings then some (headings.idxOf name.toList) else none

/-- The columns used of a file, rfc_utils.py:1495-1514. -/
structure Cols where
  name : ℕ
  minlon : ℕ
  maxlon : ℕ
  minlat : ℕ
  maxlat : ℕ
  id : ℕ

/-- The column of the identifier, rfc_utils.py:1500-1514.  The last branch (`break`) is never reached, as a missing
`NAME` fails before. -/
def idCol (headings : List Str) (name : ℕ) : ℕ :=
  match colOf headings "NWS_ID" with
  | some k => k
  | none => match colOf headings "NWSID" with
    | some k => k
    | none => match colOf headings "CH5_ID" with
      | some k => k
      | none => match colOf headings "BASIN" with
        | some k => k
        | none => name

/-- rfc_utils.py:1495-1514: ValueError if a heading is missing. -/
def findCols (headings : List Str) : Except String Cols :=
  match colOf headings "NAME", colOf headings "MIN_X_AXIS_", colOf headings "MAX_X_AXIS_",
      colOf headings "MIN_Y_AXIS_", colOf headings "MAX_Y_AXIS_" with
  | some n, some a, some b, some c, some d => .ok ⟨n, a, b, c, d, idCol headings n⟩
  | _, _, _, _, _ => .error "ValueError"

/-- A line of the new table, rfc_utils.py:1547-1554, 1594-1601. -/
def tsvLine (rfc id minlon maxlon minlat maxlat name : Str) : Str :=
  rfc ++ ['\t'] ++ id ++ ['\t'] ++ minlon ++ ['\t'] ++ maxlon ++ ['\t'] ++ minlat ++ ['\t'] ++ maxlat ++ ['\t'] ++
    name ++ ['\n']

/-- The heading of the new table, rfc_utils.py:1459-1466. -/
def tsvHead : Str :=
  tsvLine "RFC_ID".toList "NWS_loc_ID".toList "MINLON".toList "MAXLON".toList "MINLAT".toList "MAXLAT".toList
    "NAME".toList

/-- One row, rfc_utils.py:1523-1555.  `fmt` reads a number with `np.float64` and writes it with five decimals
(`none` is ValueError).  Simplified: every failure is the one error, as nothing catches it. -/
def basinRow (fmt : Str → Option Str) (rfc : Str) (c : Cols) (l : Str) : Except String Str :=
  let v := split ',' l
  match v[c.id]?, v[c.name]?, v[c.minlon]?, v[c.maxlon]?, v[c.minlat]?, v[c.maxlat]? with
  | some i, some n, some a, some b, some p, some q =>
    match fmt (strip a), fmt (strip b), fmt (strip p), fmt (strip q) with
    | some a, some b, some p, some q =>
      .ok (tsvLine rfc (if strip i = [] then strip n else strip i) a b p q (strip n))
    | _, _, _, _ => .error "ValueError"
  | _, _, _, _, _, _ => .error "IndexError"

/-- The rows of one file, rfc_utils.py:1519-1557. -/
def basinRows (fmt : Str → Option Str) (rfc : Str) (c : Cols) : List Str → Except String (List Str)
  | [] => .ok []
  | l :: ls =>
    match basinRow fmt rfc c l with
    | .error e => .error e
    | .ok t =>
      match basinRows fmt rfc c ls with
      | .error e => .error e
      | .ok ts => .ok (t :: ts)

/-- The loop over the centers, rfc_utils.py:1473-1562.  An empty file has the header `''`.  A header without comma
ends the loop (`break`). -/
def centers (fmt : Str → Option Str) : List (Str × List Str) → Except String (List Str)
  | [] => .ok []
  | (rfc, f) :: fs =>
    let headings := split ',' (f.headD [])
    if headings.length ≤ 1 then .ok []
    else
      match findCols headings with
      | .error e => .error e
      | .ok c =>
        match basinRows fmt rfc c (f.drop 1) with
        | .error e => .error e
        | .ok ts =>
          match centers fmt fs with
          | .error e => .error e
          | .ok us => .ok (ts ++ us)

/-- One row of the West Gulf file, rfc_utils.py:1583-1602. -/
def westRow (l : Str) : Except String Str :=
  match split ',' l with
  | _ :: v1 :: v2 :: v3 :: v4 :: v5 :: v6 :: _ =>
    .ok (tsvLine "WGRFC".toList (strip v1) (strip v2) (strip v3) (strip v4) (strip v5) (strip v6))
  | _ => .error "IndexError"

/-- The rows of the West Gulf file, rfc_utils.py:1579-1604. -/
def westRows : List Str → Except String (List Str)
  | [] => .ok []
  | l :: ls =>
    match westRow l with
    | .error e => .error e
    | .ok t =>
      match westRows ls with
      | .error e => .error e
      | .ok ts => .ok (t :: ts)

/-- The centers in the order of the files, rfc_utils.py:1437-1440. -/
def rfcNames : List Str :=
  ["ABRFC".toList, "APRFC".toList, "CBRFC".toList, "CNRFC".toList, "LMRFC".toList, "MARFC".toList, "MBRFC".toList,
   "NCRFC".toList, "NERFC".toList, "NWRFC".toList, "OHRFC".toList, "SERFC".toList]

/-- `merge_rfc_basin_info()`, rfc_utils.py:1412-1614: the lines of the new table.  Simplified: all files can be
opened. -/
def merge (fmt : Str → Option Str) (files : List (List Str)) (west : List Str) : Except String (List Str) :=
  match centers fmt (rfcNames.zip files) with
  | .error e => .error e
  | .ok ts =>
    match westRows (west.drop 1) with
    | .error e => .error e
    | .ok ws => .ok (tsvHead :: (ts ++ ws))

end Rfc
