import Verif.CfgModel

/-!
# The table of climate indicators of the GAGES-II sites

Model of `create_climate_data_tsv_file` of topoflow/utils/ngen/gages2B_utils.py.  The dictionary of site information and
the text of the computed columns are parameters; a line is given with its newline character.  A file that cannot be
converted is `none`: the rows written before are not modelled.
-/

set_option autoImplicit false

namespace ClimTab

open Cfg (Str strip split)

/-- `get_problem_ids`.  gages2_utils.py:640-651. -/
def problemIds : List Str :=
  ["136230002", "142400103", "143400680", "163626650", "204382800", "208111310", "208650112", "21536097",
   "344894205", "357479650", "423401815", "72632962", "72632971", "72632982", "73274406", "810464660"].map String.toList

/-- The names of the computed columns.  gages2B_utils.py:162-165. -/
def newHeadings : List Str :=
  ["SNOW_FRACTION", "TEMP_RANGE", "SEASONALITY1", "ARIDITY", "SWB_CLASS", "LATITUDE", "LONGITUDE", "ARIDITY2",
   "ARIDITY_DIFF", "K_ARIDITY", "K_SEASONALITY", "K_SNOW_FRAC"].map String.toList

/-- `get_csv_headings`.  gages2B_utils.py:64-81. -/
def headings (line : Str) : List Str := (split ',' line).map strip

/-- The values of a line, the first one with a zero before it if it is a known wrong ID.
gages2B_utils.py:190-197. -/
def values (line : Str) : List Str :=
  match split ',' line.dropLast with
  | [] => []
  | id :: r => (if id ∈ problemIds then '0' :: id else id) :: r

/-- The ID under which the site is looked up.  gages2B_utils.py:194, 209-212. -/
def siteId (line : Str) : Str := (split ',' line.dropLast).headD []

/-- `val_dict[h]` after the assignments in order, so that the last of several equal names counts.
gages2B_utils.py:202-204. -/
def get (hs vs : List Str) (h : Str) : Option Str := (hs.zip vs).reverse.lookup h

/-- The cells of one row: values of the line, or computed from them.  IndexError if the line has too few values.
`comp` gives the text of the computed columns for the site information and the dictionary of values; it is `none` if a
value is missing or cannot be read.  gages2B_utils.py:202-204, 213-287. -/
def cells {Info : Type} (comp : Info → (Str → Option Str) → Option (Str → Str)) (hs vs : List Str) (i : Info) :
    Option (List Str) :=
  if vs.length < hs.length then none
  else (comp i (get hs vs)).map (fun f => (hs ++ newHeadings).map (fun h => ((get hs vs) h).getD (f h)))

/-- The loop over the lines; a site that is not in the dictionary gets no row.  gages2B_utils.py:186-289. -/
def loop {Info : Type} (comp : Info → (Str → Option Str) → Option (Str → Str)) (info : Str → Option Info)
    (hs : List Str) : List Str → Option (List (List Str))
  | [] => some []
  | l :: r =>
    if (values l).length < hs.length then none
    else
      match info (siteId l) with
      | none => loop comp info hs r
      | some i => do
        let cs ← cells comp hs (values l) i
        let rest ← loop comp info hs r
        return cs :: rest

/-- The names of the columns and the rows.  gages2B_utils.py:125-290. -/
def table {Info : Type} (comp : Info → (Str → Option Str) → Option (Str → Str)) (info : Str → Option Info) :
    List Str → Option (List (List Str))
  | [] => none
  | h :: ls => (loop comp info (headings h) ls).map (fun rows => (headings h ++ newHeadings) :: rows)

end ClimTab
