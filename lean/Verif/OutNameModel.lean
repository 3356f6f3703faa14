import Verif.OutputModel
import Verif.FilesModel

/-!
# The names of output files

Models `update_outfile_names` and the part of `open_output_files` of the components that determines the
names of the files that are created (topoflow/components/*_base.py, topoflow/utils/model_output.py).
The names in the configuration file are attributes of the component; `open_new_gs_file` and its relatives
do not use their argument `file_name` for the new file but the attribute with the name of the variable.
Whether a name that is in use gets a version number is modelled in FilesModel; the profiles and cubes of
the Richards component are modelled in NcModel, here only the fact that opening a profile file fails.
-/

set_option autoImplicit false

namespace OutName

open Files (Name)

/-- The attributes that hold file names.  Used in the model of channels_base.py:3671-3690. -/
abbrev Attrs := String → Option Name

/-- The methods of one component as tables: names that get the extension .rtg (`d8_base` only), names to
which the output directory is prepended, synonyms (new attribute, old attribute), and for grids,
time series and profiles the rows (switch, variable) of `open_output_files`.  `off`: switches that are set to
False between the reading of the configuration file and the opening of the files; `needs`: switches that are
set to False unless another option is on; `blank`: names that are emptied unless an option is on; `silent`: options that leave out the opening altogether.
Used in the model of channels_base.py:3671-3845. -/
structure Comp where
  rtg : List String
  keys : List String
  syn : List (String × String)
  gs : List (String × String)
  ts : List (String × String)
  ps : List (String × String)
  off : List String := []
  needs : List (String × String) := []
  blank : List (String × String) := []
  silent : List String := []

/-- The switches as they are when the files are opened (channels_base.py:653-655, infil_green_ampt.py:294-297,
infil_smith_parlange.py:296-299, infil_beven.py:289-292). -/
def effective (c : Comp) (on : String → Bool) (f : String) : Bool :=
  on f && !(c.off.contains f) && c.needs.all (fun r => r.1 != f || on r.2)

/-- Python `s.find(c)` for one character; `none` stands for -1.  Used in the model of d8_base.py:914-927. -/
def find (c : Char) : Name → Option ℕ
  | [] => none
  | x :: xs => if x = c then some 0 else (find c xs).map (· + 1)

/-- `change_extension_to_rtg`, d8_base.py:914-927. -/
def toRtg (s : Name) : Name :=
  match find '.' s with
  | none => s
  | some p => if s.drop p ≠ ".rtg".toList then s.take p ++ ".rtg".toList else s

/-- `self.x = f(self.x)` for the listed attributes, in order; `AttributeError` if one is missing.
Used in the model of channels_base.py:3671-3690. -/
def mapKeys (f : Name → Name) : List String → Attrs → Except String Attrs
  | [], a => .ok a
  | k :: ks, a =>
    match a k with
    | none => .error "AttributeError"
    | some s => mapKeys f ks (Function.update a k (some (f s)))

/-- `self.new = self.old`, ice_base.py:903-904. -/
def synonyms : List (String × String) → Attrs → Attrs
  | [], a => a
  | (new, old) :: l, a => synonyms l (Function.update a new (a old))

/-- `update_outfile_names` of a component with the given table (channels_base.py:3671-3690, d8_base.py:948-969,
ice_base.py:885-904, ...). -/
def updateNames (c : Comp) (dir : Name) (a : Attrs) : Except String Attrs :=
  match mapKeys toRtg c.rtg a with
  | .error e => .error e
  | .ok a =>
    match mapKeys (dir ++ ·) c.keys a with
    | .error e => .error e
    | .ok a => .ok (synonyms c.syn a)

/-- The files created for the rows of one kind: `replace_extension` of the attribute of the variable, for
each extension that is written (model_output.py:113-281, 330-423). -/
def openRows (suffix : String) (exts : List String) (on : String → Bool) (a : Attrs) :
    List (String × String) → Except String (List (String × List Name))
  | [] => .ok []
  | (flag, v) :: l =>
    if on flag then
      match a (v ++ suffix) with
      | none => .error "AttributeError"
      | some s =>
        match openRows suffix exts on a l with
        | .error e => .error e
        | .ok r => .ok ((flag, exts.map (fun e => Files.replaceExtension s e.toList)) :: r)
    else openRows suffix exts on a l

/-- `open_output_files`: the switches that are on with the names of the files that are created for them
(grids: netCDF and RTS; time series: netCDF).  `open_new_ps_file` always fails (model_output.py:493-560, see
NcModel).  Built on the model of channels_base.py:3748-3845. -/
def openFiles (c : Comp) (dir : Name) (a : Attrs) (on : String → Bool) :
    Except String (List (String × List Name)) :=
  match updateNames c dir a with
  | .error e => .error e
  | .ok a =>
    match openRows "_gs_file" [".nc", ".rts"] on a c.gs with
    | .error e => .error e
    | .ok g =>
      match openRows "_ts_file" [".nc"] on a c.ts with
      | .error e => .error e
      | .ok t => if c.ps.any (fun r => on r.1) then .error "TypeError: unexpected keyword argument" else .ok (g ++ t)

/-- The names as they are when the files are opened (channels_base.py:653-657). -/
def blanked (c : Comp) (on : String → Bool) (a : Attrs) : Attrs := fun k =>
  if c.blank.any (fun r => r.1 == k && !on r.2) then some [] else a k

/-- The opening of output files in `initialize` of an enabled component, with the options of the
configuration file (channels_base.py:652-657, 798, infil_base.py:284-299, met_base.py:729-730). -/
def openOutput (c : Comp) (dir : Name) (a : Attrs) (on : String → Bool) :
    Except String (List (String × List Name)) :=
  if c.silent.any on then .ok [] else openFiles c dir (blanked c on a) (effective c on)

/-! ## The tables -/

/-- channels_base.py:3671-3690 (names), 3781-3845 (open), 653-657 (flood option). -/
def channels : Comp where
  rtg := []
  keys := ["Q_gs_file", "u_gs_file", "d_gs_file", "f_gs_file", "d_flood_gs_file", "Q_ts_file",
    "u_ts_file", "d_ts_file", "f_ts_file", "d_flood_ts_file"]
  syn := []
  gs := Output.channels.openGs
  ts := Output.channels.openTs
  ps := []
  needs := [("SAVE_DF_GRIDS", "FLOOD_OPTION"), ("SAVE_DF_PIXELS", "FLOOD_OPTION")]
  blank := [("d_flood_gs_file", "FLOOD_OPTION"), ("d_flood_ts_file", "FLOOD_OPTION")]

/-- d8_base.py:948-969 (names), 993-1049 (open), for a component with monitored cells. -/
def d8 : Comp where
  rtg := ["code_gs_file", "area_gs_file", "dw_gs_file", "ds_gs_file"]
  keys := ["code_gs_file", "area_gs_file", "dw_gs_file", "ds_gs_file", "code_ts_file",
    "area_ts_file", "dw_ts_file", "ds_ts_file"]
  syn := []
  gs := Output.d8.openGs
  ts := Output.d8.openTs
  ps := []

/-- snow_base.py:757-771 (names), 796-855 (open). -/
def snow : Comp where
  rtg := []
  keys := ["mr_gs_file", "hs_gs_file", "sw_gs_file", "cc_gs_file", "mr_ts_file", "hs_ts_file",
    "sw_ts_file", "cc_ts_file"]
  syn := []
  gs := Output.snow.openGs
  ts := Output.snow.openTs
  ps := []

/-- met_base.py:2662-2686 (names), 2704-2794 (open), 729-730 (precipitation only). -/
def met : Comp where
  rtg := []
  keys := ["ea_gs_file", "es_gs_file", "Qsw_gs_file", "Qlw_gs_file", "ema_gs_file", "tsurf_gs_file",
    "alb_gs_file", "ea_ts_file", "es_ts_file", "Qsw_ts_file", "Qlw_ts_file", "ema_ts_file",
    "tsurf_ts_file", "alb_ts_file"]
  syn := []
  gs := Output.met.openGs
  ts := Output.met.openTs
  ps := []
  silent := ["PRECIP_ONLY"]

/-- satzone_base.py:1685-1706 (names), 1733-1784 (open). -/
def satzone : Comp where
  rtg := []
  keys := ["GW_gs_file", "h_table_gs_file", "d_freeze_gs_file", "d_thaw_gs_file", "GW_ts_file",
    "h_table_ts_file", "d_freeze_ts_file", "d_thaw_ts_file"]
  syn := []
  gs := Output.satzone.openGs
  ts := Output.satzone.openTs
  ps := []

/-- evap_base.py:578-586 (names), 608-623 (open). -/
def evap : Comp where
  rtg := []
  keys := ["ET_gs_file", "ET_ts_file"]
  syn := []
  gs := Output.evap.openGs
  ts := Output.evap.openTs
  ps := []

/-- ice_base.py:885-904 (names and synonyms), 927-970 (open). -/
def ice : Comp where
  rtg := []
  keys := ["hi_gs_file", "zi_gs_file", "mr_gs_file", "hi_ts_file", "zi_ts_file", "mr_ts_file"]
  syn := [("imr_gs_file", "mr_gs_file"), ("imr_ts_file", "mr_ts_file")]
  gs := Output.ice.openGs
  ts := Output.ice.openTs
  ps := []

/-- glacier_base.py:945-970 (names), 1002-1118 (open). -/
def glacier : Comp where
  rtg := []
  keys := ["smr_gs_file", "hs_gs_file", "sw_gs_file", "cc_gs_file", "imr_gs_file", "hi_gs_file",
    "cci_gs_file", "iw_gs_file", "tmr_gs_file", "smr_ts_file", "hs_ts_file", "sw_ts_file",
    "cc_ts_file", "imr_ts_file", "hi_ts_file", "cci_ts_file", "iw_ts_file", "tmr_ts_file"]
  syn := []
  gs := Output.glacier.openGs
  ts := Output.glacier.openTs
  ps := []

/-- erode_base.py:2075-2095 (names), 2135-2270 (open). -/
def erode : Comp where
  rtg := []
  keys := ["z_gs_file", "S_gs_file", "A_gs_file", "Q_gs_file", "Qs_gs_file", "dz_gs_file",
    "dt_gs_file", "dz_dt_gs_file", "z_ts_file", "S_ts_file", "A_ts_file", "Q_ts_file",
    "Qs_ts_file", "dz_ts_file", "dt_ts_file", "dz_dt_ts_file"]
  syn := []
  gs := [("SAVE_Z_GRIDS", "z"), ("SAVE_S_GRIDS", "S"), ("SAVE_A_GRIDS", "A"),
    ("SAVE_Q_GRIDS", "Q"), ("SAVE_QS_GRIDS", "Qs"), ("SAVE_DZ_GRIDS", "dz"),
    ("SAVE_DT_GRIDS", "dt"), ("SAVE_DZ_DT_GRIDS", "dz_dt")]
  ts := [("SAVE_Z_PIXELS", "z"), ("SAVE_S_PIXELS", "S"), ("SAVE_A_PIXELS", "A"),
    ("SAVE_Q_PIXELS", "Q"), ("SAVE_QS_PIXELS", "Qs"), ("SAVE_DZ_PIXELS", "dz"),
    ("SAVE_DT_PIXELS", "dt"), ("SAVE_DZ_DT_PIXELS", "dz_dt")]
  ps := []

/-- The Richards component: infil_base.py:1089-1116 (names), 1165-1255 (open). -/
def richards : Comp where
  rtg := []
  keys := ["v0_gs_file", "I_gs_file", "q0_gs_file", "Zw_gs_file", "v0_ts_file", "I_ts_file",
    "q0_ts_file", "Zw_ts_file", "q_ps_file", "p_ps_file", "K_ps_file", "v_ps_file"]
  syn := []
  gs := [("SAVE_V0_GRIDS", "v0"), ("SAVE_I_GRIDS", "I"), ("SAVE_Q0_GRIDS", "q0"),
    ("SAVE_ZW_GRIDS", "Zw")]
  ts := [("SAVE_V0_PIXELS", "v0"), ("SAVE_I_PIXELS", "I"), ("SAVE_Q0_PIXELS", "q0"),
    ("SAVE_ZW_PIXELS", "Zw")]
  ps := [("SAVE_Q_PROFILES", "q"), ("SAVE_P_PROFILES", "p"), ("SAVE_K_PROFILES", "K"),
    ("SAVE_V_PROFILES", "v")]

/-- The other infiltration components: infil_green_ampt.py:486-495, infil_smith_parlange.py:513-522,
infil_beven.py:468-477 (names), infil_base.py:1165-1229 (open), infil_green_ampt.py:294-297,
infil_smith_parlange.py:296-299, infil_beven.py:289-292 (switches set to False). -/
def greenAmpt : Comp where
  rtg := []
  keys := ["v0_gs_file", "I_gs_file", "v0_ts_file", "I_ts_file"]
  syn := []
  gs := [("SAVE_V0_GRIDS", "v0"), ("SAVE_I_GRIDS", "I"), ("SAVE_Q0_GRIDS", "q0"),
    ("SAVE_ZW_GRIDS", "Zw")]
  ts := [("SAVE_V0_PIXELS", "v0"), ("SAVE_I_PIXELS", "I"), ("SAVE_Q0_PIXELS", "q0"),
    ("SAVE_ZW_PIXELS", "Zw")]
  ps := []
  off := ["SAVE_Q0_GRIDS", "SAVE_ZW_GRIDS", "SAVE_Q0_PIXELS", "SAVE_ZW_PIXELS"]

end OutName
