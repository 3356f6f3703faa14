import Verif.RepoModel

/-!
# Closing the input files at the end of a run

Every component opens the files of the inputs that are not single numbers when it is initialised
(`open_input_files`, `model_input.open_file`) and closes them in `finalize` (`close_input_files`).
`finalize_all` of the framework calls `finalize` of each component in the order of the provider
file.  Modelled here: which files are opened and closed and which exceptions are raised.  The names
and types of the inputs are those of the CFG file; the sums and reports made by `finalize` are left
out (`ReportModel`), and so is what happens while the output files are closed (`OutputModel`).
-/

set_option autoImplicit false

namespace Finish

open Repo

/-- An input: its name, and its layer for the inputs that are given layer by layer. -/
abbrev Slot := String × ℕ

/-- The inputs given once: channels_base.py:3485-3494 (with Manning's formula; the law of the wall
has `z0val` in place of `nval`), met_base.py:2350-2372, snow_degree_day.py:394-398,
snow_energy_balance.py:489-493, glacier_energy_balance.py:706-715, evap_priestley_taylor.py:426-429,
evap_energy_balance.py:382-384, evap_read_file.py:232-233, satzone_base.py:1591-1595. -/
def plain : Comp → List String
  | .tf_channels_kin_wave | .tf_channels_diff_wave | .tf_channels_dynam_wave =>
      ["slope", "nval", "width", "angle", "sinu", "d0", "d_bankfull"]
  | .tf_meteorology =>
      ["P", "T_air", "T_surf", "RH", "p0", "uz", "z", "z0_air", "albedo", "em_surf", "dust_atten",
       "cloud_factor", "canopy_factor"]
  | .tf_snow_degree_day => ["c0", "T0", "rho_snow", "h0_snow", "h0_swe"]
  | .tf_snow_energy_balance => ["Cp_snow", "rho_snow", "T0", "h0_snow", "h0_swe"]
  | .tf_glacier_energy_balance =>
      ["Cp_snow", "rho_snow", "T0", "h0_snow", "h0_swe", "Cp_ice", "rho_ice", "h0_ice", "h0_iwe",
       "h_active_layer"]
  | .tf_evap_priestley_taylor => ["alpha", "K_soil", "soil_x", "T_soil_x"]
  | .tf_evap_energy_balance => ["K_soil", "soil_x", "T_soil_x"]
  | .tf_evap_read_file => ["ET"]
  | .tf_satzone_darcy_layers | .tf_satzone_attenuate => ["elev", "h0_table", "d_freeze", "d_thaw"]
  | _ => []

/-- The inputs given for each layer: satzone_base.py:1606-1608, infil_green_ampt.py:429-433,
infil_smith_parlange.py:444-449, infil_beven.py:417-421, infil_richards_1D.py:2474-2482. -/
def layered : Comp → List String
  | .tf_satzone_darcy_layers | .tf_satzone_attenuate => ["Ks", "qs", "th"]
  | .tf_infil_green_ampt => ["Ks", "Ki", "qs", "qi", "G"]
  | .tf_infil_smith_parlange => ["Ks", "Ki", "qs", "qi", "G", "gam"]
  | .tf_infil_beven => ["Ks", "qs", "qi", "f", "C"]
  | .tf_infil_richards_1d => ["Ks", "Ki", "qs", "qi", "qr", "pB", "pA", "lam", "c"]
  | _ => []

/-- All inputs of a component with `n` layers, in the order in which they are opened and closed. -/
def slots (c : Comp) (n : ℕ) : List Slot :=
  (plain c).map (fun x => (x, 0)) ++
    (List.range n).flatMap (fun k => (layered c).map (fun x => (x, k)))

/-- `open_file`, model_input.py:21-70: `none` for a single number and for a file that is not found
(or has no name), otherwise an open file. -/
def openFile (type : String) (found : Bool) : Option Unit :=
  if type.toLower = "scalar" then none else if found then some () else none

/-- The components whose `close_input_files` compares the type with `'Scalar'` as it is written
(met_base.py:2627-2643, snow_energy_balance.py:528-532, glacier_energy_balance.py:770-779,
evap_priestley_taylor.py:479-482, evap_energy_balance.py:418-420, infil_green_ampt.py:471-476,
infil_smith_parlange.py:496-502, infil_beven.py:459-464, infil_richards_1D.py:2597-2606); the others
compare in lower case (channels_base.py:3658-3667, snow_degree_day.py:436-440,
satzone_base.py:1667-1681). -/
def exactCase : Comp → Bool
  | .tf_meteorology | .tf_snow_energy_balance | .tf_glacier_energy_balance
  | .tf_evap_priestley_taylor | .tf_evap_energy_balance | .tf_infil_green_ampt
  | .tf_infil_smith_parlange | .tf_infil_beven | .tf_infil_richards_1d => true
  | _ => false

/-- Whether `close_input_files` calls `close` for an input of this type: the lines cited at
`exactCase`. -/
def wantsClose (c : Comp) (type : String) : Bool :=
  if exactCase c then decide (type ≠ "Scalar") else decide (type.toLower ≠ "scalar")

/-- What the CFG file of a component says: switched off, layers, the type of every input, and
whether its file is found. -/
structure Cfg where
  off : Bool
  layers : ℕ
  type : Slot → String
  found : Slot → Bool

/-- The inputs whose files are open after `open_input_files`.
Used in the model of the lines cited at `plain` and `layered`. -/
def opened (c : Comp) (g : Cfg) : List Slot :=
  (slots c g.layers).filter (fun s => (openFile (g.type s) (g.found s)).isSome)

/-- `close_input_files` (the lines cited at `exactCase`): the inputs whose files were closed, and
the exception.  `None` has no method `close`.  Evaporation read from files closes inside `try`
(evap_read_file.py:268-273). -/
def closeAll (c : Comp) (g : Cfg) : List Slot → List Slot × Option String
  | [] => ([], none)
  | s :: rest =>
    if c = .tf_evap_read_file then
      if (openFile (g.type s) (g.found s)).isSome then
        (s :: (closeAll c g rest).1, (closeAll c g rest).2)
      else closeAll c g rest
    else if wantsClose c (g.type s) then
      match openFile (g.type s) (g.found s) with
      | none => ([], some "AttributeError")
      | some _ => (s :: (closeAll c g rest).1, (closeAll c g rest).2)
    else closeAll c g rest

/-- What `finalize` of a component has done. -/
structure Closed where
  inputs : List Slot
  outputs : Bool
  raised : Option String
  deriving DecidableEq

/-- `finalize` (channels_base.py:964-990, met_base.py:836-853, snow_base.py:280-295,
glacier_base.py:297-311, evap_base.py:231-247, infil_base.py:359-375, satzone_base.py:286-301,
diversions_base.py:172-187, ice_base.py:758-776): nothing if the component is off; otherwise first
the input files, then the output files.  The flag `PRECIP_ONLY` of the meteorology, with which there
are no output files, is left out. -/
def finalizeOne (c : Comp) (g : Cfg) : Closed :=
  if g.off then ⟨[], false, none⟩
  else match closeAll c g (slots c g.layers) with
    | (l, some e) => ⟨l, false, some e⟩
    | (l, none) => ⟨l, true, none⟩

/-- `finalize_all`, emeli.py:846-888: what each component has done, up to the first that raises an
exception, which ends the run. -/
def finalizeAll (g : Comp → Cfg) : List Comp → List (Comp × Closed)
  | [] => []
  | c :: rest =>
    (c, finalizeOne c (g c)) ::
      if (finalizeOne c (g c)).raised = none then finalizeAll g rest else []

end Finish
