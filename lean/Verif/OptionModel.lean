import Mathlib.Algebra.Order.Field.Rat
import Mathlib.Tactic.NormNum

/-!
# Options that older CFG files do not have

`set_missing_cfg_options` of the channels, meteorology and driver components, `set_new_defaults` of the
infiltration component, and the steps of the start of the channels component that depend on the options.
The reading of CFG files is `CfgModel`; here the attributes after it are given.
-/

set_option autoImplicit false

namespace Opts

/-- The attributes in question, as far as they are set by channels_base.py:540-631, 652-657, 714-757. -/
inductive Name where
  | CHECK_STABILITY
  | FLOOD_OPTION
  | SAVE_DF_GRIDS
  | SAVE_DF_PIXELS
  | d_flood_gs_file
  | d_flood_ts_file
  | ATTENUATE
  | n_days
  | min_baseflow_flux
  | min_baseflow_flux_mps
  | vol_GW
  | d_bankfull_type
  | d_bankfull
  | d_bankfull_file
  | CREATE_CHANNEL_FILES
  | max_river_width
  | channel_width_power
  | min_manning_n
  | max_manning_n
  | max_bankfull_depth
  | bankfull_depth_power
  | slope_factor
  | nval_factor
  | z0val_factor
  | width_factor
  | angle_factor
  | sinu_factor
  | d0_factor
  | d_bankfull_factor
  | width_file
  | manning_file
  /-- Any other attribute. -/
  | other (s : String)
  deriving DecidableEq

/-- Values of attributes (the types of CFG entries, BMI_base.py:1800-1930). -/
inductive Val where
  | bool (b : Bool)
  | num (x : ℚ)
  | str (s : String)
  deriving DecidableEq

/-- The attributes of a component.  Used in the model of channels_base.py:540-631. -/
abbrev Attrs := Name → Option Val

/-- `self.n = v`.  Used in the model of channels_base.py:540-631. -/
def put (a : Attrs) (n : Name) (v : Val) : Attrs := fun m => if m = n then some v else a m

/-- `if not(hasattr(self, n)): self.n = v`.  Used in the model of channels_base.py:540-631. -/
def orElse (a : Attrs) (n : Name) (v : Val) : Attrs := if a n = none then put a n v else a

/-- `self.n`, AttributeError if missing.  Used in the model of channels_base.py:540-757. -/
def get (a : Attrs) (n : Name) : Except String Val :=
  match a n with
  | some v => .ok v
  | none => .error "AttributeError"

/-- Python's truth value.  Used in the model of channels_base.py:653, 714. -/
def truthy : Val → Bool
  | .bool b => b
  | .num x => decide (x ≠ 0)
  | .str s => decide (s ≠ "")

/-- `v == True` (a number equals `True` when it is 1).  Used in the model of
channels_base.py:568, 596. -/
def isTrue : Val → Bool
  | .bool b => b
  | .num x => decide (x = 1)
  | .str _ => false

/-- `FLOOD_OPTION`: channels_base.py:547-560. -/
def floodDefault (a : Attrs) : Attrs :=
  if a .FLOOD_OPTION = none then
    put (put (put a .FLOOD_OPTION (.bool false)) .SAVE_DF_GRIDS (.bool false)) .SAVE_DF_PIXELS
      (.bool false)
  else a

/-- `ATTENUATE`: channels_base.py:562-570. -/
def attenuateDefault (a : Attrs) : Attrs :=
  let b := orElse a .ATTENUATE (.bool false)
  if (b .ATTENUATE).any isTrue then orElse b .n_days (.num 5) else b

/-- `min_baseflow_flux` and its value in m/s: channels_base.py:572-578 (`mmph_to_mps`: 536). A text
cannot be multiplied by a number. -/
def baseflow (a : Attrs) : Except String Attrs :=
  let b := orElse a .min_baseflow_flux (.num 0)
  match b .min_baseflow_flux with
  | some (.num x) =>
    .ok (put (put b .min_baseflow_flux_mps (.num (x * (1 / (3600 * 1000))))) .vol_GW (.num 0))
  | some (.bool t) =>
    .ok (put (put b .min_baseflow_flux_mps (.num ((if t then 1 else 0) * (1 / (3600 * 1000)))))
      .vol_GW (.num 0))
  | _ => .error "TypeError"

/-- `d_bankfull`: channels_base.py:580-588. -/
def bankfullDefault (a : Attrs) : Attrs :=
  if a .d_bankfull_type = none then
    put (put (put a .d_bankfull_type (.str "Scalar")) .d_bankfull (.num 10)) .d_bankfull_file (.str "")
  else a

/-- The parameters for new channel files: channels_base.py:590-608. -/
def createDefault (a : Attrs) : Attrs :=
  let b := orElse a .CREATE_CHANNEL_FILES (.bool false)
  if (b .CREATE_CHANNEL_FILES).any isTrue then
    orElse (orElse (orElse (orElse (orElse (orElse b .max_river_width (.num 140))
      .channel_width_power (.num (1 / 2))) .min_manning_n (.num (3 / 100)))
      .max_manning_n (.num (1 / 5))) .max_bankfull_depth (.num 8)) .bankfull_depth_power (.num (2 / 5))
  else b

/-- The scale factors: channels_base.py:610-630. -/
def factorDefaults (a : Attrs) : Attrs :=
  [Name.slope_factor, .nval_factor, .z0val_factor, .width_factor, .angle_factor, .sinu_factor,
    .d0_factor, .d_bankfull_factor].foldl (fun b n => orElse b n (.num 1)) a

/-- `set_missing_cfg_options` of the channels component: channels_base.py:540-631. -/
def channelsMissing (a : Attrs) : Except String Attrs :=
  match baseflow (attenuateDefault (floodDefault (orElse a .CHECK_STABILITY (.bool true)))) with
  | .error e => .error e
  | .ok b => .ok (factorDefaults (createDefault (bankfullDefault b)))

/-- No flood output without the flood option: channels_base.py:652-657. -/
def noFlood (a : Attrs) : Attrs :=
  if (a .FLOOD_OPTION).any truthy then a
  else put (put (put (put a .SAVE_DF_GRIDS (.bool false)) .SAVE_DF_PIXELS (.bool false))
    .d_flood_gs_file (.str "")) .d_flood_ts_file (.str "")

/-- The files that `get_grid_from_TCA` is asked to write, in order, with the parameters:
channels_base.py:714-757.  The attributes of the outputs are read one after the other. -/
def createFiles (a : Attrs) : Except String (List Val) :=
  if (a .CREATE_CHANNEL_FILES).any truthy then do
    let w ← get a .width_file
    let _ ← get a .max_river_width
    let _ ← get a .channel_width_power
    let m ← get a .manning_file
    let _ ← get a .min_manning_n
    let _ ← get a .max_manning_n
    let d ← get a .d_bankfull_file
    let _ ← get a .max_bankfull_depth
    let _ ← get a .bankfull_depth_power
    .ok [w, m, d]
  else .ok []

/-- The options and the new files at the start of the channels component, if it is on:
channels_base.py:648-757. -/
def channelsStart (a : Attrs) : Except String (Attrs × List Val) := do
  let b ← channelsMissing a
  let l ← createFiles (noFlood b)
  .ok (noFlood b, l)

end Opts
