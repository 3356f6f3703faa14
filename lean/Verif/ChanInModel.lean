import Verif.InputModel
import Mathlib.Analysis.SpecialFunctions.Trigonometric.Basic

/-!
# The channel geometry a run computes with

How the inputs of the channels component become the variables it computes with:
`initialize_input_file_vars`, `open_input_files`, `read_input_files` and the first part of
`initialize_computed_vars` of `topoflow/components/channels_base.py`.  The reading of one value is
`InputModel`.  Numbers are real: rounding is not modelled.  The repair of bad slopes (kinematic wave
only) is treated in `ChannelModel`.
-/

set_option autoImplicit false

namespace ChanIn

open D8 (Cell)
open Input (Val VarType File)

noncomputable section

variable {ny nx : ℕ}

/-- What the CFG file says about one input: its type, its number if the type is Scalar, its file (none
if it does not exist) otherwise, and its factor (1 if there is none in the CFG file, `OptionModel`).
Used in the model of channels_base.py:3458-3556. -/
structure Source where
  ty : VarType
  number : ℝ
  file : Option (File ℝ)
  factor : ℝ

/-- One variable after `read_input_files`: channels_base.py:1049-1070 (`initialize_var`), 3482-3494
(`open_file`, model_input.py:26-71: a missing file is reported, and there is no file object) and
3517-3556 (`read_next`, `update_var`).  Reading from no file object raises AttributeError
(`readline`) or TypeError (`np.fromfile`). -/
def readInput (s : Source) : Except String (Val ℝ ny nx) :=
  match s.ty, s.file with
  | .scalar, _ => .ok (Input.initVar .scalar s.number)
  | .timeSeries, none => .error "AttributeError"
  | .grid, none => .error "TypeError"
  | .gridSequence, none => .error "TypeError"
  | ty, some f =>
    match Input.readVar ty 1 s.factor (Input.initVar ty s.number, f) with
    | .error e => .error e
    | .ok r => .ok r.1

/-- The inputs of the component.  Used in the model of channels_base.py:3498-3556. -/
structure Inputs where
  MANNING : Bool
  LAW_OF_WALL : Bool
  slope : Source
  nval : Source
  z0val : Source
  width : Source
  angle : Source
  sinu : Source
  d0 : Source
  d_bankfull : Source

/-- The variables after they are read: channels_base.py:3498-3556. -/
structure Vars (ny nx : ℕ) where
  slope : Val ℝ ny nx
  nval : Val ℝ ny nx
  z0val : Val ℝ ny nx
  width : Val ℝ ny nx
  angle : Val ℝ ny nx
  sinu : Val ℝ ny nx
  d0 : Val ℝ ny nx
  d_bankfull : Val ℝ ny nx

/-- A roughness parameter, which is read only if its formula is chosen: channels_base.py:3485-3488,
3520-3528. -/
def readRough (on : Bool) (s : Source) : Except String (Val ℝ ny nx) :=
  if on then readInput s else .ok (.sc s.number)

/-- `read_input_files`, channels_base.py:3498-3556.  The type of the slope is always Grid
(channels_base.py:689-693). -/
def readInputs (i : Inputs) : Except String (Vars ny nx) := do
  let slope ← readInput { i.slope with ty := .grid }
  let nval ← readRough i.MANNING i.nval
  let z0val ← readRough i.LAW_OF_WALL i.z0val
  let width ← readInput i.width
  let angle ← readInput i.angle
  let sinu ← readInput i.sinu
  let d0 ← readInput i.d0
  let d_bankfull ← readInput i.d_bankfull
  .ok ⟨slope, nval, z0val, width, angle, sinu, d0, d_bankfull⟩

/-- The flow lengths and flow widths of the cells (`d8.ds`, `d8.dw`).  Used in the model of
channels_base.py:1074-1133. -/
structure Flow (ny nx : ℕ) where
  ds : Cell ny nx → ℝ
  dw : Cell ny nx → ℝ

/-- A width of zero becomes the flow width of the cell: channels_base.py:1206-1209.  If the width is
one number for all cells, assigning the selected part of a grid (of more than one cell, as is assumed
here) to it raises ValueError. -/
def fixWidth (f : Flow ny nx) : Val ℝ ny nx → Except String (Val ℝ ny nx)
  | .sc w => if w = 0 then .error "ValueError" else .ok (.sc w)
  | .gr g => .ok (.gr (fun c => if g c = 0 then f.dw c else g c))

/-- What the component computes with: channels_base.py:1137-1338. -/
structure Geometry (ny nx : ℕ) where
  nval : Val ℝ ny nx
  z0val : Val ℝ ny nx
  width : Val ℝ ny nx
  angle : Val ℝ ny nx
  sinu : Val ℝ ny nx
  d_bankfull : Val ℝ ny nx
  /-- `d8.ds` after line 1244. -/
  length : Cell ny nx → ℝ
  /-- `slope`, which is `S_bed`, after line 1249. -/
  slope : Cell ny nx → ℝ
  /-- `d`. -/
  depth : Cell ny nx → ℝ
  /-- `vol_chan`. -/
  volume : Cell ny nx → ℝ

/-- The first part of `initialize_computed_vars`, channels_base.py:1137-1338 (the roughness: 1148-1184;
the bank angle: 1196; the width: 1206-1209; the sinuosity: 1244-1249; the depth: 1264-1265; the volume:
1331-1334). -/
def compute (i : Inputs) (f : Flow ny nx) (v : Vars ny nx) : Except String (Geometry ny nx) := do
  let z0val : Val ℝ ny nx := if i.MANNING then .sc (-1) else v.z0val
  let nval : Val ℝ ny nx := if i.LAW_OF_WALL then .sc (-1) else v.nval
  let z0val : Val ℝ ny nx := if i.MANNING = false ∧ i.LAW_OF_WALL = false then .sc (-1) else z0val
  let nval : Val ℝ ny nx := if i.MANNING = false ∧ i.LAW_OF_WALL = false then .sc (-1) else nval
  let angle := v.angle.scale (Real.pi / 180)
  let width ← fixWidth f v.width
  let length := fun c => v.sinu.at c * f.ds c
  let slope := fun c => v.slope.at c / v.sinu.at c
  let depth := fun c => 0 + v.d0.at c
  let volume := fun c => depth c * (width.at c + depth c * Real.tan (angle.at c)) * length c
  .ok ⟨nval, z0val, width, angle, v.sinu, v.d_bankfull, length, slope, depth, volume⟩

/-- The start of the component as far as it concerns its inputs: channels_base.py:695-775. -/
def start (i : Inputs) (f : Flow ny nx) : Except String (Geometry ny nx) :=
  match readInputs i with
  | .error e => .error e
  | .ok v => compute i f v

/-- What `update` does to the inputs: channels_base.py:803-960.  The call of `read_input_files` is
commented out (833-838), and nothing else in `update` assigns these variables (depth, volume and the
free surface slope are variables of the flow, see `ChannelModel`; they are not part of `Inputs`). -/
def updateInputs (g : Geometry ny nx) : Geometry ny nx := g

/-- The geometry in step `k` (counted from 0).  Used in the model of channels_base.py:640-960. -/
def atStep (i : Inputs) (f : Flow ny nx) (k : ℕ) : Except String (Geometry ny nx) :=
  match start i f with
  | .error e => .error e
  | .ok g => .ok (updateInputs^[k + 1] g)

end

end ChanIn
