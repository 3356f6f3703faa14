import Verif.RoundModel
import Verif.ChannelModel

/-!
# Channel volumes in floating point

`update_flow_volume` of topoflow/components/channels_base.py, and the emptying of the cells without flow direction in `update_edge_values`, with every operation followed by a rounding.
The excess rate `R` and the discharge `Q` of an update may be any numbers; how they are computed is in
`ChannelModel.lean` (exact).  The sum `vol_edge` is exact here: the order of the additions of `np.sum`
is not modelled.
-/

set_option autoImplicit false

noncomputable section

open D8 (Cell)

namespace RoundChan

open Chan (Net)

variable {ny nx : ℕ}

/-- Fixed grids and step.  Used in the model of channels_base.py:1951-2146. -/
structure Par (ny nx : ℕ) where
  dt : ℝ
  da : Cell ny nx → ℝ
  /-- the option ATTENUATE and the days of its reservoir -/
  att : Bool := false
  nDays : ℝ := 5

/-- Excess rate and discharge of an update.  Used in the model of channels_base.py:1951-2146. -/
structure In (ny nx : ℕ) where
  R : Cell ny nx → ℝ
  Q : Cell ny nx → ℝ

variable (r : ℝ → ℝ)

/-- numpy's `v[ps] += xs`, rounded.  Used in the model of channels_base.py:2116-2131. -/
def fancyAddR (v : Cell ny nx → ℝ) (ps : List (Cell ny nx)) (xs : List ℝ) : Cell ny nx → ℝ :=
  (ps.zip xs).foldl (fun acc px => Function.update acc px.1 (r (v px.1 + px.2))) v

/-- `(self.R * self.da) * dt`, channels_base.py:2086. -/
def runoff (p : Par ny nx) (i : In ny nx) (c : Cell ny nx) : ℝ := r (r (i.R c * p.da c) * p.dt)

/-- `dt * self.Q[w]` of the inflow, channels_base.py:2117. -/
def sent (p : Par ny nx) (i : In ny nx) (c : Cell ny nx) : ℝ := r (p.dt * i.Q c)

/-- `self.Q * dt` of the outflow, channels_base.py:2138. -/
def taken (p : Par ny nx) (i : In ny nx) (c : Cell ny nx) : ℝ := r (i.Q c * p.dt)

/-- Water entering the channel of a cell, and the new content of its reservoir.
channels_base.py:2077-2087. -/
def gain (p : Par ny nx) (i : In ny nx) (stored : Cell ny nx → ℝ) (c : Cell ny nx) : ℝ × ℝ :=
  if p.att then
    let s1 := r (stored c + runoff r p i c)
    let tDrain := r (r (3600 * 24) * p.nDays)
    let qSides := r (s1 / tDrain)
    let vs := min (r (qSides * p.dt)) s1
    (vs, max (r (s1 - vs)) 0)
  else (runoff r p i c, stored c)

/-- `update_flow_volume` after the water `g` entering the channels is known,
channels_base.py:2083, 2087, 2116-2145. -/
def newVol (p : Par ny nx) (net : Net ny nx) (i : In ny nx) (g vol : Cell ny nx → ℝ) :
    Cell ny nx → ℝ :=
  let v0 : Cell ny nx → ℝ := fun c => r (vol c + g c)
  let v8 := (List.finRange 8).foldl
    (fun v k => fancyAddR r v ((net.w k).map net.parent) ((net.w k).map (sent r p i))) v0
  fun c => max (r (v8 c - taken r p i c)) 0

/-- The volumes, the reservoirs and the water gone over the edge.  Used in the model of channels_base.py:2938-2984. -/
structure St (ny nx : ℕ) where
  vol : Cell ny nx → ℝ
  stored : Cell ny nx → ℝ
  volEdge : ℝ

/-- `update_flow_volume` and `update_edge_values`, channels_base.py:1951-2146, 2938-2984. -/
def step (p : Par ny nx) (net : Net ny nx) (i : In ny nx) (s : St ny nx) : St ny nx :=
  let v := newVol r p net i (fun c => (gain r p i s.stored c).1) s.vol
  { vol := fun c => if c ∈ net.noflow then 0 else v c
    stored := fun c => (gain r p i s.stored c).2
    volEdge := s.volEdge + (net.noflow.map v).sum }

/-- The states after each update.  Built on the model of channels_base.py:1951-2146. -/
def states (p : Par ny nx) (net : Net ny nx) : St ny nx → List (In ny nx) → List (St ny nx)
  | _, [] => []
  | s, i :: is => step r p net i s :: states p net (step r p net i s) is

/-- The state at the end.  Built on the model of channels_base.py:1951-2146. -/
def run (p : Par ny nx) (net : Net ny nx) : St ny nx → List (In ny nx) → St ny nx
  | s, [] => s
  | s, i :: is => run p net (step r p net i s) is

end RoundChan

end
