import Verif.ChannelModel
import Verif.EvapModel
import Verif.SnowModel
import Verif.MetModel
import Verif.DriverModel

/-!
# The components together: one step of a hydrologic model and its final report

Meteorology, channels, snow and evaporation, updated in the order of the shipped provider files
(meteorology, channels, snow, ..., evaporation, ...) with the same time step and the same cell areas.
The variables they exchange are grids, so the channels use the rain of the same step and the melt
and evaporation rates of the step before (C221 in `CoupleProps`).  What infiltration, groundwater and ice do in a step may be
anything: the rates that the channels read are arguments, and so are the soil water in the report, the
heat flux to the snow and the rates that the evaporation computes.
-/

set_option autoImplicit false

noncomputable section

namespace System

open D8 (Cell)

variable {ny nx : ℕ}

/-- Settings: those of the channels (with the time step and the cell areas of all components), the
network, those of the meteorology and the melt method.
Used in the model of emeli.py:1019-1079. -/
structure Cfg (ny nx : ℕ) where
  p : Chan.Params ny nx
  net : Chan.Net ny nx
  met : Met.Cfg ℝ ny nx
  melt : Snow.Method ℝ (Cell ny nx)

/-- The settings of the meteorology, with the common time step and areas.
Used in the model of emeli.py:1019-1079. -/
def Cfg.metCfg (cfg : Cfg ny nx) : Met.Cfg ℝ ny nx := { cfg.met with dt := cfg.p.dt, da := cfg.p.da }

/-- The settings of the snow component, with the common time step and areas.
Used in the model of emeli.py:1019-1079. -/
def Cfg.snowParams (cfg : Cfg ny nx) : Snow.Params ℝ (Cell ny nx) :=
  { method := cfg.melt, dt := cfg.p.dt, da := cfg.p.da }

/-- The states of the four components.  Used in the model of emeli.py:1019-1079. -/
structure Sys (ny nx : ℕ) where
  met : Met.St ℝ ny nx
  chan : Chan.St ny nx
  snow : Snow.St ℝ (Cell ny nx)
  evap : Evap.ESt ny nx

/-- What the other components deliver in a step: infiltration, baseflow and ice melt to the channels,
heat flux and density ratio to the snow, and the rates that the evaporation computes.
Used in the model of emeli.py:1019-1079. -/
structure Ext (ny nx : ℕ) where
  IN : Cell ny nx → ℝ
  GW : Cell ny nx → ℝ
  MR : Cell ny nx → ℝ
  Q_sum : Cell ny nx → ℝ
  ratio : Cell ny nx → ℝ
  pot : Cell ny nx → ℝ

/-- The inputs of the channels in a step: rain of this step, melt and evaporation of the step before
(channels_base.py:1602-1632). -/
def chanInp (met' : Met.St ℝ ny nx) (s : Sys ny nx) (e : Ext ny nx) : Chan.Inp ny nx :=
  { P := met'.P_rain.at
    SM := s.snow.SM
    GW := e.GW
    MR := e.MR
    IN := e.IN
    ET := .inr s.evap.ET }

/-- The inputs of the snow component in a step: snowfall and temperature of this step
(snow_degree_day.py:293-358, snow_base.py:559-609). -/
def snowInp (met' : Met.St ℝ ny nx) (e : Ext ny nx) : Snow.Inp ℝ (Cell ny nx) :=
  { P_snow := met'.P_snow.at
    T_air := met'.T_air.at
    Q_sum := e.Q_sum
    ratio := e.ratio }

/-- One pass through the provider list, emeli.py:1019-1079: meteorology, channels (which
set entries of the evaporation grid to zero), snow, evaporation. -/
def sysStep (cfg : Cfg ny nx) (e : Ext ny nx) (s : Sys ny nx) : Except String (Sys ny nx) :=
  match Met.update cfg.metCfg s.met with
  | .error x => .error x
  | .ok met' =>
    match Chan.step cfg.p cfg.net (chanInp met' s e) s.chan with
    | .error x => .error x
    | .ok chan' =>
      .ok
        { met := met'
          chan := chan'
          snow := Snow.step cfg.snowParams (snowInp met' e) s.snow
          evap := Evap.evapUpdate cfg.p.da cfg.p.dt e.pot
            (Evap.chanUses cfg.p (chanInp met' s e) s.chan s.evap) }

/-- The states after each step of a run.  Built on the model of emeli.py:1019-1079. -/
def sysRun (cfg : Cfg ny nx) : Sys ny nx → List (Ext ny nx) → Except String (List (Sys ny nx))
  | _, [] => .ok []
  | s, e :: es =>
    match sysStep cfg e s with
    | .error x => .error x
    | .ok s' =>
      match sysRun cfg s' es with
      | .error x => .error x
      | .ok l => .ok (s' :: l)

/-- The volumes in the final report (topoflow_driver.py:1163-1296): totals of precipitation,
evaporation and outflow at the edge, water in the channels at the start (`vol_chan_sum0`,
channels_base.py:1336) and at the end (`update_total_channel_water_volume`, 3083-3110, called by
`finalize`, 963-991), on the flood plain (3112-3137), in the soil (any numbers) and in the snowpack
(snow_base.py:705-731).  The driver is finalised after the other components, so that it reads these
final values (emeli.py:846-889). -/
def report (cfg : Cfg ny nx) (s0 s : Sys ny nx) (soil0 soil : ℝ) : Driver.Vols ℝ :=
  { P := s.met.vol_P
    ET := s.evap.volET
    edge := s.chan.volEdge
    chan0 := ∑ c, s0.chan.volChan c
    chan := ∑ c, s.chan.volChan c
    flood := ∑ c, s.chan.volFlood c
    soil0 := soil0
    soil := soil
    swe0 := Snow.snowVolume cfg.snowParams s0.snow
    swe := Snow.snowVolume cfg.snowParams s.snow }

end System
