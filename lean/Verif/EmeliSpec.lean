import Verif.EmeliModel

/-!
# Specification vocabulary for coupled runs

Only observable quantities: clocks and time steps in seconds, statuses, name lists.
-/

set_option autoImplicit false

namespace EmeliSpec

open Emeli

/-- Seconds in one unit of time (365-day years, months of one twelfth year); any other unit
name means seconds. -/
def secondsPer (K : Type*) [Field K] (units : String) : K :=
  if units ∈ ["years", "y"] then 31536000
  else if units = "months" then 2628000
  else if units ∈ ["days", "d"] then 86400
  else if units ∈ ["hours", "h"] then 3600
  else if units ∈ ["minutes", "m"] then 60
  else 1

variable {K : Type*} [Field K]

/-- Component `c`'s clock, in seconds. -/
def clockSec (cfg : Config K) (s : St K) (c : String) : K :=
  s.ctime c * secondsPer K (cfg.decl c).units

/-- Component `c`'s time step, in seconds. -/
def stepSec (cfg : Config K) (c : String) : K :=
  (cfg.decl c).dt * secondsPer K (cfg.decl c).units

/-- Names of components are distinct, every component is marked 'Enabled' or 'disabled' (in
any capitalisation of the latter), and time steps are positive. -/
structure WellFormed [LinearOrder K] (cfg : Config K) : Prop where
  distinct : cfg.provs.Nodup
  status : ∀ c ∈ cfg.provs, (cfg.decl c).status = "Enabled" ∨
    (cfg.decl c).status.toLower = "disabled"
  positive : ∀ c ∈ cfg.provs, 0 < (cfg.decl c).dt

/-- `v` is listed exactly once among all the outputs of all components. -/
def ListedOnce (cfg : Config K) (v : String) : Prop :=
  (cfg.provs.flatMap (fun c => (cfg.decl c).outputs)).count v = 1

/-- Component `p` comes before component `u` in the provider file. -/
def Before (cfg : Config K) (p u : String) : Prop :=
  ∃ pre post, cfg.provs = pre ++ u :: post ∧ p ∈ pre

end EmeliSpec
