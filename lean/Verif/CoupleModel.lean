import Verif.TimeInterpModel

/-!
# Two coupled components with the same time step

What the user of a variable computes with, update by update, in a run of the framework with method
'Linear' (topoflow/framework/emeli.py, topoflow/framework/time_interpolation.py).  The times of the
requests are those of the framework run (`EqualSteps.C221_request_times`); the values are those of the
time interpolation (`TimeInterpModel`).
-/

set_option autoImplicit false

namespace Couple

open TInterp

variable {ι K : Type*} [Fintype ι] [Nonempty ι] [Field K] [LinearOrder K]

/-- The first `n` updates of the provider, at the times `dt`, `2 dt`, ...  Each component is updated
once by `time_interpolator.initialize` (time_interpolation.py:240-289) and once in every later pass of
the `while` loop of `run_model` (emeli.py:1019-1079). -/
def hist (dt : K) (a : ℕ → Act ι K) (n : ℕ) : List (Act ι K × K) :=
  (List.range n).map (fun k => (a k, ((k + 1 : ℕ) : K) * dt))

/-- Memory and interpolation object after `n` updates of the provider, whose array holds `v0` when
the run begins.  Used in the model of time_interpolation.py:240-289, 546-566. -/
def sysAt (rank0 : Bool) (v0 : ι → K) (dt : K) (a : ℕ → Act ι K) (n : ℕ) : Sys ι K :=
  Sys.run rank0 v0 0 (hist dt a n)

/-- What the user computes with in its update number `k` (counted from zero).

The first update is made by `time_interpolator.initialize` in the order of the provider file
(time_interpolation.py:240-289); no data are requested, the user still has the reference to the
provider's array from `connect_comps` (emeli.py:718-790, 1459-1498).  The later updates are made by
the `while` loop (emeli.py:1034-1062): `get_required_vars` asks for the value at the user's own time,
`k * dt`.  `after` says that the user comes after the provider in the provider file, so that the
provider has been updated before in the same pass. -/
def used (after rank0 : Bool) (v0 : ι → K) (dt : K) (a : ℕ → Act ι K) : ℕ → ι → K
  | 0 => (sysAt rank0 v0 dt a (if after then 1 else 0)).mem.arr (Sys.start v0 (0 : K)).prov
  | k + 1 =>
    let s := sysAt rank0 v0 dt a (if after then k + 2 else k + 1)
    s.tid.getValue s.mem (((k + 1 : ℕ) : K) * dt)

end Couple
