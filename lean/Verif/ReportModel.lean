import Verif.TimeInterpModel
import Verif.RepoModel

/-!
# The storage volumes in the final report and the order of the provider file

`finalize_all` (topoflow/framework/emeli.py:846-889) asks once more for the input variables of each
component and then calls its `finalize`, in the order of the provider file.  The driver prints the
report in its `finalize`.  The storage volumes (`vol_chan_sum`, `vol_flood_sum`, `vol_swe`, `vol_soil`)
are computed by `initialize` and by `finalize` of their components and not touched by `update`
(channels_base.py:963-991, 1335, 3083-3137; snow_base.py:280-297, 705-731; infil_base.py:293, 359-375).
Not covered: the glacier component, whose `update` adds to `vol_swe` (glacier_base.py:755-773).
-/

set_option autoImplicit false

namespace Report

open Repo TInterp

variable {K : Type*} [Field K] [LinearOrder K]

/-- A run that has ended: which components are switched off, the interpolation method (`true` for
'Linear', `false` for 'None'), the driver's time, and for each component the storage at the start,
the storage that its `finalize` computes, and the times of its updates.
Used in the model of emeli.py:846-889. -/
structure Ended (K : Type*) where
  off : Comp → Bool
  linear : Bool
  now : K
  start : Comp → K
  fin : Comp → K
  times : Comp → List K

/-- The storage of the component `p` that `get_values` delivers, time_interpolation.py:591-678: a
component that is switched off has status 'initialized', its own value is returned, which is the one
of the start; the same holds for the status 'finalized', the value is then the final one.  For all
other components the value is the one of method 'None' or 'Linear'. -/
def delivers (e : Ended K) (finalised : Bool) (p : Comp) : K :=
  if e.off p then e.start p
  else if finalised then e.fin p
  else if e.linear then
    delivered true (fun _ : Unit => e.start p) 0
      ((e.times p).map (fun t => (.inplace (fun _ => e.start p), t))) e.now ()
  else e.start p

/-- `finalize_all`, emeli.py:846-889: what the driver prints for each component, if it is in the list
and switched on (topoflow_driver.py:549-557); `done` are the components finalised so far. -/
def finalizeAll (e : Ended K) : List Comp → List Comp → Option (Comp → K)
  | _, [] => none
  | done, c :: rest =>
    if c = .topoflow_driver then
      if e.off c then finalizeAll e (done ++ [c]) rest
      else some (fun p => delivers e (done.elem p) p)
    else finalizeAll e (done ++ [c]) rest

end Report
