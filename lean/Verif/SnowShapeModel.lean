import Verif.SnowModel

/-!
# Numbers and grids in the snow components

topoflow/components/snow_base.py, snow_degree_day.py and snow_energy_balance.py again, this time with
the three kinds of objects that NumPy tells apart: numbers, which cannot be changed in place,
arrays of rank 0 made by `initialize_scalar`, and grids.  `SnowModel.lean` takes every variable as
a function on the cells.  Simplifications: all grids have the shape of the DEM and more than one cell;
values are in an ordered field.
-/

set_option autoImplicit false

namespace SnowShape

variable {K : Type*} [Field K] [LinearOrder K] {C : Type*}

/-- The kinds of values: a NumPy number, an array of rank 0 (`initialize_scalar`,
utils/BMI_base.py:2230-2255) and a grid (`initialize_grid`, utils/BMI_base.py:2294-2305). -/
inductive Val (K C : Type*)
  | num (x : K)
  | box (x : K)
  | grid (f : C → K)

/-- `np.ndim(x) != 0`, as in `is_scalar` and `is_grid`, utils/BMI_base.py:2364-2420. -/
def Val.isGrid : Val K C → Bool
  | .grid _ => true
  | _ => false

/-- The value in a cell.  Used in the model of snow_base.py:347-700. -/
def Val.at : Val K C → C → K
  | .num x, _ => x
  | .box x, _ => x
  | .grid f, c => f c

/-- Arithmetic between two values: a grid if one of them is a grid, else a number, also for two
arrays of rank 0.  Used in the model of snow_base.py:347-700. -/
def op (f : K → K → K) (a b : Val K C) : Val K C :=
  if a.isGrid || b.isGrid then .grid (fun c => f (a.at c) (b.at c))
  else match a, b with
    | .num x, .num y => .num (f x y)
    | .num x, .box y => .num (f x y)
    | .box x, .num y => .num (f x y)
    | .box x, .box y => .num (f x y)
    | a, _ => a

/-- In-place ufuncs, `np.maximum(x, y, out=x)` and `x += y` on arrays: a number cannot be the target
(`TypeError`), and a grid does not fit into an array of rank 0 (`ValueError`).
snow_base.py:468, 504, 510, 587, 596, 601. -/
def inPlace (f : K → K → K) (x y : Val K C) : Except String (Val K C) :=
  match x with
  | .num _ => .error "TypeError: return arrays must be of ArrayType"
  | .box a =>
    match y with
    | .grid _ => .error "ValueError: non-broadcastable output operand"
    | .num b => .ok (.box (f a b))
    | .box b => .ok (.box (f a b))
  | .grid g => .ok (.grid (fun c => f (g c) (y.at c)))

/-- `x.fill(np.float64(v))` for an `x` of rank 0: a grid is refused; a number has a method `fill`,
but stays what it is.  snow_degree_day.py:344-346, snow_base.py:622-624, 693-695. -/
def fill (x v : Val K C) : Except String (Val K C) :=
  match v with
  | .grid _ => .error "ValueError: setting an array element with a sequence"
  | .num b => .ok (match x with | .box _ => .box b | x => x)
  | .box b => .ok (match x with | .box _ => .box b | x => x)

/-- Storing a new value, `if rank is 0 then x.fill(v) else x[:] = v`.
snow_degree_day.py:344-348, snow_energy_balance.py:440-444, snow_base.py:622-626, 693-697. -/
def store (x v : Val K C) : Except String (Val K C) :=
  if x.isGrid then .ok (.grid v.at) else fill x v

/-- `initialize_scalar(h)`, that is `np.array(h)`: a copy, so a grid stays a grid.
utils/BMI_base.py:2255. -/
def initScalar : Val K C → Val K C
  | .grid f => .grid f
  | .num x => .box x
  | .box x => .box x

/-- `h + np.zeros([ny, nx])` for a number, else `h` itself, snow_base.py:383-392. -/
def toGrid (h : Val K C) : Val K C := .grid h.at

/-- The two components.  snow_base.py:357-358. -/
inductive Kind
  | degreeDay
  | energyBalance
  deriving DecidableEq

/-- Values of the input variables at one time: the ones of the CFG file (`c0` for degree-day only)
and those received from meteorology.  snow_degree_day.py:361-420, snow_energy_balance.py:305-327. -/
structure Inp (K C : Type*) where
  c0 : Val K C
  T0 : Val K C
  rho_snow : Val K C
  T_air : Val K C
  P_snow : Val K C
  Q_sum : Val K C

/-- What is fixed in a run: the component, the time step, density of water, whether the density of
snow is a time series or a grid sequence (`update_density_ratio` returns at once if not,
snow_base.py:616), and what is used at the start only.  `T0cc` is the reference temperature of the
cold content: for degree-day a number, else `T0` (snow_degree_day.py:267-268, snow_base.py:452-453).
snow_base.py:347-470. -/
structure Cfg (K C : Type*) where
  kind : Kind
  dt : K
  rho_H2O : K
  rhoChanges : Bool
  Cp_snow : Val K C
  h0_snow : Val K C
  h0_swe : Val K C
  T0cc : Val K C
  T_surf : Val K C

/-- State of a snow component.  snow_base.py:347-470. -/
structure St (K C : Type*) where
  SM : Val K C
  h_snow : Val K C
  h_swe : Val K C
  ratio : Val K C
  Ecc : Val K C

/-- `initialize_cold_content`, snow_base.py:431-470. -/
def initCold (g : Cfg K C) (i : Inp K C) : Except String (Val K C) :=
  inPlace max
    (op (· * ·) (op (· * ·) (op (· * ·) i.rho_snow g.Cp_snow) g.h0_snow) (op (· - ·) g.T0cc g.T_surf))
    (.num 0)

/-- `initialize_computed_vars`, snow_base.py:347-429, without the total volumes. -/
def init (g : Cfg K C) (i : Inp K C) : Except String (St K C) := do
  let big := i.T_air.isGrid || i.P_snow.isGrid || decide (g.kind = .energyBalance)
  let ecc ← initCold g i
  return {
    SM := if big then .grid (fun _ => 0) else .box 0
    h_snow := if big then toGrid g.h0_snow else initScalar g.h0_snow
    h_swe := if big then toGrid g.h0_swe else initScalar g.h0_swe
    ratio := op (· / ·) (.num g.rho_H2O) i.rho_snow
    Ecc := ecc }

/-- The new melt rate before limits: snow_degree_day.py:327 and snow_energy_balance.py:401-424. -/
def newMelt (g : Cfg K C) (i : Inp K C) (s : St K C) : Val K C :=
  match g.kind with
  | .degreeDay => op (· * ·) (op (· / ·) i.c0 (.num 86400000)) (op (· - ·) i.T_air i.T0)
  | .energyBalance =>
    op (· / ·) (op (· / ·)
      (op max (op (· - ·) (op (· * ·) i.Q_sum (.num g.dt)) s.Ecc) (.num 0)) (.num g.dt))
      (.num Snow.rhoL)

/-- `update_cold_content`: nothing in snow_base.py:548-557, snow_energy_balance.py:458-478. -/
def newCold (g : Cfg K C) (i : Inp K C) (s : St K C) : Except String (Val K C) :=
  match g.kind with
  | .degreeDay => .ok s.Ecc
  | .energyBalance =>
    store s.Ecc (op max (op (· - ·) s.Ecc (op (· * ·) i.Q_sum (.num g.dt))) (.num 0))

/-- `update_density_ratio`, snow_base.py:611-628. -/
def newRatio (g : Cfg K C) (i : Inp K C) (s : St K C) : Except String (Val K C) :=
  if g.rhoChanges then store s.ratio (op (· / ·) (.num g.rho_H2O) i.rho_snow) else .ok s.ratio

/-- `update` after the reading of input files, snow_base.py:246-258: `update_meltrate`,
`enforce_max_meltrate` (490-512), `update_cold_content`, `update_swe` (559-602),
`update_density_ratio`, `update_depth` (631-697). The total volume is left out. -/
def step (g : Cfg K C) (i : Inp K C) (s : St K C) : Except String (St K C) := do
  let m ← store s.SM (newMelt g i s)
  let m ← inPlace min m (op (· / ·) s.h_swe (.num g.dt))
  let m ← inPlace max m (.num 0)
  let ecc ← newCold g i s
  let w ← inPlace (· + ·) s.h_swe (op (· * ·) i.P_snow (.num g.dt))
  let w ← inPlace (· - ·) w (op (· * ·) m (.num g.dt))
  let w ← inPlace max w (.num 0)
  let r ← newRatio g i s
  let h ← store s.h_snow (op (· * ·) w r)
  return {
    SM := m
    h_snow := h
    h_swe := w
    ratio := r
    Ecc := ecc }

/-- A number of updates.  Built on the model of snow_base.py:214-277. -/
def steps (g : Cfg K C) : St K C → List (Inp K C) → Except String (St K C)
  | s, [] => .ok s
  | s, i :: is => do
    let t ← step g i s
    steps g t is

/-- `initialize` with the first values of the input files, then updates; the first update uses the
same values of the files (snow_base.py:243-244), that is, `is` starts with `i` but for what comes
from meteorology.  snow_base.py:143-277. -/
def run (g : Cfg K C) (i : Inp K C) (is : List (Inp K C)) : Except String (St K C) := do
  let s ← init g i
  steps g s is

end SnowShape
