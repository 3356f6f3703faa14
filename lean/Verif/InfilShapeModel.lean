import Verif.InfilModel

/-!
# Shapes of the arrays in an update of the infiltration components

The update of the Green-Ampt, Smith-Parlange and Beven components (infil_base.py:301-356) once more, now
with the shapes that NumPy tells apart.  `InfilModel.lean` knows numbers and grids only; a soil parameter,
however, is an array over the layers (infil_base.py:435-500), which the formulas of Green-Ampt and
Smith-Parlange index with `[0]` and the one of Beven does not for two of its parameters
(infil_beven.py:541-546).  One soil layer; grids have more than one cell; real numbers.
-/

set_option autoImplicit false

noncomputable section

namespace InfilShape

open D8 (Cell)

variable {ny nx : ℕ}

/-- The shapes `()`, `(1,)`, `(ny, nx)` and `(1, ny, nx)` with their values.
Used in the model of infil_beven.py:541-555. -/
inductive Val (ny nx : ℕ)
  | num (a : ℝ)
  | one (a : ℝ)
  | grid (g : Cell ny nx → ℝ)
  | sheet (g : Cell ny nx → ℝ)

/-- The value that a cell sees.  Used in the model of infil_beven.py:541-555. -/
def Val.at : Val ny nx → Cell ny nx → ℝ
  | .num a, _ => a
  | .one a, _ => a
  | .grid g, c => g c
  | .sheet g, c => g c

/-- An operation on two arrays with the broadcasting rules of NumPy.
Used in the model of infil_beven.py:541-555. -/
def op (f : ℝ → ℝ → ℝ) : Val ny nx → Val ny nx → Val ny nx
  | .num a, .num b => .num (f a b)
  | .num a, .one b => .one (f a b)
  | .one a, .num b => .one (f a b)
  | .one a, .one b => .one (f a b)
  | .sheet g, y => .sheet (fun c => f (g c) (y.at c))
  | x, .sheet g => .sheet (fun c => f (x.at c) (g c))
  | .grid g, y => .grid (fun c => f (g c) (y.at c))
  | x, .grid g => .grid (fun c => f (x.at c) (g c))

/-- `x += y`: the result of the broadcasting must have the shape of `x`.
infil_base.py:723, 738, 777, 800. -/
def inPlace (f : ℝ → ℝ → ℝ) (x y : Val ny nx) : Except String (Val ny nx) :=
  match x, op f x y with
  | .num _, .num a => .ok (.num a)
  | .one _, .one a => .ok (.one a)
  | .grid _, .grid g => .ok (.grid g)
  | .sheet _, .sheet g => .ok (.sheet g)
  | _, _ => .error "ValueError: non-broadcastable output operand"

/-- `np.size(x) == 1`, for grids with more than one cell.  infil_base.py:673, 716, 969-970. -/
def Val.single : Val ny nx → Bool
  | .num _ => true
  | .one _ => true
  | _ => false

/-- What the CFG file or the input file gives for a parameter of the single layer.
infil_green_ampt.py:437-466. -/
inductive Param (ny nx : ℕ)
  | number (a : ℝ)
  | grid (g : Cell ny nx → ℝ)

/-- `x[0]` for the array that `build_layered_var` makes (infil_base.py:478-498). -/
def Param.first : Param ny nx → Val ny nx
  | .number a => .num a
  | .grid g => .grid g

/-- The array that `build_layered_var` makes (infil_base.py:478-498): shape `(1,)` or `(1, ny, nx)`. -/
def Param.whole : Param ny nx → Val ny nx
  | .number a => .one a
  | .grid g => .sheet g

/-- `is_scalar('x[0]')`, infil_beven.py:316-320. -/
def Param.isScalar : Param ny nx → Bool
  | .number _ => true
  | .grid _ => false

/-- The three methods with their parameters, or with what is read for them.  infil_green_ampt.py:437-466,
infil_smith_parlange.py:453-483, infil_beven.py:425-450. -/
inductive Method (α : Type)
  | greenAmpt (Ks Ki qs qi G : α)
  | smithParlange (Ks Ki qs qi G gam : α)
  | beven (Ks qs qi f C : α)

/-- `Ks[0]`.  infil_base.py:970. -/
def Method.Ks {α : Type} : Method α → α
  | .greenAmpt Ks _ _ _ _ => Ks
  | .smithParlange Ks _ _ _ _ _ => Ks
  | .beven Ks _ _ _ _ => Ks

/-- The parameters that `check_input_types` looks at.  infil_green_ampt.py:318-322,
infil_smith_parlange.py:323-328, infil_beven.py:316-320. -/
def Method.params {α : Type} : Method α → List α
  | .greenAmpt Ks Ki qs qi G => [Ks, Ki, qs, qi, G]
  | .smithParlange Ks Ki qs qi G gam => [Ks, Ki, qs, qi, G, gam]
  | .beven Ks qs qi f C => [Ks, qs, qi, f, C]

/-- One parameter in `read_input_files`: `None`, for a number in the CFG file or at the end of a file,
leaves it as it is.  infil_green_ampt.py:447-461, infil_beven.py:435-449.  (That a number and a grid are not
exchanged, as the type of a parameter is fixed, is left to the caller.) -/
def readParam (old : Param ny nx) (next : Option (Param ny nx)) : Param ny nx := next.getD old

/-- `read_input_files`, infil_green_ampt.py:437-463, infil_smith_parlange.py:453-485, infil_beven.py:425-451.
The Smith-Parlange component stores what it reads in lists that it does not have
(`self.Ks_list`, infil_smith_parlange.py:468-483). -/
def readFiles (m : Method (Param ny nx)) (n : Method (Option (Param ny nx))) :
    Except String (Method (Param ny nx)) :=
  match m, n with
  | .greenAmpt a b c d e, .greenAmpt a' b' c' d' e' =>
    .ok (.greenAmpt (readParam a a') (readParam b b') (readParam c c') (readParam d d') (readParam e e'))
  | .smithParlange a b c d e f, .smithParlange a' b' c' d' e' f' =>
    match a', b', c', d', e', f' with
    | none, none, none, none, none, none => .ok (.smithParlange a b c d e f)
    | _, _, _, _, _, _ => .error "AttributeError"
  | .beven a b c d e, .beven a' b' c' d' e' =>
    .ok (.beven (readParam a a') (readParam b b') (readParam c c') (readParam d d') (readParam e e'))
  | _, _ => .error "not the files of this method"

/-- The infiltration capacity: infil_green_ampt.py:540-542, infil_smith_parlange.py:562-572,
infil_beven.py:541-546. -/
def capacity (m : Method (Param ny nx)) (I : Val ny nx) : Val ny nx :=
  match m with
  | .greenAmpt Ks Ki qs qi G =>
    let dK := op (· - ·) Ks.first Ki.first
    let dq := op (· - ·) qs.first qi.first
    op (· + ·) (op (· / ·) (op (· * ·) (op (· * ·) G.first dK) dq) I) Ks.first
  | .smithParlange Ks Ki qs qi G gam =>
    let dK := op (· - ·) Ks.first Ki.first
    let dq := op (· - ·) qs.first qi.first
    let t2 := op (fun x y => Real.exp x - y)
      (op (· / ·) (op (· * ·) gam.first I) (op (· * ·) G.first dq)) (.num 1)
    op (· + ·) (op (· / ·) (op (· * ·) gam.first dK) t2) Ks.first
  | .beven Ks qs qi f C =>
    let dq := op (· - ·) qs.first qi.first
    let t1 := op (· / ·) (op (· * ·) Ks.first f.whole) dq
    let t2 := op (· + ·) C.whole I
    let t3 := op (fun x y => x - Real.exp y) (.num 1)
      (op (· / ·) (op (· * ·) (op (· * ·) (.num (-1)) f.whole) I) dq)
    op (· / ·) (op (· * ·) t1 t2) t3

/-- What stays fixed in a run: cell areas, time step and land surface.  infil_base.py:685, 715. -/
structure Site (ny nx : ℕ) where
  da : Param ny nx
  dt : ℝ
  elev : Cell ny nx → ℝ

/-- What other components provide for one update.  infil_base.py:562-573, 684. -/
structure Inp (ny nx : ℕ) where
  P_rain : Param ny nx
  SM : Param ny nx
  h_table : Param ny nx

/-- The state.  infil_base.py:301-356. -/
structure St (ny nx : ℕ) where
  IN : Val ny nx
  I : Val ny nx
  vol_v0 : Val ny nx
  vol_IN : Val ny nx
  vol_Rg : Val ny nx

/-- `check_low_rainrate`, infil_base.py:954-995.  The entries that are replaced are given by row and
column: on a number or an array of shape `(1,)` that is an error.  On `(1, ny, nx)` it is an error for cells
below the first row; entries of the first row are left as they are here (in the code others change), which
does not matter as the update fails later on. -/
def checkLowRain (Ks pt IN : Val ny nx) : Except String (Val ny nx) :=
  open Classical in
  match pt, Ks with
  | .num a, .num b => .ok (if a < b then pt else IN)
  | _, _ =>
    if ∃ c, pt.at c < Ks.at c then
      match IN with
      | .grid g => .ok (.grid (fun c => if pt.at c < Ks.at c then pt.at c else g c))
      | .sheet g => if ∃ c : Cell ny nx, pt.at c < Ks.at c ∧ c.1.val ≠ 0 then .error "IndexError" else .ok (.sheet g)
      | _ => .error "IndexError"
    else .ok IN

/-- The rest of `adjust_infil_rate`, infil_base.py:673-703; for an array of shape `(1, ny, nx)` see
`checkLowRain`. -/
def waterTable (z : Cell ny nx → ℝ) (h IN : Val ny nx) : Except String (Val ny nx) :=
  open Classical in
  match IN with
  | .grid g => .ok (.grid (fun c => if z c ≤ h.at c then 0 else g c))
  | .sheet g => if ∃ c : Cell ny nx, z c ≤ h.at c ∧ c.1.val ≠ 0 then .error "IndexError" else .ok (.sheet g)
  | IN => .ok IN

/-- A volume integral, infil_base.py:715-719, 734-738, 775-779: with one value
`vol += volume * n_pixels`, else `vol += np.sum(volume)`.  The volume keeps the shape `(1,)`. -/
def addVolume (s : Site ny nx) (vol flux : Val ny nx) : Except String (Val ny nx) :=
  let volume := op (· * ·) (op (· * ·) flux s.da.first) (.num s.dt)
  match volume with
  | .num a => inPlace (· + ·) vol (.num (a * ((ny * nx : ℕ) : ℝ)))
  | .one a => inPlace (· + ·) vol (.one (a * ((ny * nx : ℕ) : ℝ)))
  | .grid g => inPlace (· + ·) vol (.num (∑ c, g c))
  | .sheet g => inPlace (· + ·) vol (.num (∑ c, g c))

/-- `update`, infil_base.py:301-356, from the surface influx to the infiltrated depth. -/
def step (s : Site ny nx) (m : Method (Param ny nx)) (i : Inp ny nx) (t : St ny nx) : Except String (St ny nx) :=
  let pt := op (· + ·) i.P_rain.first i.SM.first
  let v0 := op min (capacity m t.I) pt
  match checkLowRain m.Ks.first pt v0 with
  | .error e => .error e
  | .ok IN1 =>
    match waterTable s.elev i.h_table.first IN1 with
    | .error e => .error e
    | .ok IN =>
      match addVolume s t.vol_v0 v0 with
      | .error e => .error e
      | .ok vol_v0 =>
        match addVolume s t.vol_IN IN with
        | .error e => .error e
        | .ok vol_IN =>
          match addVolume s t.vol_Rg IN with
          | .error e => .error e
          | .ok vol_Rg =>
            match inPlace (· + ·) t.I (op (· * ·) IN (.num s.dt)) with
            | .error e => .error e
            | .ok I => .ok { IN := IN, I := I, vol_v0 := vol_v0, vol_IN := vol_IN, vol_Rg := vol_Rg }

/-- `check_input_types` and `initialize_computed_vars`, infil_green_ampt.py:311-374,
infil_beven.py:306-374. -/
def initSt (m : Method (Param ny nx)) (i : Inp ny nx) : St ny nx :=
  let all := (i.P_rain :: i.SM :: i.h_table :: m.params).all Param.isScalar
  { IN := if all then .num 0 else .grid (fun _ => 0)
    I := if all then .num 1e-6 else .grid (fun _ => 1e-6)
    vol_v0 := .num 0, vol_IN := .num 0, vol_Rg := .num 0 }

/-- The updates of a run after the first: reading, then computing.  infil_base.py:301-356. -/
def steps (s : Site ny nx) : Method (Param ny nx) → St ny nx →
    List (Method (Option (Param ny nx)) × Inp ny nx) → Except String (St ny nx)
  | _, t, [] => .ok t
  | m, t, (n, i) :: l =>
    match readFiles m n with
    | .error e => .error e
    | .ok m' =>
      match step s m' i t with
      | .error e => .error e
      | .ok t' => steps s m' t' l

/-- A run: `initialize` with the parameters of the CFG file reads the first values, and the first update
does not read (infil_base.py:185-320). -/
def run (s : Site ny nx) (m : Method (Param ny nx)) :
    List (Method (Option (Param ny nx)) × Inp ny nx) → Except String (St ny nx)
  | [] => .error "nothing to do"
  | (n, i) :: l =>
    match readFiles m n with
    | .error e => .error e
    | .ok m' =>
      match step s m' i (initSt m' i) with
      | .error e => .error e
      | .ok t => steps s m' t l

end InfilShape
