import Mathlib.Data.Real.Basic
import Mathlib.Algebra.BigOperators.Group.Finset.Basic

/-!
# Soil layers and the water stored in the soil

Model of the functions of the infiltration components that lay out the soil profile
(infil_base.py:385-500), of the choice between one profile and a profile per cell
(infil_richards_1D.py:531-560, 637-694) and of the water volume of the soil that the mass
balance report uses (infil_base.py:827-885).

Arrays have zero to three dimensions, as in the code, and are multiplied by the broadcasting
rules of numpy.  Numbers are real.
-/

set_option autoImplicit false

namespace Layer

open Finset

/-- A numpy array with at most three dimensions.  Dimensions that it does not have are counted
as one, at the front, which is how numpy aligns shapes.  Used for infil_base.py:385-885. -/
structure Arr where
  ndim : ℕ
  d0 : ℕ
  d1 : ℕ
  d2 : ℕ
  v : ℕ → ℕ → ℕ → ℝ

namespace Arr

/-- A numpy scalar (infil_base.py:424 and pixels.py:187). -/
def scalar (a : ℝ) : Arr := ⟨0, 1, 1, 1, fun _ _ _ => a⟩

/-- A one-dimensional array (infil_base.py:426, 482). -/
def vec (n : ℕ) (f : ℕ → ℝ) : Arr := ⟨1, 1, 1, n, fun _ _ k => f k⟩

/-- A two-dimensional array (pixels.py:208). -/
def grid (ny nx : ℕ) (f : ℕ → ℕ → ℝ) : Arr := ⟨2, 1, ny, nx, fun _ r c => f r c⟩

/-- A three-dimensional array (infil_base.py:493). -/
def cube (nz ny nx : ℕ) (f : ℕ → ℕ → ℕ → ℝ) : Arr := ⟨3, nz, ny, nx, f⟩

/-- `a.size` (infil_base.py:857-858). -/
def size (a : Arr) : ℕ := a.d0 * a.d1 * a.d2

/-- `a.sum()` (infil_base.py:849, 885). -/
noncomputable def sum (a : Arr) : ℝ :=
  ∑ i ∈ range a.d0, ∑ j ∈ range a.d1, ∑ k ∈ range a.d2, a.v i j k

/-- The common length of two dimensions under numpy's broadcasting, if there is one
(the products of infil_base.py:847-884). -/
def bdim (m n : ℕ) : Option ℕ :=
  if m = n then some m else if m = 1 then some n else if n = 1 then some m else none

/-- The index into a dimension of length `d` that is stretched when `d` is one
(the products of infil_base.py:847-884). -/
def ix (d i : ℕ) : ℕ := if d = 1 then 0 else i

/-- An operation of numpy on two arrays, element by element, with broadcasting
(the products of infil_base.py:847-884 and the sum of infil_richards_1D.py:641). -/
def zip (op : ℝ → ℝ → ℝ) (a b : Arr) : Except String Arr :=
  match bdim a.d0 b.d0, bdim a.d1 b.d1, bdim a.d2 b.d2 with
  | some n0, some n1, some n2 =>
    .ok ⟨max a.ndim b.ndim, n0, n1, n2, fun i j k =>
      op (a.v (ix a.d0 i) (ix a.d1 j) (ix a.d2 k)) (b.v (ix b.d0 i) (ix b.d1 j) (ix b.d2 k))⟩
  | _, _, _ => .error "ValueError"

/-- `a[:,None,None]` for a one-dimensional array (infil_base.py:874, 881). -/
def asColumn (a : Arr) : Except String Arr :=
  if a.ndim = 1 then .ok ⟨3, a.d2, 1, 1, fun k _ _ => a.v 0 0 k⟩ else .error "IndexError"

/-- `a[None,:,:]` for a two-dimensional array (infil_base.py:874). -/
def asSheet (a : Arr) : Except String Arr :=
  if a.ndim = 2 then .ok ⟨3, 1, a.d1, a.d2, fun _ r c => a.v 0 r c⟩ else .error "IndexError"

end Arr

/-- What the configuration file gives for a parameter in one soil layer: a number, or a grid of
the shape of the model grid (entries of `var_list_for_layers`, infil_base.py:434, 472). -/
inductive LayerValue where
  | number (a : ℝ)
  | grid (f : ℕ → ℕ → ℝ)

/-- The value of a layer in a cell.  Used for the assignments of infil_base.py:484, 496. -/
def LayerValue.cell : LayerValue → ℕ → ℕ → ℝ
  | .number a, _, _ => a
  | .grid f, r, c => f r c

/-- `var_list_for_layers[j].size` (infil_base.py:472). -/
def LayerValue.size (ny nx : ℕ) : LayerValue → ℕ
  | .number _ => 1
  | .grid _ => ny * nx

/-- `is_scalar` of an entry of a list (BMI_base.py:2364-2376). -/
def LayerValue.isScalar : LayerValue → Bool
  | .number _ => true
  | .grid _ => false

/-- The layers of the configuration: number of nodes `nz_val[j]` and their thickness
`dz_val[j]` (infil_richards_1D.py:412-413). -/
structure Geometry where
  nz : List ℕ
  dz : List ℝ

/-- The vector of node thicknesses: the first layer, then the others appended one after the
other (infil_base.py:411-416). -/
def dzVector (g : Geometry) : List ℝ :=
  (List.range' 1 (g.nz.length - 1)).foldl
    (fun acc j => acc ++ List.replicate (g.nz.getD j 0) (g.dz.getD j 0))
    (List.replicate (g.nz.getD 0 0) (g.dz.getD 0 0))

/-- `self.nz` (infil_base.py:406). -/
def totalNz (g : Geometry) : ℕ := g.nz.sum

open Classical in
/-- `self.dz`: a number when all thicknesses are equal, else the vector
(infil_base.py:421-426).  `min() == max()` says that all entries are equal. -/
noncomputable def dzArr (g : Geometry) : Arr :=
  if ∀ d ∈ g.dz, d = g.dz.getD 0 0 then .scalar (g.dz.getD 0 0)
  else .vec (dzVector g).length (fun k => (dzVector g).getD k 0)

/-- `self.z = np.cumsum(dz)` (infil_base.py:431). -/
def zVector (g : Geometry) (k : ℕ) : ℝ := ((dzVector g).take (k + 1)).sum

/-- The bounds of the layers, `[0]` and the running sums of `nz_val` (infil_base.py:463). -/
def bounds (g : Geometry) (j : ℕ) : ℕ := (g.nz.take j).sum

/-- `var[i[j]:i[j+1]] = value` and the loop over the levels `k` (infil_base.py:484, 495-496):
the nodes from `a` up to before `b` get the value of the layer. -/
noncomputable def assign (a b : ℕ) (x : LayerValue) (w : ℕ → ℕ → ℕ → ℝ) : ℕ → ℕ → ℕ → ℝ :=
  fun k r c => if a ≤ k ∧ k < b then x.cell r c else w k r c

/-- The values that the loop over the layers writes (infil_base.py:482-496). -/
noncomputable def fillLayers (g : Geometry) (xs : List LayerValue) : ℕ → ℕ → ℕ → ℝ :=
  (List.range g.nz.length).foldl
    (fun w j => assign (bounds g j) (bounds g (j + 1)) (xs.getD j (.number 0)) w)
    (fun _ _ _ => 0)

/-- `nmax`, the largest size of a layer's value (infil_base.py:470-473). -/
def nmax (ny nx : ℕ) (xs : List LayerValue) : ℕ := xs.foldl (fun m x => max m (x.size ny nx)) 1

/-- `build_layered_var` (infil_base.py:434-498).  A grid of one cell can be assigned to a
slice of a one-dimensional array, as numpy drops leading dimensions of length one. -/
noncomputable def buildLayeredVar (ny nx : ℕ) (g : Geometry) (xs : List LayerValue) : Arr :=
  if nmax ny nx xs = 1 then .vec (totalNz g) (fun k => fillLayers g xs k 0 0)
  else .cube (totalNz g) ny nx (fillLayers g xs)

/-- Which inputs `check_input_types` looks at: precipitation, snowmelt and evapotranspiration,
and the first layer of the nine soil parameters (infil_richards_1D.py:531-557). -/
def allScalars (P SM ET : LayerValue) (params : List (List LayerValue)) : Bool :=
  P.isScalar && SM.isScalar && ET.isScalar &&
    params.all fun xs => (xs.getD 0 (.number 0)).isScalar

/-- The water content at the start.  With one profile, `np.zeros(nz) + qi`; else a cube that is
filled from `qi` (infil_richards_1D.py:637-641, 674, 690-697). -/
noncomputable def startContent (single : Bool) (nz ny nx : ℕ) (qi : Arr) : Except String Arr :=
  if single then Arr.zip (· + ·) (.vec nz fun _ => 0) qi
  else if qi.size = nz then do
    let col ← qi.asColumn
    let q ← Arr.zip (fun _ y => y) (.cube nz ny nx fun _ _ _ => 0) col
    return q
  else Arr.zip (· + ·) (.cube nz ny nx fun _ _ _ => 0) qi

/-- The cell areas: one number for cells of fixed length, a grid for cells of fixed angle
(`pixels.get_da`, pixels.py:186-208, stored in `self.da` by BMI_base.py:1425). -/
def cellArea (fixedLength : Bool) (ny nx : ℕ) (area : ℕ → ℕ → ℝ) : Arr :=
  if fixedLength then .scalar (area 0 0) else .grid ny nx area

/-- The volumes of the nodes when each cell has its profile (infil_base.py:857-876). -/
noncomputable def nodeVolumes (nz : ℕ) (da dz : Arr) : Except String Arr :=
  if da.size = 1 then Arr.zip (· * ·) da dz
  else do
    let dz1 ← if dz.size = 1 then Arr.zip (· * ·) dz (.vec nz fun _ => 1) else pure dz
    let a ← da.asSheet
    let b ← dz1.asColumn
    Arr.zip (· * ·) a b

/-- `update_total_storage`: the volume of water in the soil (infil_base.py:843-885). -/
noncomputable def totalStorage (single : Bool) (nz nPixels : ℕ) (da dz q : Arr) :
    Except String ℝ :=
  if single then do
    let Vc ← Arr.zip (· * ·) da dz
    let Vw ← Arr.zip (· * ·) q Vc
    return Vw.sum * nPixels
  else do
    let Vc ← nodeVolumes nz da dz
    let Vw ← if Vc.ndim = 1 then do
        let b ← Vc.asColumn
        Arr.zip (· * ·) q b
      else Arr.zip (· * ·) q Vc
    return Vw.sum

/-- The volume of soil water at the start of the Richards component, from its configuration:
`check_input_types`, the layered variables and `update_total_storage`
(infil_richards_1D.py:531-697, infil_base.py:293). -/
noncomputable def startStorage (fixedLength : Bool) (ny nx : ℕ) (area : ℕ → ℕ → ℝ) (g : Geometry)
    (P SM ET : LayerValue) (qi : List LayerValue) (others : List (List LayerValue)) :
    Except String ℝ := do
  let single := allScalars P SM ET (qi :: others)
  let q ← startContent single (totalNz g) ny nx (buildLayeredVar ny nx g qi)
  totalStorage single (totalNz g) (nx * ny) (cellArea fixedLength ny nx area) (dzArr g) q

end Layer
