import Mathlib.Algebra.Order.Field.Basic
import Mathlib.Algebra.BigOperators.Group.Finset.Basic
import Mathlib.Algebra.BigOperators.Group.List.Basic
import Mathlib.Data.Rat.Floor
import Mathlib.Algebra.Order.Ring.Rat

/-!
# Smoothing of DEMs and masks of cells

Models `smooth_dem` and `get_mask` of `topoflow/utils/hamiltonian.py`.

* Numbers are the elements of an ordered field (exact arithmetic).
* A DEM with `ny` rows and `nx` columns is a function of row and column.
* Decimal constants such as -0.3 are taken exactly; DEMs without NaN.
* Not modelled: the RTG and RTI files written by `save_var_to_rtg` (see
  `Verif.RtgModel`), printed messages.
-/

set_option autoImplicit false

namespace Smooth

variable {K : Type} [Field K] [LinearOrder K] [IsStrictOrderedRing K]

/-- The table `a` of `smooth_dem` (hamiltonian.py:241-242). -/
def table : List (List ℕ) :=
  [[1, 4, 6, 4, 1], [4, 16, 24, 16, 4], [6, 24, 36, 24, 6], [4, 16, 24, 16, 4], [1, 4, 6, 4, 1]]

/-- The kernel: `np.array(a) / 256.0` (hamiltonian.py:243). -/
def kernel (a b : ℕ) : K := (((table.getD a []).getD b 0 : ℕ) : K) / 256

/-- `boundary='fill', fillvalue=0` (hamiltonian.py:249-250): cells outside the
array count as zero. -/
def filled (ny nx : ℕ) (z : ℕ → ℕ → K) (i j : ℤ) : K :=
  if 0 ≤ i ∧ i < ny ∧ 0 ≤ j ∧ j < nx then z i.toNat j.toNat else 0

/-- `sps.convolve2d(dem0, kernel, mode='full')` (hamiltonian.py:249): entry
`(m, n)` of the result, which has `ny + 4` rows and `nx + 4` columns. -/
def convFull (ny nx : ℕ) (z : ℕ → ℕ → K) (m n : ℕ) : K :=
  ∑ a ∈ Finset.range 5, ∑ b ∈ Finset.range 5,
    kernel a b * filled ny nx z ((m : ℤ) - a) ((n : ℤ) - b)

/-- One pass (hamiltonian.py:249-252): `dem2[2:-2, 2:-2]`. -/
def onePass (ny nx : ℕ) (z : ℕ → ℕ → K) (i j : ℕ) : K := convFull ny nx z (i + 2) (j + 2)

/-- All passes (hamiltonian.py:245-252). -/
def passes (ny nx : ℕ) : ℕ → (ℕ → ℕ → K) → (ℕ → ℕ → K)
  | 0, z => z
  | k + 1, z => passes ny nx k (onePass ny nx z)

/-- `smooth_dem` (hamiltonian.py:236-259): the smoothed DEM and the DEM kept by
the object.  Without passes `dem2` is undefined. -/
def smoothDem (ny nx : ℕ) (z : ℕ → ℕ → K) (replaceDem : Bool) (nPasses : ℕ) :
    Except String ((ℕ → ℕ → K) × (ℕ → ℕ → K)) :=
  if nPasses = 0 then .error "UnboundLocalError: dem2"
  else
    let dem2 := passes ny nx nPasses z
    .ok (dem2, if replaceDem then dem2 else z)

/-! ### Masks -/

/-- One cell of the grids `S_RT`, `kappa_c_RT` and `kappa_p_RT`; `none` is NaN.
Used in the model of hamiltonian.py:617-619. -/
structure Cell (K : Type) where
  s : Option K
  kc : Option K
  kp : Option K

/-- The cells that are left after NaNs have been removed, with their flattened
indices (hamiltonian.py:614-630). -/
def clean (cells : List (Cell K)) : List (ℕ × K × K) :=
  (cells.zipIdx).filterMap (fun (c, i) =>
    match c.s, c.kc, c.kp with
    | some _, some kc, some kp => some (i, kc, kp)
    | _, _, _ => none)

/-- The test that belongs to a mask type (hamiltonian.py:632-650); `none` where
`wc` is left undefined. -/
def test (maskType : String) : Option (K → K → Bool) :=
  match maskType with
  | "kc_kp_bad1" => some (fun kc kp =>
      (decide (kc < -(3 / 10)) || decide (0 < kc)) || (decide (kp < -(3 / 10)) || decide (0 < kp)))
  | "kc_big_neg" => some (fun kc _ => decide (kc < -(3 / 10)))
  | "kp_big_neg" => some (fun _ kp => decide (kp < -(3 / 10)))
  | "kc_big_pos" => some (fun kc _ => decide (3 / 10 < kc))
  | "kp_big_pos" => some (fun _ kp => decide (3 / 10 < kp))
  | "kp_pos" => some (fun _ kp => decide (0 < kp))
  | "kc_neg" => some (fun kc _ => decide (kc < 0))
  | _ => none

/-- The integers written to the mask file by `get_mask`
(hamiltonian.py:612-672). -/
def getMask (cells : List (Cell K)) (maskType : String) : Except String (List ℤ) :=
  match test (K := K) maskType with
  | none => .error "UnboundLocalError: wc"
  | some t =>
    let ind := (clean cells).filterMap (fun (i, kc, kp) => if t kc kp then some (i : ℤ) else none)
    .ok ([-1] ++ ind ++ [-1])

end Smooth
