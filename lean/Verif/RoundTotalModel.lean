import Verif.RoundModel

/-!
# The mass totals in floating point arithmetic

Models the updates of the totals over the domain and over time that are used for the mass balance
(`vol_P`, `vol_PR`, `vol_PS`, `vol_R`, `vol_Q`, `vol_SM`, `vol_IM`, `vol_ET`, `vol_v0`, `vol_IN`,
`vol_Rg`, `vol_GW`), with every operation rounded.  The order of the additions in `np.sum` is not
fixed by NumPy's documentation: it is any binary tree over the cells.  (Adding the first element to
zero is exact.)  All numbers are doubles; overflow is not modelled.
-/

set_option autoImplicit false

namespace RoundTotal

/-- An order in which the values of an array are added.  Used in the model of `np.sum`,
met_base.py:1269. -/
inductive AddOrder (α : Type*)
  | leaf (x : α)
  | node (a b : AddOrder α)

/-- The values in an order of addition.  Used in the model of `np.sum`, met_base.py:1269. -/
def AddOrder.map {α β : Type*} (f : α → β) : AddOrder α → AddOrder β
  | .leaf x => .leaf (f x)
  | .node a b => .node (a.map f) (b.map f)

section

variable {K : Type*} [Field K] (r : K → K)

/-- `np.sum` of an array, met_base.py:1269. -/
def AddOrder.sum : AddOrder K → K
  | .leaf x => x
  | .node a b => r (AddOrder.sum a + AddOrder.sum b)

/-- What is added in an update: a rate and a cell area that are both single numbers; the rates and
areas of the cells (one of them may be the same number in all cells), in an order of addition; or the
discharge at the outlet.  Used in the model of met_base.py:1265-1269 and channels_base.py:2935. -/
inductive Added (K : Type*)
  | one (rate area : K)
  | cells (t : AddOrder (K × K))
  | flow (q : K)

/-- `rate * da * dt` in a cell, met_base.py:1265. -/
def volume (dt rate area : K) : K := r (r (rate * area) * dt)

/-- The volume that is added: met_base.py:1265-1269, 1407-1411, 1436-1440; channels_base.py:1666-1670,
2935; snow_base.py:540-544; glacier_base.py:642-646, 654-658; evap_base.py:371-375;
infil_base.py:719-723, 732-736, 774-778; satzone_base.py:688-692.  `n` is `rti.n_pixels`. -/
def addedVolume (n : ℕ) (dt : K) : Added K → K
  | .one rate area => r (volume r dt rate area * n)
  | .cells t => (t.map (fun c => volume r dt c.1 c.2)).sum r
  | .flow q => r (q * dt)

/-- The total after some updates, from its value before: `vol += …`, met_base.py:1267-1269 and the
other lines cited at `addedVolume`.  It starts at 0 (met_base.py:1181). -/
def total (n : ℕ) (dt : K) : K → List (Added K) → K
  | v, [] => v
  | v, a :: l => total n dt (r (v + addedVolume r n dt a)) l

end

end RoundTotal
