import Mathlib.Algebra.Order.Field.Basic
import Mathlib.Algebra.Order.Floor.Ring
import Mathlib.Algebra.BigOperators.Group.List.Basic

/-!
# Diversions: sources and canals (topoflow/components/diversions_fraction_method.py)

`np.ceil` returns floating point numbers; `Canals.nt` are their integer values.  Where the code uses
such a number as an index, the model says what numpy of the given version does: versions up to 1.11
convert it, later versions raise IndexError (`floatIndex`).  Not modelled here: reading of the text files and
coordinates (see DivertModel), messages, and the update of the channel component, which is switched off
(channels_base.py:1864-1949 returns at once).  The coordinate computation uses `self.dx`, `self.dy`
(325-326, 493-499), and the updates use `self.Q_sources`, `self.Q_canals_out`, none of which an
enabled diversions component ever sets, so the code raises AttributeError before the steps modelled
here; the model takes these attributes as given.
-/

set_option autoImplicit false

namespace Canal

variable {K : Type*} [Field K] [LinearOrder K] [IsStrictOrderedRing K] [FloorRing K]

/-- Python's indexing of a sequence by an integer: negative indices count from the end.
Used in the model of diversions_fraction_method.py:670-729. -/
def pyIndex {α : Type*} (l : List α) (i : ℤ) : Option α :=
  if 0 ≤ i then l[i.toNat]? else if -(l.length : ℤ) ≤ i then l[(l.length + i).toNat]? else none

/-- `np.roll(row, 1)`.  Used in the model of diversions_fraction_method.py:670-729. -/
def roll {α : Type*} (l : List α) : List α :=
  match l.getLast? with
  | none => []
  | some x => x :: l.dropLast

/-- One canal: its number of time steps `nt_canals[k]` and its row of `canal_Q`.
Used in the model of diversions_fraction_method.py:481. -/
structure Row (K : Type*) where
  nt : ℤ
  row : List K
  deriving DecidableEq

/-- `nt_canals` for one canal, diversions_fraction_method.py:481. -/
def ntCanal (travel dt : K) : ℤ := ⌈travel / dt⌉

/-- The part of `read_canal_data` that sets up the delay lines, diversions_fraction_method.py:481 and
508-510, for the travel times of all canals: every row has `nt_max` entries.  (`np.zeros` raises
ValueError for a negative size, which needs negative travel times; no canals at all: `max` of an
empty array, ValueError.) -/
def setup (dt : K) (travel : List K) : Option (List (Row K)) :=
  let nts := travel.map (fun t => ntCanal t dt)
  match nts.max? with
  | none => none
  | some m => if m < 0 then none else some (nts.map (fun n => ⟨n, List.replicate m.toNat 0⟩))

/-- Whether an array may be indexed with an integral floating point number.
Used in the model of diversions_fraction_method.py:670-729. -/
inductive Numpy
  | old
  | since112

/-- `update_canals` for one canal, diversions_fraction_method.py:670-729: enter the inflow at
position 0, read the outflow at position `nt_k - 1`, roll. -/
def updateCanal (v : Numpy) (c : Row K) (q : K) : Except String (Row K × K) :=
  match c.row with
  | [] => .error "IndexError"
  | _ :: rest =>
    let row := q :: rest
    match v with
    | .since112 => .error "IndexError"
    | .old =>
      match pyIndex row (c.nt - 1) with
      | none => .error "IndexError"
      | some out => .ok ({ c with row := roll row }, out)

/-- A run: the outflows that answer a list of inflows.
Built on the model of diversions_fraction_method.py:670-729. -/
def run (v : Numpy) : Row K → List K → Except String (Row K × List K)
  | c, [] => .ok (c, [])
  | c, q :: qs =>
    match updateCanal v c q with
    | .error e => .error e
    | .ok (c', out) =>
      match run v c' qs with
      | .error e => .error e
      | .ok (c'', outs) => .ok (c'', out :: outs)

/-- `update_sources` for one source, diversions_fraction_method.py:519-555: `row` is its line of
`Q_sources_all`, of length `nt_max_sources`, padded with zeros (diversions_fraction_method.py:296,
313). -/
def sourceQ (row : List K) (timeIndex : ℕ) : K :=
  match row[timeIndex]? with
  | some q => q
  | none => 0

/-- A line of `Q_sources_all`, diversions_fraction_method.py:296-313: `row[0:nt] = Q_values` on a line of
`nt_max` zeros.  The slice has `min(nt, nt_max)` entries; the values fill it if there are that many,
a single value is repeated over the slice (numpy broadcasting), any other number raises ValueError.
(`nt` is taken to be not negative.) -/
def sourceRow (ntMax nt : ℕ) (vals : List K) : Option (List K) :=
  let n := min nt ntMax
  if vals.length = n then some (vals ++ List.replicate (ntMax - n) 0)
  else match vals with
    | [v] => some (List.replicate n v ++ List.replicate (ntMax - n) 0)
    | _ => none

end Canal
