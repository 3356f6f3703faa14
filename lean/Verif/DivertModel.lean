import Verif.TableModel
import Verif.CanalModel
import Mathlib.Data.Rat.Floor

/-!
# Key-value lines and the diversion files

Models `topoflow/utils/cfg_files.py` and the readers of the source, sink and canal files of
`topoflow/components/diversions_fraction_method.py`.

A file is the list of its remaining lines; `readline` at the end of the file gives an empty line.
Python's `eval` of a word is a parameter `ev` (`none`: it raises); its values are rational numbers.
`np.float64` is the identity and `np.int32` truncates (range not modelled).  Words are separated by
white space (no caller passes a `word_delim`).  Not modelled: messages.
-/

set_option autoImplicit false

namespace Divert

/-- Used in the model of cfg_files.py:134-150. -/
abbrev Text := List Char

/-- `file_unit.readline()`.  Used in the model of cfg_files.py:54. -/
def readline : List Text → Text × List Text
  | [] => ([], [])
  | l :: ls => (l, ls)

/-- `line[p + 1:]` for the first position `p` of the delimiter, `none` if there is none
(cfg_files.py:142-148, 120-128).  (The delimiter is not empty.) -/
def afterFirst (d : Text) : Text → Option Text
  | [] => none
  | c :: t => if d.isPrefixOf (c :: t) then some t else afterFirst d t

/-- `read_line_after_key`, cfg_files.py:134-150. -/
def readLineAfterKey (d : Text) (f : List Text) : Text × List Text :=
  match afterFirst d (readline f).1 with
  | none => ([], (readline f).2)
  | some r => (Rti.strip r, (readline f).2)

/-- `read_words_after_key`, cfg_files.py:154-177: with `n_words` the function ends without a value
unless there are too few words. -/
def readWordsAfterKey (d : Text) (nWords : Option ℕ) (f : List Text) :
    Option (List Text) × List Text :=
  let (line, f') := readLineAfterKey d f
  let ws := Table.words line
  match nWords with
  | none => (some ws, f')
  | some n => if ws.length < n then (some ws, f') else (none, f')

/-- The types of values in the calls of the component.  Used in the model of
cfg_files.py:239-286. -/
inductive Kind
  | file
  | string
  | boolean
  | int32
  | float64
  deriving DecidableEq

/-- A value that was read.  Used in the model of cfg_files.py:239-286. -/
inductive Val
  | str (s : Text)
  | bool (b : Bool)
  | num (q : ℚ)
  deriving DecidableEq

/-- `get_yes_words`, cfg_files.py:40-43. -/
def yesWords : List Text :=
  ["1".toList, "true".toList, "on".toList, "yes".toList, "ok".toList]

/-- `str.lower` (ASCII).  Used in the model of cfg_files.py:269. -/
def lower (s : Text) : Text := s.map Char.toLower

/-- `np.int32(value)`, `np.float64(value)` (cfg_files.py:284, 103). -/
def convert (k : Kind) (q : ℚ) : Val :=
  match k with
  | .int32 => .num (Table.trunc q)
  | _ => .num q

/-- `read_value`, cfg_files.py:239-286.  The delimiter is used for type `file` only.  A word that
`eval` rejects is returned as it is. -/
def readValue (ev : Text → Option ℚ) (k : Kind) (d : Text) (f : List Text) :
    Except String (Val × List Text) :=
  match k with
  | .file => .ok (.str (readLineAfterKey d f).1, (readLineAfterKey d f).2)
  | _ =>
    let r := readLineAfterKey [':'] f
    match Table.words r.1 with
    | [] => .error "IndexError"
    | w :: _ =>
      match k with
      | .string => .ok (.str w, r.2)
      | .boolean => .ok (.bool (decide (lower w ∈ yesWords)), r.2)
      | _ =>
        match ev w with
        | none => .ok (.str w, r.2)
        | some q => .ok (convert k q, r.2)

/-- One entry of a list, cfg_files.py:94-104 and 221-231: no lower case for booleans, and what `eval`
raises is not caught.  (`np.file` does not exist.) -/
def listEntry (ev : Text → Option ℚ) (k : Kind) (w : Text) : Except String Val :=
  match k with
  | .string => .ok (.str w)
  | .boolean => .ok (.bool (decide (w ∈ yesWords)))
  | .file => .error "AttributeError"
  | _ =>
    match ev w with
    | none => .error "NameError or SyntaxError"
    | some q => .ok (convert k q)

/-- The loop of `read_list` and `read_list_after_key`, cfg_files.py:94-106, 221-233.
(`zip`: the words are not fewer than the types.) -/
def listEntries (ev : Text → Option ℚ) : List Kind → List Text → Except String (List Val)
  | k :: ks, w :: ws =>
    match listEntry ev k w with
    | .error e => .error e
    | .ok v =>
      match listEntries ev ks ws with
      | .error e => .error e
      | .ok vs => .ok (v :: vs)
  | _, _ => .ok []

/-- `read_list_after_key`, cfg_files.py:181-235: `none` (no value) when the line has fewer words than
types are given. -/
def readListAfterKey (ev : Text → Option ℚ) (kinds : Option (List Kind)) (k : Kind) (d : Text)
    (f : List Text) : Except String (Option (List Val) × List Text) :=
  let r := readLineAfterKey d f
  let ws := Table.words r.1
  match kinds with
  | none =>
    match listEntries ev (List.replicate ws.length k) ws with
    | .error e => .error e
    | .ok vs => .ok (some vs, r.2)
  | some ks =>
    if ks.length > ws.length then .ok (none, r.2)
    else
      match listEntries ev ks ws with
      | .error e => .error e
      | .ok vs => .ok (some vs, r.2)

/-! ## The diversion files -/

/-- A number that was read, in a place where a word leads to an exception (`np.zeros([word])`,
`array[k] = word`; diversions_fraction_method.py:286-313). -/
def asNum : Val → Except String ℚ
  | .num q => .ok q
  | _ => .error "TypeError or ValueError"

/-- `cfg.read_value(file_unit, dtype=...)`, the value being used as a number
(diversions_fraction_method.py:286-313). -/
def num (ev : Text → Option ℚ) (k : Kind) (f : List Text) : Except String (ℚ × List Text) :=
  match readValue ev k [':'] f with
  | .error e => .error e
  | .ok (v, f') =>
    match asNum v with
    | .error e => .error e
    | .ok q => .ok (q, f')

/-- The sources of the component: cells, discharges and coordinates.  `dt` is `source_dt`.
Used in the model of diversions_fraction_method.py:255-328. -/
structure Sources where
  dt : ℚ
  ids : List ℚ
  rows : List (List ℚ)
  xs : List ℚ
  ys : List ℚ
  deriving DecidableEq

/-- The numbers of a list, diversions_fraction_method.py:306, 313.  The list has no words, since it
was read as `float64`. -/
def nums (vs : List Val) : List ℚ := vs.filterMap fun v => match v with | .num q => some q | _ => none

/-- The slice `0:nt` of a line of `nt_max` entries has this length
(diversions_fraction_method.py:313); a negative `nt` counts from the end. -/
def sliceLen (ntMax : ℕ) (nt : ℚ) : ℕ :=
  if nt < 0 then ((ntMax : ℤ) + Table.trunc nt).toNat else (Table.trunc nt).toNat

/-- The loop over the sources, diversions_fraction_method.py:303-313. -/
def readBlocks (ev : Text → Option ℚ) (ntMax : ℕ) :
    ℕ → List Text → Except String (List (ℚ × List ℚ))
  | 0, _ => .ok []
  | n + 1, f => do
    let (id, f1) ← num ev .int32 f
    let (nt, f2) ← num ev .int32 f1
    let (vs, f3) ← readListAfterKey ev none .float64 [':'] f2
    match Canal.sourceRow ntMax (sliceLen ntMax nt) (nums (vs.getD [])) with
    | none => .error "ValueError"
    | some row =>
      let rest ← readBlocks ev ntMax n f3
      .ok ((id, row) :: rest)

/-- Column times `dx`; `none`: the attribute does not exist (diversions_fraction_method.py:323-326). -/
def coords (nx : ℕ) (dx dy : Option ℚ) (ids : List ℚ) : Except String (List ℚ × List ℚ) :=
  match dx, dy with
  | some dx, some dy =>
    .ok (ids.map (fun i => ((⌊i⌋ % (nx : ℤ) : ℤ) : ℚ) * dx), ids.map (fun i => i / nx * dy))
  | _, _ => .error "AttributeError"

/-- `read_source_data` for a component that uses sources and whose file exists,
diversions_fraction_method.py:255-328. -/
def readSourceData (ev : Text → Option ℚ) (nx : ℕ) (dx dy : Option ℚ) (f : List Text) :
    Except String Sources := do
  let (n, f1) ← num ev .int32 f
  let (ntMax, f2) ← num ev .int32 f1
  let (dt, f3) ← num ev .float64 f2
  if n < 0 ∨ ntMax < 0 then .error "ValueError"
  else do
    let blocks ← readBlocks ev ⌊ntMax⌋.toNat ⌊n⌋.toNat f3
    let (xs, ys) ← coords nx dx dy (blocks.map (·.1))
    .ok ⟨dt, blocks.map (·.1), blocks.map (·.2), xs, ys⟩

/-- `read_sink_data`, diversions_fraction_method.py:330-403: the same up to the first sink, where
`size(Q_values)` (383) is not defined. -/
def readSinkData (ev : Text → Option ℚ) (nx : ℕ) (dx dy : Option ℚ) (f : List Text) :
    Except String Sources := do
  let (n, f1) ← num ev .int32 f
  let (ntMax, f2) ← num ev .int32 f1
  let (dt, f3) ← num ev .float64 f2
  if n < 0 ∨ ntMax < 0 then .error "ValueError"
  else if n = 0 then do
    let (xs, ys) ← coords nx dx dy []
    .ok ⟨dt, [], [], xs, ys⟩
  else do
    let (_, f4) ← num ev .int32 f3
    let (_, f5) ← num ev .int32 f4
    let _ ← readListAfterKey ev none .float64 [':'] f5
    .error "NameError: size"

/-- One canal of the file.  Used in the model of diversions_fraction_method.py:463-472. -/
structure CanalData where
  inID : ℚ
  outID : ℚ
  fraction : ℚ
  time : ℚ
  deriving DecidableEq

/-- The loop over the canals, diversions_fraction_method.py:463-472. -/
def readCanals (ev : Text → Option ℚ) : ℕ → List Text → Except String (List CanalData)
  | 0, _ => .ok []
  | n + 1, f => do
    let (i, f1) ← num ev .int32 f
    let (o, f2) ← num ev .int32 f1
    let (q, f3) ← num ev .float64 f2
    let (t, f4) ← num ev .float64 f3
    let rest ← readCanals ev n f4
    .ok (⟨i, o, q, t⟩ :: rest)

/-- The part of `read_canal_data` that reads the file, diversions_fraction_method.py:405-472. -/
def readCanalFile (ev : Text → Option ℚ) (f : List Text) : Except String (List CanalData) := do
  let (n, f1) ← num ev .int32 f
  if n < 0 then .error "ValueError" else readCanals ev ⌊n⌋.toNat f1

end Divert
