import Mathlib.Data.List.Basic
import Mathlib.Data.Int.Notation

/-!
# Configuration files

`read_config_file`, `read_path_info` and `set_directories` of topoflow/utils/BMI_base.py, on strings as lists of
characters.  The attributes of the component are a partial map from names to values.
-/

set_option autoImplicit false

namespace Cfg

/-- Used in the model of BMI_base.py:1758-1770. -/
abbrev Str := List Char

/-- What an attribute can hold after reading: a 0-d float64 array, a 0-d int32 array, a string or a boolean.
Used in the model of BMI_base.py:1815-1931. -/
inductive Value (F : Type) where
  | float (x : F)
  | int (n : ℤ)
  | str (s : Str)
  | bool (b : Bool)

/-- Used in the model of BMI_base.py:1859-1868. -/
abbrev Attrs (F : Type) := Str → Option (Value F)

/-- The parts of Python and of the component that reading depends on: `np.float64(str)` and `np.int32(str)` (`none` is
ValueError), the names that `exec("self." + name + " = ...")` accepts, the zero `0.0`, and the method
`initialize_layer_vars` of the infiltration components (`none` if it raises, or if the component has none).
Used in the model of BMI_base.py:1772-1813. -/
structure Env (F : Type) where
  float64 : Str → Option F
  int32 : Str → Option ℤ
  assignable : Str → Bool
  zero : F
  layerVars : ℤ → Attrs F → Option (Attrs F)

/-- `str.strip()`.  Simplified: whitespace is space, tab, newline and carriage return.
Used in the model of BMI_base.py:1728-1739. -/
def strip (s : Str) : Str :=
  ((s.dropWhile Char.isWhitespace).reverse.dropWhile Char.isWhitespace).reverse

/-- `line.split(c)`.  Used in the model of BMI_base.py:1728-1739. -/
def split (c : Char) : Str → List Str
  | [] => [[]]
  | x :: xs =>
    if x = c then [] :: split c xs
    else
      match split c xs with
      | [] => [[x]]
      | w :: ws => (x :: w) :: ws

/-- `str.lower()`.  Simplified: ASCII letters.  Used in the model of BMI_base.py:1772-1813. -/
def lower (s : Str) : Str := s.map Char.toLower

/-- `exec("self." + name + " = value")`: SyntaxError if the name cannot be assigned to.  Simplified: a name with a
subscript, such as `Ks[0]`, is an attribute of its own.
Used in the model of BMI_base.py:1772-1813. -/
def assign {F : Type} (env : Env F) (a : Attrs F) (name : Str) (v : Value F) : Except String (Attrs F) :=
  if env.assignable name then .ok (fun k => if k = name then some v else a k) else .error "SyntaxError"

/-- The last position of `c`, counting from `i`; `acc` if there is none.
Used in the model of BMI_base.py:1758-1770. -/
def rfindFrom (c : Char) : Str → ℕ → ℤ → ℤ
  | [], _, acc => acc
  | x :: xs, i, acc => rfindFrom c xs (i + 1) (if x = c then (i : ℤ) else acc)

/-- `str.rfind(c)`: the last position of `c`, -1 if there is none.
Used in the model of BMI_base.py:1758-1770. -/
def rfind (c : Char) (s : Str) : ℤ := rfindFrom c s 0 (-1)

/-- `var_base` and `var_name_file_str` (BMI_base.py:1758-1770). -/
def baseAndFile (name : Str) : Str × Str :=
  let p1 := rfind '[' name
  let p2 := rfind ']' name
  if p1 > 0 ∧ p2 > p1 then
    let base := name.take p1.toNat
    let subscript := (name.take (p2.toNat + 1)).drop p1.toNat
    (base, base ++ "_file".toList ++ subscript)
  else (name, name ++ "_file".toList)

/-- The expansion of the file name prefixes (BMI_base.py:1859-1868); AttributeError if the prefix is not set.
Simplified: a prefix that is not a string is an error too. -/
def expand {F : Type} (a : Attrs F) (s : Str) : Except String Str :=
  if s.take 13 = "[case_prefix]".toList then
    match a "case_prefix".toList with
    | some (.str p) => .ok (p ++ s.drop 13)
    | _ => .error "AttributeError"
  else if s.take 13 = "[site_prefix]".toList then
    match a "site_prefix".toList with
    | some (.str p) => .ok (p ++ s.drop 13)
    | _ => .error "AttributeError"
  else .ok s

/-- `true_list` and `false_list` (BMI_base.py:1884-1885). -/
def trueList : List Str := ["yes", "true", "on", "1"].map String.toList
/-- Used in the model of BMI_base.py:1815-1931. -/
def falseList : List Str := ["no", "false", "off", "0"].map String.toList

/-- What is kept between lines: the attributes, `last_var_name` and `last_value`.
Used in the model of BMI_base.py:1772-1813. -/
structure St (F : Type) where
  attrs : Attrs F
  lastName : Str
  lastValue : Value F

/-- `READ_SCALAR`/`READ_FILENAME`: the last is true for `filename`.
Used in the model of BMI_base.py:1772-1813. -/
inductive Mode where
  | plain | scalar | filename
  deriving DecidableEq

/-- The effect of a preceding `_type` variable (BMI_base.py:1772-1813). -/
def typeStep {F : Type} (env : Env F) (st : St F) (name base fileStr : Str) : Except String (Attrs F × Mode) :=
  if (base ++ "_type".toList).isPrefixOf st.lastName then
    match st.lastValue with
    | .str t =>
      if lower t = "scalar".toList then
        match assign env st.attrs fileStr (.str []) with
        | .ok a => .ok (a, .scalar)
        | .error e => .error e
      else
        match assign env st.attrs name (.float env.zero) with
        | .ok a => .ok (a, .filename)
        | .error e => .error e
    | _ => .error "AttributeError"
  else .ok (st.attrs, .plain)

/-- The assignment by type (BMI_base.py:1815-1931), and the value that is kept as `last_value`. -/
def assignTyped {F : Type} (env : Env F) (a : Attrs F) (mode : Mode) (name fileStr value vtype : Str) :
    Except String (Attrs F × Value F) :=
  if vtype = "double".toList ∨ vtype = "float".toList then
    match env.float64 value with
    | none => .error "ValueError"
    | some x =>
      match assign env a name (.float x) with
      | .ok a' => .ok (a', .float x)
      | .error e => .error e
  else if vtype = "long".toList ∨ vtype = "int".toList then
    match env.int32 value with
    | none => .error "ValueError"
    | some n =>
      match assign env a name (.int n) with
      | .ok a' => .ok (a', .int n)
      | .error e => .error e
  else if vtype = "string".toList then
    match expand a value with
    | .error e => .error e
    | .ok valueStr =>
      if lower value ∈ trueList ++ falseList then
        match assign env a name (.bool (decide (lower value ∈ trueList))) with
        | .ok a' => .ok (a', .str value)
        | .error e => .error e
      else
        match assign env a (if mode = .filename then fileStr else name) (.str valueStr) with
        | .ok a' => .ok (a', .str value)
        | .error e => .error e
  else .ok (a, .str value)

/-- `n_layers` (BMI_base.py:1750-1756). -/
def layerStep {F : Type} (env : Env F) (a : Attrs F) (name value : Str) : Except String (Attrs F) :=
  if name = "n_layers".toList then
    match env.int32 value with
    | none => .error "ValueError"
    | some n =>
      match env.layerVars n (fun k => if k = name then some (.int n) else a k) with
      | none => .error "AttributeError"
      | some a' => .ok a'
  else .ok a

/-- One entry `name | value | type | help` (BMI_base.py:1734-1934). -/
def entry {F : Type} (env : Env F) (st : St F) (name value vtype : Str) : Except String (St F) :=
  match layerStep env st.attrs name value with
  | .error e => .error e
  | .ok a =>
    let bf := baseAndFile name
    match typeStep env { st with attrs := a } name bf.1 bf.2 with
    | .error e => .error e
    | .ok (a', mode) =>
      match assignTyped env a' mode name bf.2 value vtype with
      | .error e => .error e
      | .ok (a'', v) => .ok ⟨a'', name, v⟩

/-- The fields of a line, if it is an entry (BMI_base.py:1728-1739). -/
def parseLine (line : Str) : Option (Str × Str × Str) :=
  if line.head? = some '#' then none
  else
    match split '|' line with
    | [w0, w1, w2, _] => some (strip w0, strip w1, strip w2)
    | _ => none

/-- One line of the file.  Used in the model of BMI_base.py:1728-1739. -/
def line {F : Type} (env : Env F) (st : St F) (l : Str) : Except String (St F) :=
  match parseLine l with
  | none => .ok st
  | some (name, value, vtype) => entry env st name value vtype

/-- `read_config_file` (BMI_base.py:1670-1937) on the lines of an existing file; every line ends with its newline, so
none is empty.  On an error the attributes set so far would be kept, but `initialize` does not go on. -/
def readLines {F : Type} (env : Env F) (st : St F) : List Str → Except String (St F)
  | [] => .ok st
  | l :: ls =>
    match line env st l with
    | .error e => .error e
    | .ok st' => readLines env st' ls

/-- `read_config_file`: starts with `last_var_name = ''`.
Built on the model of BMI_base.py:1670-1937. -/
def readConfig {F : Type} (env : Env F) (a : Attrs F) (file : List Str) : Except String (Attrs F) :=
  match readLines env ⟨a, [], .str []⟩ file with
  | .ok st => .ok st.attrs
  | .error e => .error e

/-- `read_path_info` (BMI_base.py:1467-1550) on the lines of an existing file, without the call of
`set_directories`: every entry is kept as a string. -/
def readPathInfo {F : Type} (env : Env F) (a : Attrs F) : List Str → Except String (Attrs F)
  | [] => .ok a
  | l :: ls =>
    match parseLine l with
    | none => readPathInfo env a ls
    | some (name, value, _) =>
      match assign env a name (.str value) with
      | .error e => .error e
      | .ok a' => readPathInfo env a' ls

end Cfg
