import Verif.CfgModel

/-!
# Directories

`set_directories` of topoflow/utils/BMI_base.py, with the functions of `os.path` that it calls (for POSIX paths).
-/

set_option autoImplicit false

namespace Cfg

/-- One component in `os.path.normpath`, for a path that begins with a slash.
Used in the model of BMI_base.py:2126-2158. -/
def normStep (acc : List Str) (c : Str) : List Str :=
  if c = [] ∨ c = ['.'] then acc
  else if c ≠ ['.', '.'] ∨ acc.getLast? = some ['.', '.'] then acc ++ [c]
  else acc.dropLast

/-- `'/'.join(comps)`.  Used in the model of BMI_base.py:2126-2158. -/
def joinSlash : List Str → Str
  | [] => []
  | [c] => c
  | c :: d :: cs => c ++ '/' :: joinSlash (d :: cs)

/-- `os.path.normpath` of a path that begins with a slash.  Simplified: exactly two leading slashes count as one.
Used in the model of BMI_base.py:2126-2158. -/
def normpath (p : Str) : Str := '/' :: joinSlash ((split '/' p).foldl normStep [])

/-- `os.path.abspath`, with the working directory of the process.
Used in the model of BMI_base.py:2126-2158. -/
def abspath (cwd p : Str) : Str :=
  if p.head? = some '/' then normpath p
  else if cwd = [] ∨ cwd.getLast? = some '/' then normpath (cwd ++ p)
  else normpath (cwd ++ '/' :: p)

/-- `str.rstrip('/')`.  Used in the model of BMI_base.py:2105-2117. -/
def rstripSlash (s : Str) : Str := (s.reverse.dropWhile (· == '/')).reverse

/-- `os.path.dirname`.  Used in the model of BMI_base.py:2105-2117. -/
def dirname (p : Str) : Str :=
  let head := p.take (rfind '/' p + 1).toNat
  if head ≠ [] ∧ head ≠ List.replicate head.length '/' then rstripSlash head else head

/-- The part of the operating system: the working directory, `os.path.expanduser` and `os.path.exists`.
Used in the model of BMI_base.py:2105-2117. -/
structure Os where
  cwd : Str
  expanduser : Str → Str
  pathExists : Str → Bool

/-- The attributes that `set_directories` reads and writes.
Used in the model of BMI_base.py:2069-2228. -/
structure Dirs where
  cfg : Str
  inp : Str
  out : Str
  topo : Str
  soil : Str
  met : Str
  misc : Str
  deriving DecidableEq

/-- `cfg_dir` (BMI_base.py:2105-2117); the attribute `cfg_directory`, if set, has precedence.  NameError (later) if
neither is known. -/
def cfgDir (os : Os) (cfgDirectory cfgFile : Option Str) : Except String Str :=
  match cfgDirectory with
  | some d => .ok d
  | none =>
    match cfgFile with
    | none => .error "NameError"
    | some f =>
      let d := dirname f
      let d := if d = [] then os.cwd else d
      .ok (d ++ ['/'])

/-- The expansion of one directory (BMI_base.py:2126-2158): IndexError for an empty string. -/
def expandDir (os : Os) (cfg d : Str) : Except String Str :=
  let d := os.expanduser d
  match d with
  | [] => .error "IndexError"
  | c :: _ =>
    let d := if c = '.' then abspath os.cwd (cfg ++ d) else d
    if d.getLast? = some '/' then .ok d else .ok (d ++ ['/'])

/-- A directory for static variables, if it exists (BMI_base.py:2175-2187). -/
def subDir (os : Os) (inp : Str) (name : String) : Str :=
  let d := inp ++ name.toList ++ ['/']
  if os.pathExists d then d else inp

/-- `set_directories` (BMI_base.py:2069-2228). -/
def setDirectories (os : Os) (cfgDirectory cfgFile : Option Str) (inDirectory outDirectory : Str) :
    Except String Dirs :=
  match cfgDir os cfgDirectory cfgFile with
  | .error e => .error e
  | .ok cfg =>
    match expandDir os cfg inDirectory with
    | .error e => .error e
    | .ok inp =>
      match expandDir os cfg outDirectory with
      | .error e => .error e
      | .ok out =>
        .ok ⟨cfg, inp, out, subDir os inp "__topo", subDir os inp "__soil", subDir os inp "__met",
          subDir os inp "__misc"⟩

end Cfg
