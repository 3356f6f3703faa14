import Verif.RtsModel
import Verif.TimeUtilsModel

/-!
# RTG grid files

The functions `read_grid` and `write_grid` and the class `rtg_file` of topoflow/utils/rtg_files.py, on the files and
bytes of `Verif.RtsModel`.

* An array of the caller is its data type with the bytes of its elements in the order of the machine; writing may
  change it, so the writers return the array as the caller sees it afterwards.
* `conv` is numpy's conversion of an element from one data type to another (a parameter).
* Data files and RTI files are separate maps, so a grid file with the extension `.rti` is not covered; opening a file
  for writing always succeeds; no BOV files.
-/

set_option autoImplicit false

namespace Rtg
open Files Rts

/-- A numpy array in row-major order.  Used in the model of rtg_files.py:545-558. -/
structure Arr where
  dtype : String
  elts : List Elt
  deriving DecidableEq

/-- `arr.byteswap(True)`: every element is reversed, in place.
Used in the model of rtg_files.py:536-568. -/
def swapArr (s : Bool) (a : Arr) : Arr := { a with elts := a.elts.map (swapIf s) }

/-- The conversion at the start of `write_grid` (rtg_files.py:545-558): the converted array, and whether it is the
array of the caller itself.  `keeps` says whether `np.float32(grid)` of an array that has this type already is the same
array (it is in numpy); for BYTE the intermediate conversion to int16 makes a new one. -/
def toType (keeps : Bool) (conv : String → String → Elt → Elt) (g : Arr) (rtgType : String) :
    Except String (Arr × Bool) :=
  match rtgType with
  | "BYTE" => .ok (⟨"uint8", (g.elts.map (conv g.dtype "int16")).map (conv "int16" "uint8")⟩, false)
  | "INTEGER" => .ok (⟨"int16", g.elts.map (conv g.dtype "int16")⟩, keeps && g.dtype == "int16")
  | "LONG" => .ok (⟨"int32", g.elts.map (conv g.dtype "int32")⟩, keeps && g.dtype == "int32")
  | "LONG64" => .ok (⟨"int64", g.elts.map (conv g.dtype "int64")⟩, keeps && g.dtype == "int64")
  | "FLOAT" => .ok (⟨"float32", g.elts.map (conv g.dtype "float32")⟩, keeps && g.dtype == "float32")
  | "DOUBLE" => .ok (⟨"float64", g.elts.map (conv g.dtype "float64")⟩, keeps && g.dtype == "float64")
  | _ => .error "RuntimeError: No match found for expression"

/-- `write_grid` (rtg_files.py:536-568), the function: the grid of the caller afterwards, and the files.  `rtgType` is
`"FLOAT"` by default. -/
def writeGrid (keeps : Bool) (conv : String → String → Elt → Elt) (fs : Fs) (g : Arr) (file : Name) (rti : Info)
    (rtgType : String) : Except String (Arr × Fs) :=
  match toType keeps conv g rtgType with
  | .error e => .error e
  | .ok (out, same) =>
    let out' := swapArr rti.swapEndian out
    .ok (if same then out' else g,
      { fs with data := fun n => if n = file then some out'.elts.flatten else fs.data n })

/-- What `np.fromfile`, `reshape` and `byteswap` make of the bytes of a file.
Used in the model of rtg_files.py:478-532. -/
def decode (bs : List Byte) (ncols nrows : ℕ) (swap : Bool) (dtype : String) : Except String Arr :=
  match itemsize dtype with
  | .error e => .error e
  | .ok w =>
    let elts := fromFile w (ncols * nrows) bs
    if elts.length = nrows * ncols then .ok (swapArr swap ⟨dtype, elts⟩)
    else .error "ValueError: cannot reshape array"

/-- `read_grid` (rtg_files.py:478-532), the function.  `n_pixels` is the product of columns and rows. -/
def readGrid (fs : Fs) (file : Name) (rti : Info) (rtgType : Option String) : Except String Arr :=
  match fs.data file with
  | none => .error "FileNotFoundError"
  | some bs =>
    match numpyDataType (rtgType.getD rti.dataType) with
    | .error e => .error e
    | .ok dtype => decode bs rti.ncols rti.nrows rti.swapEndian dtype

/-! ## The class -/

/-- The attributes of an `rtg_file` object (rtg_files.py:118-121, 138-142, 192-248). -/
structure Obj where
  timeIndex : ℕ := 1
  info : Option Info := none
  nx : Option ℕ := none
  ny : Option ℕ := none
  fileName : Option Name := none
  unit : Option Handle := none

/-- `add_index_to_file_name` (rtg_files.py:293-307). -/
def addIndex (file : Name) (i : ℕ) : Name :=
  let suffix := '_' :: TimeUtils.pad i 5
  match Files.rfind '.' file with
  | some pos => file.take pos ++ suffix ++ file.drop pos
  | none => file ++ suffix

/-- `open_new_file` and `check_and_store_info` with an RTI file made (rtg_files.py:192-279, 311-341).  Without `info`
the one of the object is used; simplified: if it has none either, the search for another RTI file is not modelled. -/
def openNewFile (fs : Fs) (o : Obj) (file : Name) (info : Option Info) (dtype : String) (addIdx : Bool) :
    Except String (Obj × Fs) :=
  let name := if addIdx then addIndex file o.timeIndex else file
  match (match info with | some i => some i | none => o.info), rtiDataType dtype with
  | none, _ => .error "not modelled"
  | some _, .error e => .error e
  | some i, .ok dt =>
    let i' := { i with dataType := dt }
    let o' := if info.isSome then { o with nx := some i.ncols, ny := some i.nrows } else o
    .ok ({ o' with
            info := some i'
            fileName := some name
            unit := some { file := name, canRead := false, canWrite := true, pos := 0 } },
         { data := fun n => if n = name then some [] else fs.data n
           rti := fun n => if n = rtiName name then some i' else fs.rti n })

/-- `write_grid` (rtg_files.py:345-374), the method: object, grid of the caller afterwards, and files.  The grid is
swapped in place and written in its own data type; the file is closed. -/
def writeGridM (fs : Fs) (o : Obj) (g : Arr) : Except String (Obj × Arr × Fs) :=
  match attr "info" o.info, attr "rtg_unit" o.unit with
  | .ok info, .ok h =>
    let g' := swapArr info.swapEndian g
    if h.canWrite then
      .ok ({ o with unit := some { h with canRead := false, canWrite := false }, timeIndex := o.timeIndex + 1 }, g',
        { fs with data := fun n =>
            if n = h.file then some (writeAt ((fs.data n).getD []) h.pos g'.elts.flatten) else fs.data n })
    else .error "ValueError: I/O operation on closed file"
  | _, _ => .error "AttributeError"

/-- `open_file` (rtg_files.py:125-178).  Without a name, the file of the object is opened again. -/
def openFile (mach : String) (fs : Fs) (o : Obj) (file : Option Name) : Except String Obj :=
  match ((match file with | some f => .ok f | none => attr "file_name" o.fileName) : Except String Name) with
  | .error e => .error e
  | .ok f =>
    match readInfo mach fs f with
    | .error e => .error e
    | .ok i =>
      .ok { o with
        info := some i
        nx := some i.ncols
        ny := some i.nrows
        fileName := some f
        unit := some { file := f, canRead := true, canWrite := false, pos := 0 } }

/-- `read_grid` (rtg_files.py:383-446), the method; the data type is the one asked for, `float32` by default. -/
def readGridM (fs : Fs) (o : Obj) (dtype : String) (rtgType : Option String) : Except String Arr :=
  match ((match rtgType with | some t => numpyDataType t | none => .ok dtype) : Except String String) with
  | .error e => .error e
  | .ok d =>
    match attr "nx" o.nx, attr "ny" o.ny, attr "rtg_unit" o.unit, attr "info" o.info with
    | .ok nx, .ok ny, .ok h, .ok info =>
      if h.canRead then
        match fs.data h.file with
        | none => .error "FileNotFoundError"
        | some bs => decode (bs.drop h.pos) nx ny info.swapEndian d
      else .error "ValueError: I/O operation on closed file"
    | _, _, _, _ => .error "AttributeError"

/-- A run that saves a grid after another: `open_new_file( file, info, dtype=dtype, ADD_INDEX=True )`, then
`write_grid( grid )`, as in the unit test (rtg_files.py:68-112). -/
def saveAll (fs : Fs) (o : Obj) (file : Name) (info : Info) (dtype : String) : List Arr → Except String (Obj × Fs)
  | [] => .ok (o, fs)
  | g :: gs =>
    match openNewFile fs o file (some info) dtype true with
    | .error e => .error e
    | .ok (o1, fs1) =>
      match writeGridM fs1 o1 g with
      | .error e => .error e
      | .ok (o2, _, fs2) => saveAll fs2 o2 file info dtype gs

end Rtg
