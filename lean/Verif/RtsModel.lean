import Verif.FilesModel
import Mathlib.Data.List.Flatten
import Mathlib.Algebra.Order.Ring.Int

/-!
# RTS grid stacks

Models the class `rts_file` of `topoflow/utils/rts_files.py` together with the
data-type tables of `topoflow/utils/rti_files.py`.

* A binary file is a list of bytes; an open file has a position.
* The Python object is a record of optional attributes: reading an attribute
  that was never assigned raises `AttributeError`.
* Numbers are seen through the bytes of their native representation, so
  `byteswap` is the reversal of those bytes.  The conversion `astype(dtype)` of
  an array element is a parameter `cast` (numpy, not modelled).
* RTI files are stored in parsed form; the text format is modelled in
  `Verif.RtiModel`.
* Not modelled: the machine integers that numpy uses for file offsets (files
  beyond 2 GB), failing `open` calls, BOV files.
-/

set_option autoImplicit false

namespace Rts
open Files

/-- Used in the model of rts_files.py:381-395. -/
abbrev Byte := UInt8

/-- One array element: the bytes of its native representation.
Used in the model of rts_files.py:381-395. -/
abbrev Elt := List Byte

/-- `get_rti_data_type` (rti_files.py:128-134).  Simplified: `str(dtype).lower()`
is applied by the caller (the names are given in lower case). -/
def rtiDataType : String → Except String String
  | "uint8" => .ok "BYTE"
  | "int16" => .ok "INTEGER"
  | "int32" => .ok "LONG"
  | "int64" => .ok "LONG64"
  | "float32" => .ok "FLOAT"
  | "float64" => .ok "DOUBLE"
  | _ => .error "KeyError"

/-- `get_numpy_data_type` (rti_files.py:138-144). -/
def numpyDataType : String → Except String String
  | "BYTE" => .ok "uint8"
  | "INTEGER" => .ok "int16"
  | "LONG" => .ok "int32"
  | "LONG64" => .ok "int64"
  | "FLOAT" => .ok "float32"
  | "DOUBLE" => .ok "float64"
  | _ => .error "KeyError"

/-- `get_bpe` (rti_files.py:156-164). -/
def getBpe : String → Except String ℕ
  | "BYTE" => .ok 1
  | "INTEGER" => .ok 2
  | "LONG" => .ok 4
  | "LONG64" => .ok 8
  | "FLOAT" => .ok 4
  | "DOUBLE" => .ok 8
  | _ => .error "KeyError"

/-- numpy's `itemsize` of the data types used here.  Used in the model of rts_files.py:442-462. -/
def itemsize : String → Except String ℕ
  | "uint8" => .ok 1
  | "int16" => .ok 2
  | "int32" => .ok 4
  | "int64" => .ok 8
  | "float32" => .ok 4
  | "float64" => .ok 8
  | _ => .error "TypeError"

/-- The fields of the `info` object used by RTS files (rti_files.py:491-514). -/
structure Info where
  ncols : ℕ
  nrows : ℕ
  dataType : String
  byteOrder : String
  swapEndian : Bool
deriving DecidableEq

/-- The file system: binary files, and RTI files in parsed form.
Used in the model of rti_files.py:286-401. -/
structure Fs where
  data : Name → Option (List Byte)
  rti : Name → Option Info

/-- An open file: name, access mode and position.  Used in the model of rts_files.py:374-376. -/
structure Handle where
  file : Name
  canRead : Bool
  canWrite : Bool
  pos : ℕ
deriving DecidableEq

/-- The attributes of an `rts_file` object.  Used in the model of rts_files.py:146-198. -/
structure Obj where
  dtype : Option String := none
  info : Option Info := none
  nx : Option ℕ := none
  ny : Option ℕ := none
  gridSize : Option ℕ := none
  fileName : Option Name := none
  unit : Option Handle := none
deriving DecidableEq

/-- Reading an attribute.  Used in the model of rts_files.py:374-376. -/
def attr {α : Type} (name : String) : Option α → Except String α
  | some a => .ok a
  | none => .error ("AttributeError: " ++ name)

/-- `rti_files.read_info` seen from `open_file` (rti_files.py:286-401): the RTI
file is looked up by name, and `SWAP_ENDIAN` is recomputed from the byte order
of this machine. -/
def readInfo (mach : String) (fs : Fs) (file : Name) : Except String Info :=
  match tryToFindRti (fun n => (fs.rti n).isSome) file with
  | none => .error "AttributeError: 'NoneType' object has no attribute 'ncols'"
  | some f =>
    match fs.rti f with
    | none => .error "unreachable"
    | some i => .ok { i with swapEndian := decide (mach ≠ i.byteOrder) }

/-- `open_file` (rts_files.py:146-198). -/
def openFile (mach : String) (fs : Fs) (o : Obj) (file : Name) (update : Bool) :
    Except String Obj :=
  match readInfo mach fs file with
  | .error e => .error e
  | .ok i =>
    match getBpe i.dataType with
    | .error e => .error e
    | .ok bpe =>
      .ok { o with
        info := some i
        nx := some i.ncols
        ny := some i.nrows
        gridSize := some (i.ncols * i.nrows * bpe)
        fileName := some file
        unit := some { file := file, canRead := true, canWrite := update, pos := 0 } }

/-- `open_new_file` and `check_and_store_info` with an `info` argument, RTI file
made, no BOV file (rts_files.py:212-347).  The name is changed by
`check_overwrite` unless `OVERWRITE_OK`; the RTI file is written without a
check; the RTS file is created empty.  `grid_size` is not set here. -/
def openNewFile (fs : Fs) (o : Obj) (file : Name) (info : Info) (dtype : String)
    (overwriteOk : Bool) (fuel : ℕ) : Except String (Obj × Fs) :=
  let name? := if overwriteOk then some file
    else checkOverwrite (fun n => (fs.data n).isSome || (fs.rti n).isSome) fuel file
  match name? with
  | none => .error "no result within fuel"
  | some name =>
    match rtiDataType dtype with
    | .error e => .error e
    | .ok dt =>
      let info' := { info with dataType := dt }
      .ok ({ o with
              dtype := some dtype
              info := some info'
              nx := some info.ncols
              ny := some info.nrows
              fileName := some name
              unit := some { file := name, canRead := false, canWrite := true, pos := 0 } },
           { data := fun n => if n = name then some [] else fs.data n
             rti := fun n => if n = rtiName name then some info' else fs.rti n })

/-- What callers pass as `grid`: an array, a zero-dimensional array, or a numpy
scalar (for example the result of `arr.max()`).  Used in the model of rts_files.py:381-395. -/
inductive Arg (V : Type) where
  | grid (vals : List V)
  | zeroDim (v : V)
  | npScalar (v : V)

/-- Writing bytes into a file at a position (zeros fill a gap).
Used in the model of rts_files.py:351-405. -/
def writeAt (f : List Byte) (pos : ℕ) (bs : List Byte) : List Byte :=
  f.take pos ++ List.replicate (pos - f.length) 0 ++ bs ++ f.drop (pos + bs.length)

/-- `byteswap`: the bytes of each element are reversed.
Used in the model of rts_files.py:381-395. -/
def swapIf (s : Bool) (e : Elt) : Elt := if s then e.reverse else e

/-- The array that `add_grid` hands to `tofile` (rts_files.py:381-395):
conversion, byte swap, then expansion of scalars.

* A zero-dimensional array is byte-swapped in place, and `out_grid += zeros`
  is an in-place addition whose result does not fit: `ValueError`.
* A numpy scalar cannot be byte-swapped in place: `ValueError`; without a swap
  `+=` rebinds the name to a full grid. -/
def outGrid {V : Type} (cast : String → V → Elt) (dtype : String) (swap : Bool)
    (nx ny : ℕ) : Arg V → Except String (List Elt)
  | .grid vals => .ok (vals.map (fun v => swapIf swap (cast dtype v)))
  | .zeroDim _ => .error "ValueError: non-broadcastable output operand"
  | .npScalar v =>
    if swap then .error "ValueError: cannot byteswap a scalar in-place"
    else .ok (List.replicate (ny * nx) (cast dtype v))

/-- `self.rts_unit.seek(offset)` of `add_grid` (rts_files.py:374-376): the
position of the next write. -/
def seekTo (o : Obj) (h : Handle) (timeIndex : ℤ) : Except String ℕ :=
  if 0 ≤ timeIndex then
    match attr "grid_size" o.gridSize with
    | .error e => .error e
    | .ok gs => .ok (timeIndex.toNat * gs)
  else .ok h.pos

/-- `add_grid` (rts_files.py:351-405).  `timeIndex = -1` is the default. -/
def addGrid {V : Type} (cast : String → V → Elt) (fs : Fs) (o : Obj) (g : Arg V)
    (timeIndex : ℤ) : Except String (Obj × Fs) :=
  match attr "dtype" o.dtype with
  | .error e => .error e
  | .ok dtype =>
  match attr "rts_unit" o.unit with
  | .error e => .error e
  | .ok h =>
  match seekTo o h timeIndex with
  | .error e => .error e
  | .ok pos =>
  match attr "info" o.info, attr "nx" o.nx, attr "ny" o.ny with
  | .ok info, .ok nx, .ok ny =>
    match outGrid cast dtype info.swapEndian nx ny g with
    | .error e => .error e
    | .ok elts =>
      if h.canWrite then
        let bs := elts.flatten
        .ok ({ o with unit := some { h with pos := pos + bs.length } },
             { fs with
                data := fun n =>
                  if n = h.file then some (writeAt ((fs.data n).getD []) pos bs)
                  else fs.data n })
      else .error "OSError: not writable"
  | _, _, _ => .error "AttributeError: info"

/-- `np.fromfile(unit, count, dtype)`: at most `count` elements of `w` bytes; an
incomplete last element is dropped.  Used in the model of rts_files.py:442-462. -/
def fromFile (w : ℕ) : ℕ → List Byte → List Elt
  | 0, _ => []
  | count + 1, bs =>
    if bs.length < w then [] else bs.take w :: fromFile w count (bs.drop w)

/-- `get_grid` (rts_files.py:442-462): the elements in row-major order, after
the byte swap; `reshape` fails when the file is too short. -/
def getGrid (fs : Fs) (o : Obj) (timeIndex : ℕ) (dtype : String) :
    Except String (List Elt) :=
  match attr "nx" o.nx, attr "ny" o.ny, attr "grid_size" o.gridSize,
        attr "rts_unit" o.unit, attr "info" o.info with
  | .ok nx, .ok ny, .ok gs, .ok h, .ok info =>
    if h.canRead then
      match itemsize dtype with
      | .error e => .error e
      | .ok w =>
        let elts := fromFile w (nx * ny) (((fs.data h.file).getD []).drop (timeIndex * gs))
        if elts.length = ny * nx then .ok (elts.map (swapIf info.swapEndian))
        else .error "ValueError: cannot reshape array"
    else .error "io.UnsupportedOperation"
  | _, _, _, _, _ => .error "AttributeError"

/-- `number_of_grids` (rts_files.py:495-503).  Simplified: the quotient of file
size and grid size is taken exactly. -/
def numberOfGrids (fs : Fs) (o : Obj) : Except String ℕ :=
  match attr "file_name" o.fileName, attr "grid_size" o.gridSize with
  | .ok f, .ok gs =>
    match fs.data f with
    | none => .error "FileNotFoundError"
    | some bs => if gs = 0 then .error "ZeroDivisionError" else .ok (bs.length / gs)
  | _, _ => .error "AttributeError"

/-- `close` (rts_files.py:480-482): the handle stays on the object, closed. -/
def closeFile (o : Obj) : Obj :=
  { o with unit := o.unit.map (fun h => { h with canRead := false, canWrite := false }) }

/-- A sequence of `add_grid(grid)` calls.  Built on the model of rts_files.py:351-405. -/
def addAll {V : Type} (cast : String → V → Elt) (fs : Fs) (o : Obj) :
    List (List V) → Except String (Obj × Fs)
  | [] => .ok (o, fs)
  | g :: gs =>
    match addGrid cast fs o (.grid g) (-1) with
    | .error e => .error e
    | .ok (o', fs') => addAll cast fs' o' gs

/-- A sequence of `add_grid(grid, time_index=i)` calls.
Built on the model of rts_files.py:351-405. -/
def updateAll {V : Type} (cast : String → V → Elt) (fs : Fs) (o : Obj) :
    List (ℕ × List V) → Except String (Obj × Fs)
  | [] => .ok (o, fs)
  | (i, g) :: gs =>
    match addGrid cast fs o (.grid g) i with
    | .error e => .error e
    | .ok (o', fs') => updateAll cast fs' o' gs

end Rts
