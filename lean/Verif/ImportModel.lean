import Verif.RtgModel
import Mathlib.Algebra.Order.Ring.Rat

/-!
# Importing DEMs (topoflow/utils/import_grid.py)

GDAL is outside the model: an opened raster is its size, its geotransform, the code of its data type, whether its
coordinate system is projected, and its grid.  Files, RTI files and arrays are those of `Verif.RtsModel` and
`Verif.RtgModel`; the georeferencing written to an RTI file is kept in parsed form (`Geo`; the text format is modelled in
`Verif.RtiModel`).  Numbers are exact.  Messages are not modelled.
-/

set_option autoImplicit false

namespace Import
open Files Rts Rtg

/-- A raster as GDAL presents it.  Used in the model of import_grid.py:65-258. -/
structure Raster where
  ncols : ℕ
  nrows : ℕ
  ulx : ℚ
  xres : ℚ
  xskew : ℚ
  uly : ℚ
  yskew : ℚ
  yres : ℚ
  typeCode : ℕ
  projected : Bool
  grid : Arr
  gmin : ℚ
  gmax : ℚ

/-- The grid information record.  Used in the model of rti_files.py:491-514. -/
structure Geo where
  ncols : ℕ
  nrows : ℕ
  dataType : String
  byteOrder : String
  pixelGeom : ℕ
  xres : ℚ
  yres : ℚ
  zres : ℚ
  zUnits : String
  ySouth : ℚ
  yNorth : ℚ
  xEast : ℚ
  xWest : ℚ
  boxUnits : String
  gmin : ℚ
  gmax : ℚ
  utmZone : Option ℤ
  swapEndian : Bool

/-- What the readers and writers of grids use of the record.  Used in the model of rti_files.py:491-514. -/
def Geo.info (g : Geo) : Info := ⟨g.ncols, g.nrows, g.dataType, g.byteOrder, g.swapEndian⟩

/-- Grid files, RTI files, and the georeferencing in the RTI files.
Used in the model of import_grid.py:496-513. -/
structure Disk where
  fs : Fs
  geo : Name → Option Geo

/-- `write_info`, rti_files.py:518-626, in parsed form. -/
def Disk.putRti (d : Disk) (f : Name) (g : Geo) : Disk :=
  { fs := { d.fs with rti := fun n => if n = f then some g.info else d.fs.rti n }
    geo := fun n => if n = f then some g else d.geo n }

/-- `get_rtg_type_from_gdal_type`, import_grid.py:231-258. -/
def rtgType : ℕ → Except String String
  | 0 => .ok "UNKNOWN"
  | 1 => .ok "BYTE"
  | 2 => .ok "UINT"
  | 3 => .ok "INTEGER"
  | 4 => .ok "ULONG"
  | 5 => .ok "LONG"
  | 6 => .ok "FLOAT"
  | 7 => .ok "DOUBLE"
  | _ => .error "KeyError"

/-- `get_raster_cellsize`, import_grid.py:165-178. -/
def cellsize (r : Raster) : ℚ × ℚ := (r.xres, |r.yres|)

/-- `get_raster_bounds`, import_grid.py:180-219: xmin, ymin, xmax, ymax. -/
def bounds (r : Raster) : ℚ × ℚ × ℚ × ℚ :=
  let lrx := r.ulx + r.ncols * r.xres
  let lry := r.uly + r.nrows * r.yres
  (r.ulx, lry, lrx, r.uly)

/-- The truth value of `srs.IsProjected`: the method is not called, and a bound method counts as true.
import_grid.py:443. -/
def isProjectedAttr (_r : Raster) : Bool := true

/-- `get_utm_zone`, rti_files.py:181-188 (the number is formatted by the caller). -/
def utmZone (midLon : ℚ) : ℤ := ⌈(midLon + 180) / 6⌉

/-- `make_info` when all arguments it needs are given, rti_files.py:405-514: the number of bytes per
element is looked up, and `SWAP_ENDIAN` compares the byte orders. -/
def makeInfo (mach : String) (g : Geo) : Except String Geo :=
  match getBpe g.dataType with
  | .error e => .error e
  | .ok _ => .ok { g with swapEndian := decide (mach ≠ g.byteOrder) }

/-- `make_rti_for_gdal_grid`, import_grid.py:399-484: the record that is written. -/
def makeRti (mach : String) (r : Raster) : Except String Geo :=
  match rtgType r.typeCode with
  | .error e => .error e
  | .ok t =>
    let lrx := r.ulx + r.ncols * r.xres
    let lry := r.uly + r.nrows * r.yres
    let geographic := !isProjectedAttr r
    makeInfo mach
      { ncols := r.ncols
        nrows := r.nrows
        dataType := t
        byteOrder := mach
        pixelGeom := if geographic then 0 else 1
        xres := if geographic then r.xres * 3600 else r.xres
        yres := if geographic then |r.yres| * 3600 else |r.yres|
        zres := 1 / 100
        zUnits := "METERS"
        ySouth := lry
        yNorth := r.uly
        xEast := lrx
        xWest := r.ulx
        boxUnits := if geographic then "DEGREES" else "METERS"
        gmin := r.gmin
        gmax := r.gmax
        utmZone := if geographic then some (utmZone ((r.ulx + lrx) / 2)) else none
        swapEndian := false }

/-- `read_from_geotiff` (and `read_from_netcdf`) of a file that exists, import_grid.py:264-331. -/
def readFromGeotiff (mach : String) (d : Disk) (r : Raster) (rti : Option Name) : Except String (Arr × Disk) :=
  match rti with
  | none => .ok (r.grid, d)
  | some f =>
    match makeRti mach r with
    | .error e => .error e
    | .ok g => .ok (r.grid, d.putRti f g)

/-- `save_geotiff_as_rtg`, import_grid.py:496-513; also `read_dem_as_geotiff` followed by
`write_dem_as_rtg`, prepare_inputs.py:1221-1279. -/
def saveGeotiffAsRtg (keeps : Bool) (conv : String → String → Elt → Elt) (mach : String) (d : Disk) (r : Raster)
    (rtg rti : Name) : Except String Disk :=
  match readFromGeotiff mach d r (some rti) with
  | .error e => .error e
  | .ok (grid, d1) =>
    match readInfo mach d1.fs rti with
    | .error e => .error e
    | .ok info =>
      match writeGrid keeps conv d1.fs grid rtg info "FLOAT" with
      | .error e => .error e
      | .ok (_, fs2) => .ok { d1 with fs := fs2 }

/-- `read_from_rtg`, import_grid.py:334-360; `none`: the file does not exist and -1 is returned. -/
def readFromRtg (mach : String) (d : Disk) (file : Name) : Except String (Option Arr) :=
  match d.fs.data file with
  | none => .ok none
  | some _ =>
    match readInfo mach d.fs file with
    | .error e => .error e
    | .ok info =>
      match readGrid d.fs file info (some info.dataType) with
      | .error e => .error e
      | .ok g => .ok (some g)

/-- The record that `import_dem_as_rtg` fills in, import_grid.py:118-141: `SWAP_ENDIAN` was computed for the
byte order of the machine and is not changed with the byte order.  The data type is replaced when the
file is opened (rtg_files.py:234). -/
def importRec (r : Raster) : Geo :=
  let c := cellsize r
  let b := bounds r
  { ncols := r.ncols
    nrows := r.nrows
    dataType := "FLOAT"
    byteOrder := "LSB"
    pixelGeom := 0
    xres := c.1 * 3600
    yres := c.2 * 3600
    zres := 1 / 100
    zUnits := "METERS"
    ySouth := b.2.1
    yNorth := b.2.2.2
    xEast := b.2.2.1
    xWest := b.1
    boxUnits := "DEGREES"
    gmin := r.gmin
    gmax := r.gmax
    utmZone := none
    swapEndian := false }

/-- `import_dem_as_rtg` of a file that exists, import_grid.py:65-154; the new file is opened with the
default type, `float32`. -/
def importDemAsRtg (d : Disk) (r : Raster) (newPrefix : Name) : Except String Disk :=
  match rtgType r.typeCode with
  | .error e => .error e
  | .ok t =>
    let g := importRec r
    let file := newPrefix ++ "_DEM.rtg".toList
    match openNewFile d.fs {} file (some { g.info with dataType := t }) "float32" false with
    | .error e => .error e
    | .ok (o, fs1) =>
      match writeGridM fs1 o r.grid with
      | .error e => .error e
      | .ok (_, _, fs2) =>
        .ok { fs := fs2
              geo := fun n => if n = rtiName file then some g else d.geo n }

end Import
