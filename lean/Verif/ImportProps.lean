import Verif.ImportModel
import Verif.RtgProps
import Mathlib.Tactic.Linarith
import Mathlib.Tactic.NormNum

/-!
# Properties of importing DEMs (C256, C257)
-/

set_option autoImplicit false

/-! Specification. -/
namespace ImportSpec
open Import

/-- North is up and the cells have a size. -/
def NorthUp (r : Raster) : Prop := r.xskew = 0 ∧ r.yskew = 0 ∧ 0 < r.xres ∧ r.yres < 0

/-- The record tells where the cells of the raster are: its edges are the edges of the raster; for a
projected raster the cells are given in meters, otherwise in seconds of arc. -/
structure Describes (g : Geo) (r : Raster) : Prop where
  ncols : g.ncols = r.ncols
  nrows : g.nrows = r.nrows
  west : g.xWest = r.ulx
  east : g.xEast = r.ulx + r.ncols * r.xres
  north : g.yNorth = r.uly
  south : g.ySouth = r.uly + r.nrows * r.yres
  projected : r.projected = true →
    g.pixelGeom = 1 ∧ g.boxUnits = "METERS" ∧ g.xres = r.xres ∧ g.yres = |r.yres|
  geographic : r.projected = false →
    g.pixelGeom = 0 ∧ g.boxUnits = "DEGREES" ∧ g.xres = 3600 * r.xres ∧ g.yres = 3600 * |r.yres|

/-- numpy's name of the data types of GDAL that have an RTG type. -/
def gdalName : ℕ → Option (String × ℕ)
  | 1 => some ("uint8", 1)
  | 3 => some ("int16", 2)
  | 5 => some ("int32", 4)
  | 6 => some ("float32", 4)
  | 7 => some ("float64", 8)
  | _ => none

/-- The grid of the raster has its size and its type. -/
structure GridOk (r : Raster) : Prop where
  length : r.grid.elts.length = r.ncols * r.nrows
  type : ∀ n w, gdalName r.typeCode = some (n, w) → r.grid.dtype = n ∧ ∀ e ∈ r.grid.elts, e.length = w

end ImportSpec

namespace Import
open Files Rts Rtg ImportSpec

/-! ## C256 -/

theorem makeRti_ok {mach : String} {r : Raster} {g : Geo} (h : makeRti mach r = .ok g) :
    ∃ t, rtgType r.typeCode = .ok t ∧ (∃ b, getBpe t = .ok b) ∧
      g = { ncols := r.ncols
            nrows := r.nrows
            dataType := t
            byteOrder := mach
            pixelGeom := 1
            xres := r.xres
            yres := |r.yres|
            zres := 1 / 100
            zUnits := "METERS"
            ySouth := r.uly + r.nrows * r.yres
            yNorth := r.uly
            xEast := r.ulx + r.ncols * r.xres
            xWest := r.ulx
            boxUnits := "METERS"
            gmin := r.gmin
            gmax := r.gmax
            utmZone := none
            swapEndian := false } := by
  unfold makeRti at h
  rcases ht : rtgType r.typeCode with e | t
  · rw [ht] at h; cases h
  · rw [ht] at h
    unfold makeInfo at h
    dsimp only at h
    rcases hb : getBpe t with e | b
    · rw [hb] at h; cases h
    · rw [hb] at h
      refine ⟨t, rfl, ⟨b, hb⟩, ?_⟩
      injection h with h
      rw [← h]
      simp [isProjectedAttr]

theorem rtgType_le {n : ℕ} {t : String} (h : rtgType n = .ok t) : n ≤ 7 := by
  unfold rtgType at h
  split at h <;> first | omega | exact absurd h (by simp)

/-- C256: which rasters `read_from_geotiff` with an RTI file accepts: bytes, 16 and 32 bit integers,
single and double precision; not unsigned or complex numbers. -/
theorem C256_types (mach : String) (r : Raster) :
    (∃ g, makeRti mach r = .ok g) ↔ r.typeCode ∈ [1, 3, 5, 6, 7] := by
  obtain ⟨nc, nr, a, b, c, d, e, f, t, p, g, mi, ma⟩ := r
  by_cases h : t ≤ 7
  · interval_cases t <;> simp [makeRti, rtgType, makeInfo, getBpe]
  · constructor
    · rintro ⟨g, hg⟩
      obtain ⟨t', ht, -⟩ := makeRti_ok hg
      dsimp only at ht
      exact absurd (rtgType_le ht) h
    · intro hm
      simp only [List.mem_cons, List.not_mem_nil, or_false] at hm
      omega

/-- C256 (projected rasters): the record written for a GeoTIFF or netCDF file describes it. -/
theorem C256_geotiff_partial (mach : String) (r : Raster) (hp : r.projected = true) (d d' : Disk) (f : Name)
    (a : Arr) (h : readFromGeotiff mach d r (some f) = .ok (a, d')) :
    a = r.grid ∧ ∃ g, d'.geo f = some g ∧ Describes g r := by
  unfold readFromGeotiff at h
  dsimp only at h
  rcases hm : makeRti mach r with e | g
  · rw [hm] at h; cases h
  · rw [hm] at h
    injection h with h
    obtain ⟨h1, h2⟩ := Prod.mk.inj h
    obtain ⟨t, -, -, hg⟩ := makeRti_ok hm
    refine ⟨h1.symm, g, by rw [← h2]; simp [Disk.putRti], ?_⟩
    rw [hg]
    exact ⟨rfl, rfl, rfl, rfl, rfl, rfl, fun _ => ⟨rfl, rfl, rfl, rfl⟩, fun h => by rw [hp] at h; cases h⟩

/-- C256 (violated, geographic rasters): for every raster with longitudes and latitudes the record calls the
grid projected and gives the cell size in degrees as meters. -/
theorem C256_geotiff_violated (mach : String) (r : Raster) (hp : r.projected = false) (d d' : Disk) (f : Name)
    (a : Arr) (h : readFromGeotiff mach d r (some f) = .ok (a, d')) :
    ∃ g, d'.geo f = some g ∧ g.pixelGeom = 1 ∧ g.boxUnits = "METERS" ∧ g.xres = r.xres ∧ g.yres = |r.yres| ∧
      ¬ Describes g r := by
  unfold readFromGeotiff at h
  dsimp only at h
  rcases hm : makeRti mach r with e | g
  · rw [hm] at h; cases h
  · rw [hm] at h
    injection h with h
    obtain ⟨h1, h2⟩ := Prod.mk.inj h
    obtain ⟨t, -, -, hg⟩ := makeRti_ok hm
    refine ⟨g, by rw [← h2]; simp [Disk.putRti], ?_⟩
    rw [hg]
    refine ⟨rfl, rfl, rfl, rfl, fun hd => ?_⟩
    have := (hd.geographic hp).1
    cases this

/-- C256: the edges are right in all cases, and in order for a raster with north up. -/
theorem C256_edges (mach : String) (r : Raster) (d d' : Disk) (f : Name) (a : Arr)
    (h : readFromGeotiff mach d r (some f) = .ok (a, d')) :
    ∃ g, d'.geo f = some g ∧ g.ncols = r.ncols ∧ g.nrows = r.nrows ∧
      (g.xWest, g.ySouth, g.xEast, g.yNorth) = bounds r ∧
      (NorthUp r → 0 < r.ncols → 0 < r.nrows → g.xWest < g.xEast ∧ g.ySouth < g.yNorth) := by
  unfold readFromGeotiff at h
  dsimp only at h
  rcases hm : makeRti mach r with e | g
  · rw [hm] at h; cases h
  · rw [hm] at h
    injection h with h
    obtain ⟨h1, h2⟩ := Prod.mk.inj h
    obtain ⟨t, -, -, hg⟩ := makeRti_ok hm
    refine ⟨g, by rw [← h2]; simp [Disk.putRti], ?_⟩
    rw [hg]
    refine ⟨rfl, rfl, rfl, ?_⟩
    rintro ⟨-, -, hx, hy⟩ hc hr
    have hc' : (0 : ℚ) < r.ncols := by exact_mod_cast hc
    have hr' : (0 : ℚ) < r.nrows := by exact_mod_cast hr
    have h1 := mul_pos hc' hx
    have h2 := mul_neg_of_pos_of_neg hr' hy
    dsimp only
    constructor <;> linarith

theorem importDem_ok {d d' : Disk} {r : Raster} {p : Name} (h : importDemAsRtg d r p = .ok d') :
    (∃ t, rtgType r.typeCode = .ok t) ∧
    d'.geo = (fun n => if n = rtiName (p ++ "_DEM.rtg".toList) then some (importRec r) else d.geo n) ∧
    d'.fs.rti = (fun n => if n = rtiName (p ++ "_DEM.rtg".toList) then some (importRec r).info else d.fs.rti n) ∧
    d'.fs.data (p ++ "_DEM.rtg".toList) = some r.grid.elts.flatten := by
  unfold importDemAsRtg at h
  rcases ht : rtgType r.typeCode with e | t
  · rw [ht] at h; cases h
  · rw [ht] at h
    refine ⟨⟨t, rfl⟩, ?_⟩
    have hid : swapIf false = id := by funext e; rfl
    simp only [Rtg.openNewFile, rtiDataType, writeGridM, attr, Option.isSome, importRec, Geo.info, swapArr,
      if_true, Except.ok.injEq] at h
    subst h
    refine ⟨rfl, rfl, ?_⟩
    simp [writeAt, hid]

/-- C256 (geographic rasters): the record written by `import_dem_as_rtg` describes them. -/
theorem C256_import_partial (r : Raster) (hp : r.projected = false) (d d' : Disk) (p : Name)
    (h : importDemAsRtg d r p = .ok d') :
    ∃ g, d'.geo (rtiName (p ++ "_DEM.rtg".toList)) = some g ∧ Describes g r := by
  obtain ⟨-, h1, -⟩ := importDem_ok h
  refine ⟨importRec r, by rw [h1]; simp, ?_⟩
  refine ⟨rfl, rfl, rfl, rfl, rfl, rfl, fun h => (by rw [hp] at h; cases h), fun _ => ⟨rfl, rfl, ?_, ?_⟩⟩
  · exact mul_comm _ _
  · exact mul_comm _ _

/-- C256 (violated, projected rasters): `import_dem_as_rtg` records meters as degrees. -/
theorem C256_import_violated (r : Raster) (hp : r.projected = true) (d d' : Disk) (p : Name)
    (h : importDemAsRtg d r p = .ok d') :
    ∃ g, d'.geo (rtiName (p ++ "_DEM.rtg".toList)) = some g ∧ g.pixelGeom = 0 ∧ g.boxUnits = "DEGREES" ∧
      ¬ Describes g r := by
  obtain ⟨-, h1, -⟩ := importDem_ok h
  refine ⟨importRec r, by rw [h1]; simp, rfl, rfl, fun hd => ?_⟩
  have := (hd.projected hp).1
  cases this

/-- C256: `import_dem_as_rtg` accepts the codes up to 7. -/
theorem C256_import_types (d : Disk) (r : Raster) (p : Name) :
    (∃ d', importDemAsRtg d r p = .ok d') ↔ r.typeCode ≤ 7 := by
  constructor
  · rintro ⟨d', h⟩
    obtain ⟨⟨t, ht⟩, -⟩ := importDem_ok h
    exact rtgType_le ht
  · intro h
    have ht : ∃ t, rtgType r.typeCode = .ok t := by
      generalize r.typeCode = t at *
      interval_cases t <;> exact ⟨_, rfl⟩
    obtain ⟨t, ht⟩ := ht
    unfold importDemAsRtg
    rw [ht]
    exact ⟨_, rfl⟩

/-! ## C257 -/

theorem sum_const_len (n w : ℕ) : (List.replicate n w).sum = n * w := by
  induction n with
  | zero => simp
  | succ n ih => rw [List.replicate_succ, List.sum_cons, ih]; ring

theorem rtiName_rtiName (s e : Name) (he : '.' ∉ e) :
    rtiName (s ++ '.' :: e) = s ++ ".rti".toList := by
  unfold rtiName
  have h := prefixOf_dot s he
  rw [List.append_assoc] at h
  exact congrArg (· ++ ".rti".toList) h

theorem readInfo_found {mach : String} {fs : Fs} {file : Name} {i : Info} (h : fs.rti (rtiName file) = some i) :
    readInfo mach fs file = .ok { i with swapEndian := decide (mach ≠ i.byteOrder) } := by
  unfold readInfo tryToFindRti
  simp [h]

/-- Reading takes as many bytes as the cells need and ignores the rest. -/
theorem fromFile_congr (w : ℕ) : ∀ (n : ℕ) (a b : List Byte), w * n ≤ a.length → w * n ≤ b.length →
    a.take (w * n) = b.take (w * n) → fromFile w n a = fromFile w n b
  | 0, _, _, _, _, _ => rfl
  | n + 1, a, b, ha, hb, h => by
    have e : w * (n + 1) = w + w * n := by ring
    rw [e] at ha hb h
    unfold fromFile
    rw [if_neg (by omega), if_neg (by omega)]
    have h1 : a.take w = b.take w := by
      have := congrArg (List.take w) h
      simpa [List.take_take] using this
    have h2 : (a.drop w).take (w * n) = (b.drop w).take (w * n) := by
      have := congrArg (List.drop w) h
      simpa [List.drop_take] using this
    rw [h1, fromFile_congr w n (a.drop w) (b.drop w) (by simp; omega) (by simp; omega) h2]

/-- What the save of a GeoTIFF leaves on disk. -/
theorem save_ok {keeps : Bool} {conv : String → String → Elt → Elt} {mach : String} {d d' : Disk} {r : Raster}
    {stem ext : Name} (he : '.' ∉ ext)
    (h : saveGeotiffAsRtg keeps conv mach d r (stem ++ '.' :: ext) (stem ++ ".rti".toList) = .ok d') :
    ∃ t b, rtgType r.typeCode = .ok t ∧ getBpe t = .ok b ∧
      d'.fs.rti (stem ++ ".rti".toList) = some ⟨r.ncols, r.nrows, t, mach, false⟩ ∧
      d'.fs.data (stem ++ '.' :: ext) = some (inType conv r.grid "float32").flatten := by
  unfold saveGeotiffAsRtg readFromGeotiff at h
  dsimp only at h
  rcases hm : makeRti mach r with e | g
  · rw [hm] at h; cases h
  · rw [hm] at h
    dsimp only at h
    obtain ⟨t, ht, ⟨b, hb⟩, hg⟩ := makeRti_ok hm
    have hri : (d.putRti (stem ++ ".rti".toList) g).fs.rti (rtiName (stem ++ ".rti".toList)) =
        some ⟨r.ncols, r.nrows, t, mach, false⟩ := by
      have e : rtiName (stem ++ ".rti".toList) = stem ++ ".rti".toList :=
        rtiName_rtiName stem "rti".toList (by decide)
      rw [e]
      simp [Disk.putRti, hg, Geo.info]
    rw [readInfo_found hri] at h
    dsimp only at h
    have hid : swapIf false = id := by funext e; rfl
    have hw := toType_eq keeps conv r.grid "FLOAT" "float32" rfl
    rw [writeGrid, hw] at h
    simp only [ne_eq, not_true_eq_false, decide_false] at h
    injection h with h
    refine ⟨t, b, ht, hb, ?_, ?_⟩
    · rw [← h]
      simp [Disk.putRti, hg, Geo.info]
    · rw [← h]
      simp [swapArr, hid]

/-- What reading such a file back does. -/
theorem read_back {mach : String} {d : Disk} {stem ext : Name} (he : '.' ∉ ext) {i : Info} {bs : List Byte}
    (hi : d.fs.rti (stem ++ ".rti".toList) = some i) (hd : d.fs.data (stem ++ '.' :: ext) = some bs) :
    readFromRtg mach d (stem ++ '.' :: ext) =
      match numpyDataType i.dataType with
      | .error e => .error e
      | .ok t => (decode bs i.ncols i.nrows (decide (mach ≠ i.byteOrder)) t).map some := by
  have hr := rtiName_rtiName stem ext he
  unfold readFromRtg
  rw [hd, readInfo_found (by rw [hr]; exact hi)]
  dsimp only
  unfold readGrid
  rw [hd]
  simp only [Option.getD_some]
  rcases numpyDataType i.dataType with e | t
  · rfl
  · dsimp only
    rcases decode bs i.ncols i.nrows (decide (mach ≠ i.byteOrder)) t with e | g
    · rfl
    · rfl

/-- C257 (single precision): a GeoTIFF saved as RTG file is read back cell by cell. -/
theorem C257_geotiff_partial (keeps : Bool) (conv : String → String → Elt → Elt) (hc : ConvOk conv)
    (mach : String) (d : Disk) (r : Raster) (hr : GridOk r) (h6 : r.typeCode = 6) (stem ext : Name)
    (he : '.' ∉ ext) :
    ∃ d', saveGeotiffAsRtg keeps conv mach d r (stem ++ '.' :: ext) (stem ++ ".rti".toList) = .ok d' ∧
      readFromRtg mach d' (stem ++ '.' :: ext) = .ok (some r.grid) := by
  obtain ⟨hn, hty⟩ := hr
  obtain ⟨hdt, hsz⟩ := hty "float32" 4 (by rw [h6]; rfl)
  obtain ⟨g, hg⟩ := (C256_types mach r).2 (by rw [h6]; decide)
  have hex : ∃ d', saveGeotiffAsRtg keeps conv mach d r (stem ++ '.' :: ext) (stem ++ ".rti".toList) = .ok d' := by
    unfold saveGeotiffAsRtg readFromGeotiff
    dsimp only
    rw [hg]
    dsimp only
    have hri : (d.putRti (stem ++ ".rti".toList) g).fs.rti (rtiName (stem ++ ".rti".toList)) = some g.info := by
      have e : rtiName (stem ++ ".rti".toList) = stem ++ ".rti".toList :=
        rtiName_rtiName stem "rti".toList (by decide)
      rw [e]
      simp [Disk.putRti]
    rw [readInfo_found hri]
    exact ⟨_, rfl⟩
  obtain ⟨d', hd'⟩ := hex
  refine ⟨d', hd', ?_⟩
  obtain ⟨t, b, ht, hb, hi, hf⟩ := save_ok he hd'
  rw [h6] at ht
  injection ht with ht
  subst ht
  rw [read_back he hi hf]
  have hs : inType conv r.grid "float32" = r.grid.elts := by rw [← hdt]; exact inType_self conv hc r.grid
  rw [hs]
  have h1 := decode_elts r.grid [] r.ncols r.nrows 4 false (by rw [hdt]; rfl) hn hsz
  have hid : swapIf false = id := by funext e; rfl
  simp only [swapArr, hid, List.map_id, List.append_nil, hdt] at h1
  simp only [numpyDataType, ne_eq, not_true_eq_false, decide_false]
  rw [h1]
  simp only [Except.map]

/-- C257 (violated, double precision): the saved file cannot be read back. -/
theorem C257_geotiff_double_violated (keeps : Bool) (conv : String → String → Elt → Elt) (hc : ConvOk conv)
    (mach : String) (d d' : Disk) (r : Raster) (hr : GridOk r) (h7 : r.typeCode = 7)
    (hn : 0 < r.ncols * r.nrows) (stem ext : Name) (he : '.' ∉ ext)
    (h : saveGeotiffAsRtg keeps conv mach d r (stem ++ '.' :: ext) (stem ++ ".rti".toList) = .ok d') :
    ∃ e, readFromRtg mach d' (stem ++ '.' :: ext) = .error e := by
  obtain ⟨t, b, ht, hb, hi, hf⟩ := save_ok he h
  rw [h7] at ht
  injection ht with ht
  subst ht
  rw [read_back he hi hf]
  have hl : (inType conv r.grid "float32").flatten.length = 4 * (r.ncols * r.nrows) := by
    have := inType_size conv hc r.grid "float32" 4 rfl
    rw [List.length_flatten, List.map_congr_left this, List.map_const', sum_const_len]
    have h2 : (inType conv r.grid "float32").length = r.grid.elts.length := by
      unfold inType; simp
    rw [h2, hr.length, mul_comm]
  obtain ⟨e, hd⟩ := decode_short (inType conv r.grid "float32").flatten r.ncols r.nrows 8
    (decide (mach ≠ mach)) "float64" rfl (by rw [hl]; omega)
  refine ⟨e, ?_⟩
  simp only [numpyDataType]
  rw [hd]
  rfl

/-- C257 (violated, integers): of an INTEGER raster only the first half of the cells has an influence on
what is read back, so two rasters that differ in a later cell come back the same. -/
theorem C257_geotiff_integer_violated (keeps : Bool) (conv : String → String → Elt → Elt) (hc : ConvOk conv)
    (mach : String) (d1 d2 d1' d2' : Disk) (r1 r2 : Raster) (hr1 : GridOk r1) (hr2 : GridOk r2)
    (h1 : r1.typeCode = 3) (h2 : r2.typeCode = 3) (hcol : r1.ncols = r2.ncols) (hrow : r1.nrows = r2.nrows)
    (m : ℕ) (hm : r1.ncols * r1.nrows ≤ 2 * m) (hmn : m ≤ r1.ncols * r1.nrows)
    (hag : r1.grid.elts.take m = r2.grid.elts.take m)
    (stem ext : Name) (he : '.' ∉ ext)
    (s1 : saveGeotiffAsRtg keeps conv mach d1 r1 (stem ++ '.' :: ext) (stem ++ ".rti".toList) = .ok d1')
    (s2 : saveGeotiffAsRtg keeps conv mach d2 r2 (stem ++ '.' :: ext) (stem ++ ".rti".toList) = .ok d2') :
    readFromRtg mach d1' (stem ++ '.' :: ext) = readFromRtg mach d2' (stem ++ '.' :: ext) := by
  have t1 := (hr1.type "int16" 2 (by rw [h1]; rfl)).1
  have t2 := (hr2.type "int16" 2 (by rw [h2]; rfl)).1
  obtain ⟨t, b, ht, hb, hi, hf⟩ := save_ok he s1
  obtain ⟨t', b', ht', hb', hi', hf'⟩ := save_ok he s2
  rw [h1] at ht; rw [h2] at ht'
  injection ht with ht
  injection ht' with ht'
  subst ht; subst ht'
  rw [read_back he hi hf, read_back he hi' hf']
  simp only [numpyDataType]
  rw [← hcol, ← hrow]
  congr 1
  have hlen : ∀ r : Raster, GridOk r → (inType conv r.grid "float32").flatten.length = 4 * (r.ncols * r.nrows) := by
    intro r hr
    have := inType_size conv hc r.grid "float32" 4 rfl
    rw [List.length_flatten, List.map_congr_left this, List.map_const', sum_const_len]
    have h2 : (inType conv r.grid "float32").length = r.grid.elts.length := by
      unfold inType; simp
    rw [h2, hr.length, mul_comm]
  have htake : ∀ r : Raster, (inType conv r.grid "float32").flatten.take (4 * m) =
      ((r.grid.elts.take m).map (conv r.grid.dtype "float32")).flatten := by
    intro r
    have hsz := inType_size conv hc r.grid "float32" 4 rfl
    have e : inType conv r.grid "float32" = r.grid.elts.map (conv r.grid.dtype "float32") := by
      unfold inType; simp
    rw [e] at hsz ⊢
    rw [List.map_take]
    generalize r.grid.elts.map (conv r.grid.dtype "float32") = l at hsz
    clear hm hmn hag
    induction m generalizing l with
    | zero => simp
    | succ m ih =>
      cases l with
      | nil => simp
      | cons a l =>
        have ha := hsz a List.mem_cons_self
        rw [List.flatten_cons, List.take_succ_cons, List.flatten_cons,
          show 4 * (m + 1) = a.length + 4 * m by omega, List.take_length_add_append,
          ih l (fun e he => hsz e (List.mem_cons_of_mem _ he))]
  have hf : fromFile 2 (r1.ncols * r1.nrows) (inType conv r1.grid "float32").flatten =
      fromFile 2 (r1.ncols * r1.nrows) (inType conv r2.grid "float32").flatten := by
    apply fromFile_congr
    · rw [hlen r1 hr1]; omega
    · rw [hlen r2 hr2, ← hcol, ← hrow]; omega
    · have e : ∀ l : List Byte, l.take (2 * (r1.ncols * r1.nrows)) =
          (l.take (4 * m)).take (2 * (r1.ncols * r1.nrows)) := by
        intro l
        rw [List.take_take, min_eq_left (by omega)]
      rw [e, e (inType conv r2.grid "float32").flatten, htake, htake, hag, t1, t2]
  unfold decode
  simp only [itemsize]
  rw [hf]

/-- C257 (single precision, little-endian machine): a DEM imported by `import_dem_as_rtg` is read back cell by
cell. -/
theorem C257_import_partial (d d' : Disk) (r : Raster) (hr : GridOk r) (h6 : r.typeCode = 6) (p : Name)
    (h : importDemAsRtg d r p = .ok d') :
    readFromRtg "LSB" d' (p ++ "_DEM.rtg".toList) = .ok (some r.grid) := by
  obtain ⟨hn, hty⟩ := hr
  obtain ⟨hdt, hsz⟩ := hty "float32" 4 (by rw [h6]; rfl)
  obtain ⟨-, -, hi, hf⟩ := importDem_ok h
  have e : p ++ "_DEM.rtg".toList = (p ++ "_DEM".toList) ++ '.' :: "rtg".toList := by simp
  have hr := rtiName_rtiName (p ++ "_DEM".toList) "rtg".toList (by decide)
  rw [← e] at hr
  have hi' : d'.fs.rti ((p ++ "_DEM".toList) ++ ".rti".toList) = some (importRec r).info := by
    rw [hi, ← hr]; simp
  rw [e] at hf ⊢
  rw [read_back (by decide) hi' hf]
  have h1 := decode_elts r.grid [] r.ncols r.nrows 4 false (by rw [hdt]; rfl) hn hsz
  have hid : swapIf false = id := by funext e; rfl
  simp only [swapArr, hid, List.map_id, List.append_nil, hdt] at h1
  simp only [importRec, Geo.info, numpyDataType, ne_eq, not_true_eq_false, decide_false]
  rw [h1]
  simp only [Except.map]

/-- C257 (violated, 8 and 16 bit integers): the imported DEM cannot be read back. -/
theorem C257_import_integer_violated (mach : String) (d d' : Disk) (r : Raster) (hr : GridOk r)
    (hc : r.typeCode = 1 ∨ r.typeCode = 3) (hn : 0 < r.ncols * r.nrows) (p : Name)
    (h : importDemAsRtg d r p = .ok d') :
    ∃ e, readFromRtg mach d' (p ++ "_DEM.rtg".toList) = .error e := by
  obtain ⟨-, -, hi, hf⟩ := importDem_ok h
  have e : p ++ "_DEM.rtg".toList = (p ++ "_DEM".toList) ++ '.' :: "rtg".toList := by simp
  have hrn := rtiName_rtiName (p ++ "_DEM".toList) "rtg".toList (by decide)
  rw [← e] at hrn
  have hi' : d'.fs.rti ((p ++ "_DEM".toList) ++ ".rti".toList) = some (importRec r).info := by
    rw [hi, ← hrn]; simp
  rw [e] at hf ⊢
  rw [read_back (by decide) hi' hf]
  have hlen : r.grid.elts.flatten.length ≤ 2 * (r.ncols * r.nrows) := by
    have hw : ∃ w, w ≤ 2 ∧ ∀ e ∈ r.grid.elts, e.length = w := by
      rcases hc with h1 | h3
      · exact ⟨1, by omega, (hr.type "uint8" 1 (by rw [h1]; rfl)).2⟩
      · exact ⟨2, le_rfl, (hr.type "int16" 2 (by rw [h3]; rfl)).2⟩
    obtain ⟨w, hw2, hw⟩ := hw
    rw [List.length_flatten, List.map_congr_left hw, List.map_const', sum_const_len, hr.length,
      mul_comm]
    exact Nat.mul_le_mul_right _ hw2
  obtain ⟨e', hd⟩ := decode_short r.grid.elts.flatten r.ncols r.nrows 4 (decide (mach ≠ "LSB")) "float32" rfl
    (by omega)
  refine ⟨e', ?_⟩
  show Except.map some (decode r.grid.elts.flatten r.ncols r.nrows (decide (mach ≠ "LSB")) "float32") = _
  rw [hd]
  rfl

/-- C257 (violated, 32 bit integers and double precision): if the imported DEM can be read back, the numbers
come back as single precision numbers made of its bytes. -/
theorem C257_import_type_violated (mach : String) (d d' : Disk) (r : Raster) (hr : GridOk r)
    (hc : r.typeCode = 5 ∨ r.typeCode = 7) (p : Name) (h : importDemAsRtg d r p = .ok d') :
    readFromRtg mach d' (p ++ "_DEM.rtg".toList) ≠ .ok (some r.grid) ∧
    ∀ a, readFromRtg mach d' (p ++ "_DEM.rtg".toList) = .ok (some a) → a.dtype = "float32" := by
  obtain ⟨-, -, hi, hf⟩ := importDem_ok h
  have e : p ++ "_DEM.rtg".toList = (p ++ "_DEM".toList) ++ '.' :: "rtg".toList := by simp
  have hrn := rtiName_rtiName (p ++ "_DEM".toList) "rtg".toList (by decide)
  rw [← e] at hrn
  have hi' : d'.fs.rti ((p ++ "_DEM".toList) ++ ".rti".toList) = some (importRec r).info := by
    rw [hi, ← hrn]; simp
  rw [e] at hf ⊢
  rw [read_back (by decide) hi' hf]
  simp only [importRec, Geo.info, numpyDataType]
  have key : ∀ a, (decode r.grid.elts.flatten r.ncols r.nrows (decide (mach ≠ "LSB")) "float32").map some =
      .ok (some a) → a.dtype = "float32" := by
    intro a ha
    rcases hdec : decode r.grid.elts.flatten r.ncols r.nrows (decide (mach ≠ "LSB")) "float32" with x | y
    · rw [hdec] at ha; cases ha
    · rw [hdec] at ha
      simp only [Except.map, Except.ok.injEq, Option.some.injEq] at ha
      rw [← ha]
      exact decode_dtype hdec
  refine ⟨fun hh => ?_, key⟩
  have hk := key _ hh
  rcases hc with h1 | h3
  · rw [(hr.type "int32" 4 (by rw [h1]; rfl)).1] at hk; exact absurd hk (by decide)
  · rw [(hr.type "float64" 8 (by rw [h3]; rfl)).1] at hk; exact absurd hk (by decide)

/-! Rasters that meet the hypotheses: two cells of one minute of arc. -/

/-- A raster of two cells of single precision numbers. -/
def sample : Raster := ⟨2, 1, 34, 1 / 60, 0, 9, 0, -(1 / 60), 6, false, ⟨"float32", [[0, 0, 128, 63], [0, 0, 0, 64]]⟩, 1, 2⟩

/-- The same as 16 bit integers. -/
def sampleInt : Raster :=
  ⟨2, 1, 34, 1 / 60, 0, 9, 0, -(1 / 60), 3, false, ⟨"int16", [[1, 0], [2, 0]]⟩, 1, 2⟩

theorem sample_ok : GridOk sample ∧ GridOk sampleInt ∧ NorthUp sample := by
  refine ⟨⟨rfl, ?_⟩, ⟨rfl, ?_⟩, ?_⟩
  · intro n w h
    simp only [gdalName, sample, Option.some.injEq, Prod.mk.injEq] at h
    obtain ⟨rfl, rfl⟩ := h
    exact ⟨rfl, by decide⟩
  · intro n w h
    simp only [gdalName, sampleInt, Option.some.injEq, Prod.mk.injEq] at h
    obtain ⟨rfl, rfl⟩ := h
    exact ⟨rfl, by decide⟩
  · unfold NorthUp sample
    norm_num

example : ∃ g, makeRti "LSB" sample = .ok g ∧ g.pixelGeom = 1 ∧ g.xres = 1 / 60 := ⟨_, rfl, rfl, rfl⟩

example : ∃ d', importDemAsRtg ⟨⟨fun _ => none, fun _ => none⟩, fun _ => none⟩ sampleInt "a".toList = .ok d' :=
  (C256_import_types _ _ _).2 (by decide)

end Import
