import Mathlib.Algebra.Order.Field.Basic
import Mathlib.Algebra.Order.Ring.Rat
import Mathlib.Algebra.Order.Floor.Ring
import Mathlib.Data.Rat.Floor
import Mathlib.Data.List.Sort
import Verif.CfgModel

/-!
# Catchments of the NextGen hydrofabric

The class `catchment` of topoflow/utils/ngen/hydrofab_utils.py: bounding box, outlet, area, headwater catchments, outlets
to the ocean, and the bounds, projection and elevations of the DEM made by `get_dem`.  The two GeoJSON files are values; a
key that a record may lack is an `Option`.  Coordinates are elements of an ordered field `K`.  The transformations of
GDAL are parameters.
-/

set_option autoImplicit false

namespace Catch

open Cfg (Str)

/-- West, south, east and north limit: the list `[minlon, minlat, maxlon, maxlat]` (hydrofab_utils.py:247). -/
structure Box (K : Type) where
  w : K
  s : K
  e : K
  n : K
deriving DecidableEq

/-- One record of `catchment_data['features']` (hydrofab_utils.py:167-179, 216-224).  `id` is the key of version 1 and
`divide` the property of version 2; `rings` are the coordinates of a polygon. -/
structure Feature (K : Type) where
  id : Option Str
  divide : Option Str
  toid : Option Str
  area : Option K
  rings : List (List (K × K))
deriving DecidableEq

/-- One record of `nexus_data['features']` (hydrofab_utils.py:1073-1086). -/
structure Nexus (K : Type) where
  id : Str
  x : K
  y : K

/-- The two files as read by `read_catchment_data` (hydrofab_utils.py:162-182). -/
structure Files (K : Type) where
  crs : Str
  feats : List (Feature K)
  nexus : List (Nexus K)

/-- The attributes of the object that its methods read or that hide a method: minlon, minlat, maxlon, maxlat
(hydrofab_utils.py:256-259), the transformation from Albers set by `get_dem` (:796-797; first component is the latitude,
:312-325), and the attribute `ocean_outlet_count` (:1196). -/
structure St (K : Type) where
  geo : Option (Box K) := none
  inv : Option (K → K → K × K) := none
  ocean : Option ℕ := none

/-- `crs_type` (hydrofab_utils.py:206-212). -/
inductive Crs
  | geographic | albers | unknown
deriving DecidableEq

/-- hydrofab_utils.py:206-212. -/
def crsType (name : Str) : Crs :=
  if name.drop (name.length - 5) = "CRS84".toList then .geographic
  else if name.drop (name.length - 4) = "5070".toList then .albers
  else .unknown

/-- `next((item for item in df if key(item) == cat), False)` (hydrofab_utils.py:220, 224, 1063): `none` is False, an
error is a record without the key before one that matches. -/
def next? {A : Type} (key : A → Option Str) (cat : Str) : List A → Except String (Option A)
  | [] => .ok none
  | a :: as =>
    match key a with
    | none => .error "KeyError"
    | some k => if k = cat then .ok (some a) else next? key cat as

/-- Smallest element of `a :: l` (`np.min`). -/
def lo {K : Type} [LinearOrder K] (a : K) (l : List K) : K := l.foldl min a

/-- Largest element of `a :: l` (`np.max`). -/
def hi {K : Type} [LinearOrder K] (a : K) (l : List K) : K := l.foldl max a

/-- `xmin`, `ymin`, `xmax`, `ymax` of the first ring (hydrofab_utils.py:231-238); an error if there is no point. -/
def ringBox {K : Type} [LinearOrder K] (rings : List (List (K × K))) : Except String (Box K) :=
  match rings with
  | [] => .error "IndexError: list index out of range"
  | [] :: _ => .error "IndexError: too many indices for array"
  | (p :: ps) :: _ =>
    .ok ⟨lo p.1 (ps.map Prod.fst), lo p.2 (ps.map Prod.snd), hi p.1 (ps.map Prod.fst), hi p.2 (ps.map Prod.snd)⟩

/-- Test of the range of geographic coordinates (hydrofab_utils.py:249-250). -/
def inRange {K : Type} [Field K] [LinearOrder K] (b : Box K) : Bool :=
  decide (|b.w| < 180) && decide (|b.e| < 180) && decide (|b.s| < 90) && decide (|b.n| < 90)

/-- Box of the four transformed corners (hydrofab_utils.py:312-342). -/
def cornerBox {K : Type} [LinearOrder K] (inv : K → K → K × K) (b : Box K) : Box K :=
  let ul := inv b.w b.n
  let ll := inv b.w b.s
  let ur := inv b.e b.n
  let lr := inv b.e b.s
  ⟨lo ul.2 [ll.2, ur.2, lr.2], lo ul.1 [ll.1, ur.1, lr.1], hi ul.2 [ll.2, ur.2, lr.2], hi ul.1 [ll.1, ur.1, lr.1]⟩

/-- A box widened on all sides (hydrofab_utils.py:367-372). -/
def widen {K : Type} [Field K] (b : Box K) (d : K) : Box K := ⟨b.w - d, b.s - d, b.e + d, b.n + d⟩

/-- The option of a buffer (hydrofab_utils.py:366-372): it changes and returns the attributes of the object. -/
def buffer {K : Type} [Field K] [LinearOrder K] (st : St K) (sec : K) (bounds : Box K) :
    Except String (Option (Box K)) × St K :=
  if 0 < sec then
    match st.geo with
    | none => (.error "AttributeError: 'catchment' object has no attribute 'minlon'", st)
    | some g => (.ok (some (widen g (sec / 3600))), { st with geo := some (widen g (sec / 3600)) })
  else (.ok (some bounds), st)

/-- `get_bounding_box` from the record on (hydrofab_utils.py:231-396); `none` is the value -1. -/
def boxOf {K : Type} [Field K] [LinearOrder K] (st : St K) (crs : Crs) (rings : List (List (K × K))) (sec : K) :
    Except String (Option (Box K)) × St K :=
  match ringBox rings with
  | .error e => (.error e, st)
  | .ok b =>
    match crs with
    | .geographic => if inRange b then buffer { st with geo := some b } sec b else (.ok none, st)
    | .albers =>
      match st.inv with
      | none => (.error "AttributeError: 'catchment' object has no attribute 'albers'", st)
      | some inv => buffer st sec (cornerBox inv b)
    | .unknown => (.ok none, st)

/-- The record of a catchment: by `id`, and if that ends with an exception by `divide_id` (hydrofab_utils.py:217-224). -/
def lookup {K : Type} (fs : Files K) (cat : Str) : Except String (Option (Feature K)) :=
  match next? Feature.id cat fs.feats with
  | .ok r => .ok r
  | .error _ => next? Feature.divide cat fs.feats

/-- `get_bounding_box` (hydrofab_utils.py:184-396). -/
def boundingBox {K : Type} [Field K] [LinearOrder K] (fs : Files K) (st : St K) (cat : Str) (sec : K) :
    Except String (Option (Box K)) × St K :=
  match lookup fs cat with
  | .error e => (.error e, st)
  | .ok none => (.ok none, st)
  | .ok (some f) => boxOf st (crsType fs.crs) f.rings sec

/-- `get_area_sqkm` (hydrofab_utils.py:1160-1189); `-1` if the catchment is not found. -/
def area {K : Type} [Field K] (fs : Files K) (cat : Str) : Except String K :=
  match next? Feature.id cat fs.feats with
  | .error e => .error e
  | .ok none => .ok (-1)
  | .ok (some f) =>
    match f.area with
    | none => .error "KeyError"
    | some a => .ok a

/-- `get_outlet_coords` (hydrofab_utils.py:1052-1107); `none` is the value -1. -/
def outlet {K : Type} (fs : Files K) (cat : Str) : Except String (Option (K × K)) :=
  match next? Feature.id cat fs.feats with
  | .error e => .error e
  | .ok none => .ok none
  | .ok (some f) =>
    match f.toid with
    | none => .error "KeyError"
    | some nx =>
      match next? (fun r => some r.id) nx fs.nexus with
      | .error e => .error e
      | .ok none => .ok none
      | .ok (some r) => .ok (some (r.x, r.y))

/-- All values of a key, an error if one lacks it. -/
def keys {A B : Type} (key : A → Option B) : List A → Except String (List B)
  | [] => .ok []
  | a :: as =>
    match key a with
    | none => .error "KeyError"
    | some k =>
      match keys key as with
      | .error e => .error e
      | .ok ks => .ok (k :: ks)

/-- The areas of the headwater catchments (hydrofab_utils.py:1140-1144), each with its ID. -/
def areas {K : Type} [Field K] (fs : Files K) : List Str → Except String (List (K × Str))
  | [] => .ok []
  | c :: cs =>
    match area fs c with
    | .error e => .error e
    | .ok a =>
      match areas fs cs with
      | .error e => .error e
      | .ok l => .ok ((a, c) :: l)

/-- IDs not among the numbers of the outlets (hydrofab_utils.py:1118-1133). -/
def heads (ids toids : List Str) : List Str :=
  ((ids.map (List.drop 4)).filter (fun n => decide (n ∉ toids.map (List.drop 4)))).map ("cat-".toList ++ ·)

/-- `get_headwater_catchments` (hydrofab_utils.py:1110-1158).  Simplified: `np.argsort` may order equal areas in any way;
here they keep their order. -/
def headwaters {K : Type} [Field K] [LinearOrder K] (fs : Files K) : Except String (List Str) :=
  match keys Feature.toid fs.feats with
  | .error e => .error e
  | .ok toids =>
    match keys Feature.id fs.feats with
    | .error e => .error e
    | .ok ids =>
      match areas fs (heads ids toids) with
      | .error e => .error e
      | .ok l => .ok ((l.insertionSort (fun a b => b.1 ≤ a.1)).map Prod.snd)

/-- `ocean_outlet_count` (hydrofab_utils.py:1191-1201): the count is stored under the name of the method, and a stored
number cannot be called. -/
def oceanCount {K : Type} (fs : Files K) (st : St K) : Except String ℕ × St K :=
  match st.ocean with
  | some _ => (.error "TypeError: 'int' object is not callable", st)
  | none =>
    match keys Feature.toid fs.feats with
    | .error e => (.error e, st)
    | .ok toids =>
      let n := (toids.filter (fun t => decide (t = "nex-0".toList))).length
      (.ok n, { st with ocean := some n })

/-- The methods that change the object: `get_bounding_box`, `ocean_outlet_count`, and the part of `get_dem` that sets the
transformation and calls `get_bounding_box` (hydrofab_utils.py:796-823). -/
inductive Call (K : Type)
  | box (cat : Str) (sec : K)
  | ocean
  | dem (inv : K → K → K × K) (cat : Str)

/-- The object after one call. -/
def call {K : Type} [Field K] [LinearOrder K] (fs : Files K) (st : St K) : Call K → St K
  | .box cat sec => (boundingBox fs st cat sec).2
  | .ocean => (oceanCount fs st).2
  | .dem inv cat => (boundingBox fs { st with inv := some inv } cat 0).2

/-- The object after any calls on a new one. -/
def calls {K : Type} [Field K] [LinearOrder K] (fs : Files K) (cs : List (Call K)) : St K := cs.foldl (call fs) {}

/-- Coordinate system of a DEM. -/
inductive Sys
  | albers | geographic
deriving DecidableEq

/-- Bounds, their system, the cell size and the projection written to the file. -/
structure DemPlan (K : Type) where
  bounds : Box K
  boundsSys : Sys
  res : K × K
  written : Sys
deriving DecidableEq

/-- Clip options and resolution of `get_dem` (hydrofab_utils.py:597-599, 829-911, 1008-1012).  `fwd` is the
transformation to Albers coordinates, called with latitude first. -/
def demPlan {K : Type} [Field K] [LinearOrder K] [IsStrictOrderedRing K] [FloorRing K]
    (fwd : K → K → K × K) (g : Box K) (clipAlbers clipGeo : Bool) (resSec resM : K × K) : DemPlan K :=
  let geo := if !(clipAlbers || clipGeo) then true else clipGeo
  let ul := fwd g.n g.w
  let ll := fwd g.s g.w
  let ur := fwd g.n g.e
  let lr := fwd g.s g.e
  let ab : Box K := ⟨(⌊lo ul.1 [ll.1, ur.1, lr.1]⌋ : ℤ), (⌊lo ul.2 [ll.2, ur.2, lr.2]⌋ : ℤ),
    (⌈hi ul.1 [ll.1, ur.1, lr.1]⌉ : ℤ), (⌈hi ul.2 [ll.2, ur.2, lr.2]⌉ : ℤ)⟩
  { bounds := if geo then g else ab
    boundsSys := if geo then .geographic else .albers
    res := if geo then (resSec.1 / 3600, resSec.2 / 3600) else resM
    written := if clipAlbers then .albers else .geographic }

/-- Elevations, smallest and largest one (hydrofab_utils.py:966-989): centimetres to metres, the nodata value replaced;
`none` is the value -1.  Rounding to single precision is not modelled. -/
def demValues {K : Type} [Field K] [LinearOrder K] (nodata : ℤ) (z : K) (raw : List ℤ) : Option (List K × K × K) :=
  match (raw.filter (fun v => decide (v ≠ nodata))).map (fun v : ℤ => (v : K) / z) with
  | [] => none
  | a :: l => some (raw.map (fun v : ℤ => if v = nodata then -9999 else (v : K) / z), lo a l, hi a l)

end Catch
