import Verif.CfgModel
import Mathlib.Order.Defs.LinearOrder
import Mathlib.Algebra.Order.Field.Basic
import Mathlib.Order.Lattice

/-!
# Boxes and tables of the CAMELS basins

Model of topoflow/utils/ngen/camels_utils.py.  A feature of a shapefile is an ID and
the box of its polygon in geographic coordinates.  The coordinates are elements of an
ordered field; their text is not modelled.  A line of a text file is given with its
newline character.
-/

set_option autoImplicit false

namespace Camels

open Cfg (Str)

/-- Smallest and largest longitude and latitude.  camels_utils.py:101-104, 217-220. -/
structure Box (K : Type) where
  w : K
  e : K
  s : K
  n : K
deriving DecidableEq

/-- The ID of a basin, with a zero before seven characters.  camels_utils.py:122-124. -/
def gaugeId (hru : Str) : Str := if hru.length = 7 then '0' :: hru else hru

/-- `create_camels_bbox_file1`: the rows in the order of the features.  The number of rows is compared
after each row.  camels_utils.py:115-166. -/
def rows1 {K : Type} (nb : ℕ) : ℕ → List (Str × Box K) → List (Str × Box K)
  | _, [] => []
  | n, (g, b) :: r => (gaugeId g, b) :: (if nb ≤ n + 1 then [] else rows1 nb (n + 1) r)

/-- `min` and `max` of both boxes.  camels_utils.py:271-274. -/
def join {K : Type} [LinearOrder K] (a b : Box K) : Box K := ⟨min a.w b.w, max a.e b.e, min a.s b.s, max a.n b.n⟩

/-- The ID that stands for no basin.  camels_utils.py:216. -/
def zeros : Str := "00000000".toList

/-- The loop of `create_camels_bbox_file2`: a row is written when the next basin begins.
camels_utils.py:234-303. -/
def loop {K : Type} [LinearOrder K] (nb : ℕ) : List (Str × Box K) → Str → Box K → ℕ → List (Str × Box K)
  | [], _, _, _ => []
  | (g, b) :: r, last, box, n =>
    if g = last ∨ last = zeros then loop nb r g (join b box) n
    else (last, box) :: (if nb ≤ n + 1 then [] else loop nb r g b (n + 1))

/-- `create_camels_bbox_file2`: the rows before they are sorted.  camels_utils.py:185-303. -/
def rows2 {K : Type} [Field K] [LinearOrder K] (nb : ℕ) (feats : List (Str × Box K)) : List (Str × Box K) :=
  loop nb feats zeros ⟨180, -180, 90, -90⟩ 0

/-- `line.replace(';', delim)` with a tab.  camels_utils.py:512, 551, 555. -/
def tabs (l : Str) : Str := l.map (fun c => if c = ';' then '\t' else c)

/-- `head.replace('\n', '')`.  camels_utils.py:513-528. -/
def noNewline (l : Str) : Str := l.filter (· ≠ '\n')

/-- `readline`: the next line, empty at the end of the file.  camels_utils.py:548-562. -/
def next (ls : List Str) : Str := ls.headD []

/-- The loop of `create_tsv`.  camels_utils.py:547-564. -/
def tsvRows : List Str → List Str → List Str → List Str → List Str
  | [], _, _, _ => []
  | a :: as, bs, cs, ds =>
    ((tabs a).dropLast ++ '\t' :: (((tabs (next bs)).drop 9).dropLast ++ '\t' ::
      (((tabs (next cs)).drop 9).dropLast ++ '\t' :: (((tabs (next ds)).drop 9).dropLast ++ ['\n'])))) ::
    tsvRows as bs.tail cs.tail ds.tail

/-- `create_tsv` for the files of names, boxes, topography and climate, each with a header line.
camels_utils.py:474-564. -/
def createTsv (as bs cs ds : List Str) : List Str :=
  (noNewline (tabs (next as)) ++ '\t' :: (noNewline ((tabs (next bs)).drop 9) ++ '\t' ::
    (noNewline ((tabs (next cs)).drop 9) ++ '\t' :: (noNewline ((tabs (next ds)).drop 9) ++ ['\n'])))) ::
  tsvRows as.tail bs.tail cs.tail ds.tail

end Camels
