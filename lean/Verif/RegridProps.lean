import Verif.RegridModel
import Mathlib.Tactic.Linarith
import Mathlib.Tactic.Ring
import Mathlib.Tactic.NormNum
import Mathlib.Tactic.FieldSimp
import Mathlib.Tactic.Tauto
import Mathlib.Algebra.Order.Ring.Rat

/-!
# C117-C121: rainfall and weather grids prepared for a run
-/

set_option autoImplicit false
set_option linter.unusedSectionVars false

namespace Regrid

variable {K : Type*} [Field K] [LinearOrder K]

/-! ## Specification -/

/-- The point `(x, y)` lies in the (closed) box. -/
def Box.Has (b : Box K) (x y : K) : Prop :=
  b.xmin ≤ x ∧ x ≤ b.xmax ∧ b.ymin ≤ y ∧ y ≤ b.ymax

/-- A box with its corners in the usual order. -/
def Box.Proper (b : Box K) : Prop := b.xmin ≤ b.xmax ∧ b.ymin ≤ b.ymax

/-- The point `(x, y)` lies in the closed rectangle covered by the cells of a raster: it is
`(ulx + s xres, uly + t yres)` for some `0 ≤ s ≤ ncols`, `0 ≤ t ≤ nrows`. -/
def Raster.Covers (r : Raster K) (x y : K) : Prop :=
  ∃ s t : K, 0 ≤ s ∧ s ≤ r.ncols ∧ 0 ≤ t ∧ t ≤ r.nrows ∧
    x = r.ulx + s * r.xres ∧ y = r.uly + t * r.yres

/-- Where GDAL places the centre of the cell in row `i` and column `j` (no skew). -/
def Raster.centre (r : Raster K) (i j : ℕ) : K × K :=
  (r.ulx + (j + 1 / 2) * r.xres, r.uly + (i + 1 / 2) * r.yres)

/-- The physical meaning of the conversions: mass flux in kg m-2 s-1 to mm/h, kelvin to Celsius,
percent to fraction, pascal to millibar; anything else is kept. -/
inductive Quantity | rain | temperature | albedo | pressure | other
deriving DecidableEq

/-- Which quantity a GLDAS variable holds, among the ones TopoFlow converts. -/
def quantityOf (var : String) : Quantity :=
  if var ∈ ["Rainf_f_tavg", "Rainf_tavg"] then .rain
  else if var ∈ ["Tair_f_inst", "AvgSurfT_tavg", "AvgSurfT_inst", "SnowT_tavg"] then .temperature
  else if var = "Albedo_inst" then .albedo
  else if var = "Psurf_f_inst" then .pressure
  else .other

/-- The value in the unit TopoFlow expects. -/
def inUnits : Quantity → K → K
  | .rain, v => 3600 * v
  | .temperature, v => v - 27315 / 100
  | .albedo, v => v / 100
  | .pressure, v => v / 100
  | .other, v => v

/-- What should be stored for a value of the file: the nodata value stays, anything else is
converted. -/
def wanted (var : String) (nodata : Option K) (v : K) : K :=
  if nodata = some v then v else inUnits (quantityOf var) v

/-! ## C118: which files overlap the DEM -/

/-- For boxes with their corners in the usual order, `bounds_disjoint` is true exactly when the boxes
have no common point. -/
theorem C118_disjoint_iff (b1 b2 : Box K) (h1 : b1.Proper) (h2 : b2.Proper) :
    boundsDisjoint b1 b2 = true ↔ ¬ ∃ x y, b1.Has x y ∧ b2.Has x y := by
  unfold boundsDisjoint Box.Has
  obtain ⟨hx1, hy1⟩ := h1
  obtain ⟨hx2, hy2⟩ := h2
  simp only [Bool.or_eq_true, decide_eq_true_eq]
  constructor
  · rintro h ⟨x, y, ⟨a1, a2, a3, a4⟩, c1, c2, c3, c4⟩
    rcases h with ((h | h) | h) | h
    · exact absurd (lt_of_lt_of_le h (le_trans c1 a2)) (lt_irrefl _)
    · exact absurd (lt_of_lt_of_le h (le_trans a1 c2)) (lt_irrefl _)
    · exact absurd (lt_of_lt_of_le h (le_trans a3 c4)) (lt_irrefl _)
    · exact absurd (lt_of_lt_of_le h (le_trans c3 a4)) (lt_irrefl _)
  · intro h
    by_contra hn
    push Not at hn
    obtain ⟨⟨⟨n1, n2⟩, n3⟩, n4⟩ := hn
    exact h ⟨max b1.xmin b2.xmin, max b1.ymin b2.ymin,
      ⟨le_max_left _ _, max_le hx1 n1, le_max_left _ _, max_le hy1 n4⟩,
      le_max_right _ _, max_le n2 hx2, le_max_right _ _, max_le n3 hy2⟩

/-- The test does not depend on which box is named first. -/
theorem C118_symmetric (b1 b2 : Box K) : boundsDisjoint b1 b2 = boundsDisjoint b2 b1 := by
  unfold boundsDisjoint
  rw [Bool.eq_iff_iff]
  simp only [Bool.or_eq_true, decide_eq_true_eq, gt_iff_lt]
  tauto

variable [IsStrictOrderedRing K]

/-- For a north-up raster (`xres > 0`, `yres < 0`) the reported bounds are in order and hold exactly
the points covered by its cells. -/
theorem C118_bounds (r : Raster K) (hx : 0 < r.xres) (hy : r.yres < 0) :
    (bounds r).Proper ∧ ∀ x y, (bounds r).Has x y ↔ r.Covers x y := by
  have hc : (0 : K) ≤ r.ncols := Nat.cast_nonneg _
  have hr : (0 : K) ≤ r.nrows := Nat.cast_nonneg _
  refine ⟨⟨?_, ?_⟩, fun x y => ⟨?_, ?_⟩⟩
  · simp only [bounds]; nlinarith
  · simp only [bounds]; nlinarith
  · rintro ⟨a1, a2, a3, a4⟩
    simp only [bounds] at a1 a2 a3 a4
    have hne : r.xres ≠ 0 := ne_of_gt hx
    have hne' : r.yres ≠ 0 := ne_of_lt hy
    refine ⟨(x - r.ulx) / r.xres, (y - r.uly) / r.yres, ?_, ?_, ?_, ?_, ?_, ?_⟩
    · exact div_nonneg (by linarith) hx.le
    · rw [div_le_iff₀ hx]; linarith
    · exact div_nonneg_of_nonpos (by linarith) hy.le
    · rw [div_le_iff_of_neg hy]; linarith
    · field_simp; ring
    · field_simp; ring
  · rintro ⟨s, t, h1, h2, h3, h4, rfl, rfl⟩
    simp only [Box.Has, bounds]
    refine ⟨?_, ?_, ?_, ?_⟩ <;> nlinarith

/-- So for north-up rasters a file is called disjoint exactly when no point of the DEM's box is covered
by it. -/
theorem C118_north_up_partial (r : Raster K) (hx : 0 < r.xres) (hy : r.yres < 0) (dem : Box K)
    (hd : dem.Proper) :
    boundsDisjoint (bounds r) dem = true ↔ ¬ ∃ x y, r.Covers x y ∧ dem.Has x y := by
  obtain ⟨hp, hh⟩ := C118_bounds r hx hy
  rw [C118_disjoint_iff _ _ hp hd]
  simp only [hh]

/-- **The overlap test fails for south-up rasters** (`yres > 0`, rows from south to north): every DEM
whose box lies inside the raster's latitude range without filling it is reported as disjoint, although
the raster covers all of it. -/
theorem C118_south_up_violated (r : Raster K) (hx : 0 < r.xres) (hy : 0 < r.yres) (dem : Box K)
    (hin : (bounds r).xmin ≤ dem.xmin ∧ dem.xmax ≤ (bounds r).xmax ∧
      r.uly ≤ dem.ymin ∧ dem.ymax < r.uly + r.nrows * r.yres) :
    boundsDisjoint (bounds r) dem = true ∧ ∀ x y, dem.Has x y → r.Covers x y := by
  obtain ⟨i1, i2, i3, i4⟩ := hin
  constructor
  · unfold boundsDisjoint
    simp only [Bool.or_eq_true, decide_eq_true_eq]
    exact Or.inl (Or.inr (by simpa [bounds] using i4))
  · rintro x y ⟨a1, a2, a3, a4⟩
    simp only [bounds] at i1 i2
    have hne : r.xres ≠ 0 := ne_of_gt hx
    have hne' : r.yres ≠ 0 := ne_of_gt hy
    refine ⟨(x - r.ulx) / r.xres, (y - r.uly) / r.yres, ?_, ?_, ?_, ?_, ?_, ?_⟩
    · exact div_nonneg (by linarith) hx.le
    · rw [div_le_iff₀ hx]; linarith
    · exact div_nonneg (by linarith) hy.le
    · rw [div_le_iff₀ hy]; linarith
    · field_simp; ring
    · field_simp; ring

/-- A raster of 3 by 2 cells from 0 to 3 east and -2 to 0 north. -/
def small (yres : ℚ) : Raster ℚ where
  ncols := 3
  nrows := 2
  ulx := 0
  xres := 1
  xskew := 0
  uly := 0
  yskew := 0
  yres := yres
  nodata := some (-9999)
  val := fun i j => 10 * i + j

example : boundsDisjoint (bounds (small (-1))) ⟨1, -1, 2, -1 / 2⟩ = false ∧
    boundsDisjoint (bounds (small (-1))) ⟨4, -1, 5, -1 / 2⟩ = true ∧
    boundsDisjoint (bounds (small 1)) ⟨1, 1 / 2, 2, 1⟩ = true := by decide +kernel

/-! ## C119: repaired GPM rasters -/

/-- **A repaired GPM raster keeps values in place, if the rows of the file run the other way than GDAL
says.**  In a GPM file longitude is the row coordinate and latitude the column coordinate.  If row `r`
of the file holds the longitude that GDAL gives to row `nrows - 1 - r`, then after the repair each
value is at its own longitude and latitude, east and north in the usual order. -/
theorem C119_reversed_rows_partial (r : Raster K) (i j : ℕ) (hi : i < r.ncols) (hj : j < r.nrows) :
    (fixGpm r).val i j = r.val j (r.ncols - 1 - i) ∧
    (fixGpm r).centre i j =
      ((r.centre (r.nrows - 1 - j) (r.ncols - 1 - i)).2,
       (r.centre (r.nrows - 1 - j) (r.ncols - 1 - i)).1) := by
  refine ⟨rfl, ?_⟩
  have e1 : ((r.ncols - 1 - i : ℕ) : K) = r.ncols - 1 - i := by
    rw [Nat.sub_sub, Nat.cast_sub (by omega)]; push_cast; ring
  have e2 : ((r.nrows - 1 - j : ℕ) : K) = r.nrows - 1 - j := by
    rw [Nat.sub_sub, Nat.cast_sub (by omega)]; push_cast; ring
  unfold Raster.centre
  simp only [fixGpm, bounds, e1, e2]
  refine Prod.ext ?_ ?_
  · simp only []; ring
  · simp only []; ring

/-- **If the rows of the file are where GDAL says they are, the repair mirrors the map**: latitudes are
kept, but the value that belongs to the longitude of row `j` is put at the longitude of row
`nrows - 1 - j`. -/
theorem C119_mirrored_violated (r : Raster K) (hy : r.yres ≠ 0) (i j : ℕ) (hi : i < r.ncols)
    (hj : j < r.nrows) :
    let here := (fixGpm r).centre i j
    let there := r.centre j (r.ncols - 1 - i)
    here.2 = there.1 ∧ (here.1 = there.2 ↔ 2 * j + 1 = r.nrows) := by
  obtain ⟨-, h⟩ := C119_reversed_rows_partial r i j hi hj
  intro here there
  have e2 : ((r.nrows - 1 - j : ℕ) : K) = r.nrows - 1 - j := by
    rw [Nat.sub_sub, Nat.cast_sub (by omega)]; push_cast; ring
  simp only [here, there, h]
  refine ⟨rfl, ?_⟩
  unfold Raster.centre
  simp only [e2]
  constructor
  · intro hh
    have : ((r.nrows : K) - 1 - j - j) * r.yres = 0 := by linarith
    rcases mul_eq_zero.mp this with h0 | h0
    · have : ((2 * j + 1 : ℕ) : K) = (r.nrows : K) := by push_cast; linarith
      exact_mod_cast this
    · exact absurd h0 hy
  · intro hh
    have : (r.nrows : K) = 2 * j + 1 := by rw [← hh]; push_cast; ring
    rw [this]; ring

/-- The repaired raster has its bounds the other way round: its west-east range is the south-north
range of the original, and conversely; no value is lost or repeated. -/
theorem C119_bounds (r : Raster K) :
    (bounds (fixGpm r)).xmin = (bounds r).ymin ∧ (bounds (fixGpm r)).xmax = (bounds r).ymax ∧
    (bounds (fixGpm r)).ymin = (bounds r).xmin ∧ (bounds (fixGpm r)).ymax = (bounds r).xmax ∧
    ∀ i j, i < r.nrows → j < r.ncols → ∃! p : ℕ × ℕ, p.1 < (fixGpm r).nrows ∧
      p.2 < (fixGpm r).ncols ∧ p.2 = i ∧ r.ncols - 1 - p.1 = j := by
  refine ⟨by simp [bounds, fixGpm], by simp only [bounds, fixGpm]; ring,
    by simp only [bounds, fixGpm]; ring, by simp [bounds, fixGpm], ?_⟩
  intro i j hi hj
  refine ⟨(r.ncols - 1 - j, i), ⟨?_, ?_, rfl, ?_⟩, ?_⟩
  · simp only [fixGpm]; omega
  · simpa only [fixGpm] using hi
  · simp only []; omega
  · rintro ⟨a, b⟩ ⟨h1, h2, h3, h4⟩
    simp only [fixGpm] at h1 h2 h3 h4
    refine Prod.ext ?_ h3
    simp only []
    omega

example : (fixGpm (small (-1))).val 0 1 = 12 ∧ (fixGpm (small (-1))).centre 0 1 = (-1 / 2, 5 / 2) := by
  decide +kernel

/-! ## C117: one frame per file -/

/-- The raster the loop looks at. -/
def opened (j : Job K) (file : Raster K) : Raster K := if j.gpm then fixGpm file else file

/-- Does a file miss the DEM? -/
def Misses (j : Job K) (file : Raster K) : Prop :=
  boundsDisjoint (bounds (opened j file)) j.dem = true

instance (j : Job K) (file : Raster K) : Decidable (Misses j file) := by
  unfold Misses; infer_instance

/-- A frame made from the data of a file: clipped to the DEM, values in the wanted units. -/
def frameOf (j : Job K) (warp : Raster K → List K) (file : Raster K) : List K :=
  if j.gpm then warp (opened j file) else (warp (opened j file)).map (wanted j.var file.nodata)

/-- A frame made without the data of the file: zeros, passed through the same conversion. -/
def blankFrame (j : Job K) (file : Raster K) : List K :=
  List.replicate j.nCells (if j.gpm then 0 else wanted j.var file.nodata 0)

omit [IsStrictOrderedRing K] in
/-- **Values are converted to the wanted units, and the nodata value is kept** (C120). -/
theorem C120_convert (var : String) (nodata : Option K) (v : K) :
    convert var nodata v = wanted var nodata v := by
  unfold convert wanted
  split_ifs with h0 h1 h2 h3 h4
  · rfl
  · have : quantityOf var = .rain := by
      rcases h1 with rfl | rfl <;> decide
    rw [this, inUnits, mul_comm]
  · have : quantityOf var = .temperature := by
      rcases h2 with rfl | rfl | rfl | rfl <;> decide
    rw [this, inUnits]
  · have : quantityOf var = .albedo := by subst h3; decide
    rw [this, inUnits]
  · have : quantityOf var = .pressure := by subst h4; decide
    rw [this, inUnits]
  · have : quantityOf var = .other := by
      unfold quantityOf
      push Not at h1 h2
      rw [if_neg (by simp [h1]), if_neg (by simp [h2]), if_neg h3, if_neg h4]
    rw [this, inUnits]

omit [IsStrictOrderedRing K] in
theorem ncStep_eq (j : Job K) (warp : Raster K → List K) (s : Acc K) (f : Raster K) :
    ncStep j warp s f =
      let g := if s.badFile = true ∨ Misses j f then blankFrame j f else frameOf j warp f
      { frames := s.frames ++ [g]
        count := s.count + 1
        vmax := g.foldl max s.vmax
        vmin := g.foldl min s.vmin
        badCount := s.badCount + if Misses j f then 1 else 0
        badFile := s.badFile || decide (Misses j f) } := by
  have hconv : (convert j.var f.nodata : K → K) = wanted j.var f.nodata :=
    funext (C120_convert _ _)
  unfold ncStep
  have hg : (if j.gpm = true then
      (if (!(if boundsDisjoint (bounds (opened j f)) j.dem = true then true else s.badFile)) = true
        then warp (opened j f) else List.replicate j.nCells 0)
      else List.map (convert j.var (opened j f).nodata)
        (if (!(if boundsDisjoint (bounds (opened j f)) j.dem = true then true else s.badFile)) = true
          then warp (opened j f) else List.replicate j.nCells 0)) =
      if s.badFile = true ∨ Misses j f then blankFrame j f else frameOf j warp f := by
    unfold Misses blankFrame frameOf
    by_cases hgpm : j.gpm = true
    · by_cases hm : boundsDisjoint (bounds (opened j f)) j.dem = true <;>
        cases hb : s.badFile <;> simp [hm, hgpm]
    · have ho : opened j f = f := by unfold opened; rw [if_neg hgpm]
      by_cases hm : boundsDisjoint (bounds (opened j f)) j.dem = true <;>
        cases hb : s.badFile <;> simp [hgpm, hconv, ho] <;> simp_all
  unfold opened at hg
  simp only [hg]
  congr 1
  · unfold Misses opened
    split_ifs <;> simp_all
  · unfold Misses opened
    split_ifs <;> simp_all

/-- The frames written for the files `l`, when `b` says whether a disjoint file came before. -/
theorem frames_foldl (j : Job K) (warp : Raster K → List K) (l : List (Raster K)) (s : Acc K) :
    let e := l.foldl (ncStep j warp) s
    e.frames.length = s.frames.length + l.length ∧
    e.count = s.count + l.length ∧
    e.badCount = s.badCount + l.countP (fun f => decide (Misses j f)) ∧
    (e.badFile = true ↔ s.badFile = true ∨ ∃ f ∈ l, Misses j f) ∧
    (∀ k, k < s.frames.length → e.frames[k]? = s.frames[k]?) ∧
    ∀ k f, l[k]? = some f →
      ((s.badFile = true ∨ ∃ i g, i ≤ k ∧ l[i]? = some g ∧ Misses j g) →
        e.frames[s.frames.length + k]? = some (blankFrame j f)) ∧
      (¬ (s.badFile = true ∨ ∃ i g, i ≤ k ∧ l[i]? = some g ∧ Misses j g) →
        e.frames[s.frames.length + k]? = some (frameOf j warp f)) := by
  induction l generalizing s with
  | nil => simp
  | cons f l ih =>
    intro e
    have he : e = l.foldl (ncStep j warp) (ncStep j warp s f) := rfl
    have hs := ncStep_eq j warp s f
    obtain ⟨h1, h2, h3, h4, h5, h6⟩ := ih (ncStep j warp s f)
    rw [← he] at h1 h2 h3 h4 h5 h6
    have hl : (ncStep j warp s f).frames.length = s.frames.length + 1 := by rw [hs]; simp
    have hb : (ncStep j warp s f).badFile = true ↔ (s.badFile = true ∨ Misses j f) := by
      rw [hs]; simp
    refine ⟨?_, ?_, ?_, ?_, ?_, ?_⟩
    · rw [h1, hl]; simp; omega
    · rw [h2, hs]; simp; omega
    · rw [h3, hs, List.countP_cons]; simp only [decide_eq_true_eq]; omega
    · rw [h4, hb]; simp [or_assoc]
    · intro k hk
      rw [h5 k (by omega), hs]
      simp [List.getElem?_append_left hk]
    · intro k x hx
      cases k with
      | zero =>
        simp only [List.getElem?_cons_zero, Option.some.injEq] at hx
        subst hx
        have hcond : (s.badFile = true ∨ ∃ i g, i ≤ 0 ∧ (f :: l)[i]? = some g ∧ Misses j g) ↔
            (s.badFile = true ∨ Misses j f) := by
          constructor
          · rintro (h | ⟨i, g, hi, hg, hm⟩)
            · exact Or.inl h
            · obtain rfl : i = 0 := by omega
              simp only [List.getElem?_cons_zero, Option.some.injEq] at hg
              exact Or.inr (hg ▸ hm)
          · rintro (h | h)
            · exact Or.inl h
            · exact Or.inr ⟨0, f, le_refl _, by simp, h⟩
        rw [hcond, Nat.add_zero, h5 _ (by omega), hs]
        constructor
        · intro h; simp [h]
        · intro h; simp [h]
      | succ k =>
        simp only [List.getElem?_cons_succ] at hx
        have hcond : (s.badFile = true ∨
            ∃ i g, i ≤ k + 1 ∧ (f :: l)[i]? = some g ∧ Misses j g) ↔
            ((ncStep j warp s f).badFile = true ∨ ∃ i g, i ≤ k ∧ l[i]? = some g ∧ Misses j g) := by
          rw [hb]
          constructor
          · rintro (h | ⟨i, g, hi, hg, hm⟩)
            · exact Or.inl (Or.inl h)
            · cases i with
              | zero =>
                simp only [List.getElem?_cons_zero, Option.some.injEq] at hg
                exact Or.inl (Or.inr (hg ▸ hm))
              | succ i =>
                simp only [List.getElem?_cons_succ] at hg
                exact Or.inr ⟨i, g, by omega, hg, hm⟩
          · rintro ((h | h) | ⟨i, g, hi, hg, hm⟩)
            · exact Or.inl h
            · exact Or.inr ⟨0, f, by omega, by simp, h⟩
            · exact Or.inr ⟨i + 1, g, by omega, by simpa using hg, hm⟩
        have := h6 k x hx
        rw [hl, show s.frames.length + 1 + k = s.frames.length + (k + 1) by omega] at this
        rw [hcond]
        exact this

/-- The files of the directory in the order of their names. -/
def byName (dir : List (String × Raster K)) : List (Raster K) :=
  (dir.insertionSort (fun a b => a.1 ≤ b.1)).map Prod.snd

omit [Field K] [LinearOrder K] [IsStrictOrderedRing K] in
theorem mem_take_iff {α : Type*} (l : List α) (n : ℕ) (x : α) :
    x ∈ l.take n ↔ ∃ i, i < n ∧ l[i]? = some x := by
  rw [List.mem_iff_getElem?]
  constructor
  · rintro ⟨i, hi⟩
    rw [List.getElem?_take] at hi
    split_ifs at hi with h
    exact ⟨i, h, hi⟩
  · rintro ⟨i, h, hi⟩
    exact ⟨i, by rw [List.getElem?_take, if_pos h, hi]⟩

/-- **One frame for each file, in the order of the names; the number of frames and the number of files
that miss the DEM are reported as they are.  Frame `k` has the data of file `k` exactly when none of
the files `0 … k` misses the DEM; otherwise it is blank.** -/
theorem C117_frames (j : Job K) (warp : Raster K → List K) (dir : List (String × Raster K)) :
    let e := createFromNc j warp dir
    e.frames.length = dir.length ∧ e.count = dir.length ∧
    e.badCount = dir.countP (fun p => decide (Misses j p.2)) ∧
    ∀ k f, (byName dir)[k]? = some f →
      ((∃ g ∈ (byName dir).take (k + 1), Misses j g) → e.frames[k]? = some (blankFrame j f)) ∧
      ((∀ g ∈ (byName dir).take (k + 1), ¬ Misses j g) →
        e.frames[k]? = some (frameOf j warp f)) := by
  intro e
  obtain ⟨h1, h2, h3, -, -, h6⟩ := frames_foldl j warp (byName dir) acc0
  have hlen : (byName dir).length = dir.length := by
    unfold byName; simp [List.length_insertionSort]
  have hz : (acc0 : Acc K).frames.length = 0 := rfl
  refine ⟨?_, ?_, ?_, ?_⟩
  · rw [hz, hlen, Nat.zero_add] at h1; exact h1
  · rw [hlen, show (acc0 : Acc K).count = 0 from rfl, Nat.zero_add] at h2; exact h2
  · have hp : (byName dir).countP (fun f => decide (Misses j f)) =
        dir.countP (fun p => decide (Misses j p.2)) := by
      unfold byName
      rw [List.countP_map]
      exact (List.perm_insertionSort _ dir).countP_eq _
    rw [hp, show (acc0 : Acc K).badCount = 0 from rfl, Nat.zero_add] at h3
    exact h3
  · intro k f hf
    obtain ⟨ha, hb⟩ := h6 k f hf
    rw [hz, Nat.zero_add] at ha hb
    constructor
    · rintro ⟨g, hg, hm⟩
      obtain ⟨i, hi, hg⟩ := (mem_take_iff _ _ _).mp hg
      exact ha (Or.inr ⟨i, g, by omega, hg, hm⟩)
    · intro hc
      refine hb ?_
      rintro (h | ⟨i, g, hi, hg, hm⟩)
      · simp [acc0] at h
      · exact hc g ((mem_take_iff _ _ _).mpr ⟨i, by omega, hg⟩) hm

/-- If every file overlaps the DEM, every frame has the data of its file. -/
theorem C117_all_overlap_partial (j : Job K) (warp : Raster K → List K)
    (dir : List (String × Raster K)) (h : ∀ p ∈ dir, ¬ Misses j p.2) :
    (createFromNc j warp dir).frames = (byName dir).map (frameOf j warp) := by
  obtain ⟨h1, -, -, h4⟩ := C117_frames j warp dir
  have hlen : (byName dir).length = dir.length := by
    unfold byName; simp [List.length_insertionSort]
  have hm : ∀ g ∈ byName dir, ¬ Misses j g := by
    intro g hg
    unfold byName at hg
    rw [List.mem_map] at hg
    obtain ⟨p, hp, rfl⟩ := hg
    exact h p ((List.perm_insertionSort _ dir).mem_iff.mp hp)
  refine List.ext_getElem? fun k => ?_
  rcases hk : (byName dir)[k]? with _ | f
  · rw [List.getElem?_map, hk, Option.map_none]
    rw [List.getElem?_eq_none_iff] at hk ⊢
    omega
  · rw [(h4 k f hk).2 fun g hg => hm g (List.mem_of_mem_take hg), List.getElem?_map, hk,
      Option.map_some]

/-- **One file outside the DEM blanks every later frame**, whatever the later files hold. -/
theorem C117_sticky_violated (j : Job K) (warp : Raster K → List K) (dir : List (String × Raster K))
    (i : ℕ) (g : Raster K) (hg : (byName dir)[i]? = some g) (hm : Misses j g)
    (k : ℕ) (hk : i ≤ k) (f : Raster K) (hf : (byName dir)[k]? = some f) :
    (createFromNc j warp dir).frames[k]? = some (blankFrame j f) := by
  obtain ⟨-, -, -, h4⟩ := C117_frames j warp dir
  exact (h4 k f hf).1 ⟨g, (mem_take_iff _ _ _).mpr ⟨i, by omega, hg⟩, hm⟩

omit [Field K] [LinearOrder K] [IsStrictOrderedRing K] in
theorem sorted_byName (d : List (String × Raster K)) :
    (d.insertionSort (fun a b => a.1 ≤ b.1)).Pairwise (fun a b => a.1 ≤ b.1) := by
  have : Std.Total (fun a b : String × Raster K => a.1 ≤ b.1) := ⟨fun a b => le_total _ _⟩
  have : IsTrans (String × Raster K) (fun a b => a.1 ≤ b.1) := ⟨fun a b c => le_trans⟩
  exact List.pairwise_insertionSort _ d

/-- The order in which the operating system lists the directory does not matter. -/
theorem C117_listing_order (j : Job K) (warp : Raster K → List K) (d1 d2 : List (String × Raster K))
    (hp : d1.Perm d2) (hn : (d1.map Prod.fst).Nodup) :
    createFromNc j warp d1 = createFromNc j warp d2 := by
  have key : d1.insertionSort (fun a b => a.1 ≤ b.1) =
      d2.insertionSort (fun a b => a.1 ≤ b.1) := by
    have p1 := List.perm_insertionSort (fun a b : String × Raster K => a.1 ≤ b.1) d1
    have p2 := List.perm_insertionSort (fun a b : String × Raster K => a.1 ≤ b.1) d2
    refine (p1.trans (hp.trans p2.symm)).eq_of_pairwise ?_ (sorted_byName d1) (sorted_byName d2)
    intro a b ha hb hab hba
    have hfst : a.1 = b.1 := le_antisymm hab hba
    have ha' : a ∈ d1 := p1.mem_iff.mp ha
    have hb' : b ∈ d1 := hp.mem_iff.mpr (p2.mem_iff.mp hb)
    exact List.inj_on_of_nodup_map hn ha' hb' hfst
  unfold createFromNc
  rw [key]

/-- The files are used in ascending order of their names. -/
theorem C117_sorted (dir : List (String × Raster K)) :
    ∃ l : List (String × Raster K), l.Perm dir ∧ l.Pairwise (fun a b => a.1 ≤ b.1) ∧
      byName dir = l.map Prod.snd := by
  exact ⟨dir.insertionSort (fun a b => a.1 ≤ b.1), List.perm_insertionSort _ _, sorted_byName dir, rfl⟩

/-! ### The reported extremes -/

omit [Field K] [IsStrictOrderedRing K] in
theorem foldl_max_iff (l : List K) (a c : K) : l.foldl max a ≤ c ↔ a ≤ c ∧ ∀ x ∈ l, x ≤ c := by
  induction l generalizing a with
  | nil => simp
  | cons b l ih => simp [ih, and_assoc]

omit [Field K] [IsStrictOrderedRing K] in
theorem foldl_min_iff (l : List K) (a c : K) : c ≤ l.foldl min a ↔ c ≤ a ∧ ∀ x ∈ l, c ≤ x := by
  induction l generalizing a with
  | nil => simp
  | cons b l ih => simp [ih, and_assoc]

omit [IsStrictOrderedRing K] in
theorem extremes_foldl (j : Job K) (warp : Raster K → List K) (l : List (Raster K)) (s : Acc K)
    (c : K) :
    ((l.foldl (ncStep j warp) s).vmax ≤ c ↔ s.vmax ≤ c ∧
      ∀ g ∈ (l.foldl (ncStep j warp) s).frames.drop s.frames.length, ∀ x ∈ g, x ≤ c) ∧
    (c ≤ (l.foldl (ncStep j warp) s).vmin ↔ c ≤ s.vmin ∧
      ∀ g ∈ (l.foldl (ncStep j warp) s).frames.drop s.frames.length, ∀ x ∈ g, c ≤ x) ∧
    ∃ t, (l.foldl (ncStep j warp) s).frames = s.frames ++ t := by
  induction l generalizing s with
  | nil => simp
  | cons f l ih =>
    obtain ⟨h1, h2, t, h3⟩ := ih (ncStep j warp s f)
    have hs := ncStep_eq j warp s f
    set g := (if s.badFile = true ∨ Misses j f then blankFrame j f else frameOf j warp f) with hg
    simp only at hs
    have hfr : (ncStep j warp s f).frames = s.frames ++ [g] := by rw [hs]
    have hmx : (ncStep j warp s f).vmax = g.foldl max s.vmax := by rw [hs]
    have hmn : (ncStep j warp s f).vmin = g.foldl min s.vmin := by rw [hs]
    rw [hfr] at h1 h2 h3
    rw [hmx, foldl_max_iff] at h1
    rw [hmn, foldl_min_iff] at h2
    rw [List.foldl_cons]
    have d1 : (l.foldl (ncStep j warp) (ncStep j warp s f)).frames.drop s.frames.length = g :: t := by
      rw [h3, List.append_assoc, List.drop_left]; rfl
    have d2 : (l.foldl (ncStep j warp) (ncStep j warp s f)).frames.drop (s.frames ++ [g]).length = t := by
      rw [h3, List.drop_left]
    rw [d2] at h1 h2
    rw [d1, h1, h2]
    refine ⟨?_, ?_, g :: t, by rw [h3]; simp⟩
    · simp [and_assoc]
    · simp [and_assoc]

/-- The reported maximum is the largest value written (for values above `-10^8`), and the reported
minimum is the smallest one (for values below `10^8`). -/
theorem C117_extremes (j : Job K) (warp : Raster K → List K) (dir : List (String × Raster K)) (c : K) :
    let e := createFromNc j warp dir
    (-(10 ^ 8) ≤ c → (e.vmax ≤ c ↔ ∀ g ∈ e.frames, ∀ x ∈ g, x ≤ c)) ∧
    (c ≤ 10 ^ 8 → (c ≤ e.vmin ↔ ∀ g ∈ e.frames, ∀ x ∈ g, c ≤ x)) := by
  obtain ⟨h1, h2, -⟩ := extremes_foldl j warp (byName dir) acc0 c
  have hz : (acc0 : Acc K).frames.length = 0 := rfl
  rw [hz, List.drop_zero] at h1 h2
  intro e
  refine ⟨fun hc => ?_, fun hc => ?_⟩
  · exact h1.trans ⟨fun h => h.2, fun h => ⟨hc, h⟩⟩
  · exact h2.trans ⟨fun h => h.2, fun h => ⟨hc, h⟩⟩

/-! ## C120: units -/

/-- Two different values never become equal by a conversion, so no datum is lost. -/
theorem C120_injective (q : Quantity) (v w : K) : inUnits q v = inUnits q w ↔ v = w := by
  cases q
  · constructor
    · intro h; simp only [inUnits] at h
      exact mul_left_cancel₀ (by norm_num : (3600 : K) ≠ 0) h
    · rintro rfl; rfl
  · simp [inUnits]
  · simp [inUnits]
  · simp [inUnits]
  · simp [inUnits]

/-- **A blank frame of a temperature variable is not "no data" but -273.15 degrees everywhere**, for
every nodata value other than zero. -/
theorem C120_blank_temperature_violated (j : Job K) (hg : j.gpm = false)
    (hv : quantityOf j.var = .temperature) (file : Raster K) (hn : file.nodata ≠ some 0) :
    blankFrame j file = List.replicate j.nCells (-(27315 / 100)) := by
  unfold blankFrame wanted
  rw [hg, if_neg (by simp), if_neg hn, hv]
  simp [inUnits]

/-- **The unit reported for surface pressure is not the unit of the values**: they are divided by 100
(pascal to millibar) and reported as pascal; rain and temperature are reported in their new units. -/
theorem C120_pressure_unit_violated (nodata : Option K) (v : K) (hv : nodata ≠ some v) :
    convert "Psurf_f_inst" nodata v = v / 100 ∧ gldasUnits "Psurf_f_inst" = "Pa" ∧
    (∀ var, quantityOf var = .rain → gldasUnits var = "mm h-1") ∧
    (∀ var, quantityOf var = .temperature → gldasUnits var = "C") ∧
    ∀ var, quantityOf var = .albedo → gldasUnits var = "none [0,1]" := by
  refine ⟨?_, by decide, ?_, ?_, ?_⟩
  · rw [C120_convert, wanted, if_neg hv, show quantityOf "Psurf_f_inst" = .pressure by decide, inUnits]
  all_goals
    intro var h
    unfold quantityOf at h
    split_ifs at h with h1 h2 h3
    simp only [List.mem_cons, List.not_mem_nil, or_false] at *
    first
      | (rcases h1 with rfl | rfl <;> decide)
      | (rcases h2 with rfl | rfl | rfl | rfl <;> decide)
      | (subst h3; decide)

/-- A directory of three files, the second of which misses the DEM. -/
def demoDir : List (String × Raster ℚ) :=
  [("c.nc", small (-1)), ("a.nc", small (-1)), ("b.nc", { small (-1) with ulx := 100 })]

/-- The DEM is one cell of the raster; clipping takes that cell. -/
def demoJob : Job ℚ where
  dem := ⟨1, -1, 2, 0⟩
  nCells := 1
  gpm := false
  var := "Rainf_tavg"

example : (createFromNc demoJob (fun r => [r.val 0 1]) demoDir).frames = [[3600], [0], [0]] ∧
    (createFromNc demoJob (fun r => [r.val 0 1]) demoDir).badCount = 1 := by decide +kernel

/-! ## C121: CHIRPS -/

/-- A resampling that is linear under change of unit: scaling the input scales the output. -/
def Scales (warp : List K → List K) : Prop :=
  ∀ (c : K) (g : List K), warp (g.map (c * ·)) = (warp g).map (c * ·)

/-- **C121 (when nothing is written).** The program stops exactly when there are files and the box of CHIRPS
Africa does not overlap the DEM. -/
theorem C121_stops_iff (cb dem : Box K) (warp : List K → List K) (hours : K) (nn : Bool)
    (files : List (List K)) :
    (∃ e, createFromChirps cb dem warp hours nn files = .error e) ↔
      files ≠ [] ∧ boundsDisjoint cb dem = true := by
  unfold createFromChirps
  split_ifs with h
  · simpa using h
  · simpa using h

/-- **CHIRPS values are converted twice.**  For a resampling that commutes with change of unit, each
value written is `3600/hours` times the resampled value of the file; negative values become zero. -/
theorem C121_value (cb dem : Box K) (warp : List K → List K) (hw : Scales warp) (hours : K)
    (files frames : List (List K))
    (hr : createFromChirps cb dem warp hours true files = .ok frames) :
    frames = files.map (fun g => (warp g).map (fun v => max 0 (3600 / hours * v))) := by
  unfold createFromChirps at hr
  split_ifs at hr
  injection hr with hr
  rw [← hr]
  refine List.map_congr_left fun g _ => ?_
  have e : g.map (chirpsIn hours) = g.map (hours⁻¹ * ·) := by
    refine List.map_congr_left fun v _ => ?_
    unfold chirpsIn; rw [div_eq_inv_mul]
  rw [e, hw, List.map_map]
  refine List.map_congr_left fun v _ => ?_
  simp only [Function.comp, chirpsOut, Bool.true_and, decide_eq_true_eq]
  have h36 : 3600 / hours * v = hours⁻¹ * v * 3600 := by rw [div_eq_inv_mul]; ring
  rw [h36]
  by_cases h1 : hours⁻¹ * v = -1
  · simp only [h1, ne_eq, not_true_eq_false, if_false]
    rw [if_pos (by linarith), max_eq_left (by linarith)]
  · rw [if_pos h1]
    split_ifs with h2
    · rw [max_eq_left h2.le]
    · rw [max_eq_right (not_lt.mp h2)]

/-- **No reading of the file's unit gives rates in mm/h**: if the file holds depths in mm per interval
the rate is 3600 times too large; if it holds kg m-2 s-1 it is too small by the length of the interval
in hours.  The two agree with the truth only where there is no rain. -/
theorem C121_units_violated (cb dem : Box K) (warp : List K → List K) (hw : Scales warp) (hours : K)
    (hh : 1 < hours) (files frames : List (List K))
    (hr : createFromChirps cb dem warp hours true files = .ok frames)
    (k n : ℕ) (g : List K) (hg : files[k]? = some g) (v : K) (hv : (warp g)[n]? = some v)
    (hpos : 0 < v) :
    ∃ f w, frames[k]? = some f ∧ f[n]? = some w ∧
      w = 3600 * (v / hours) ∧ w ≠ v / hours ∧ w = (3600 * v) / hours ∧ w ≠ 3600 * v := by
  have h := C121_value cb dem warp hw hours files frames hr
  have h0 : (0 : K) < hours := by linarith
  refine ⟨(warp g).map (fun v => max 0 (3600 / hours * v)), max 0 (3600 / hours * v), ?_, ?_, ?_⟩
  · rw [h, List.getElem?_map, hg]; rfl
  · rw [List.getElem?_map, hv]; rfl
  · have hp : 0 < v / hours := div_pos hpos h0
    have e : 3600 / hours * v = 3600 * (v / hours) := by field_simp
    rw [e, max_eq_right (by linarith)]
    refine ⟨rfl, by linarith, by field_simp, ?_⟩
    intro hc
    have hlt : v / hours < v := by rw [div_lt_iff₀ h0]; nlinarith
    linarith

/-- The frames are never negative, and missing values of the file become zero rain. -/
theorem C121_nonnegative (cb dem : Box K) (warp : List K → List K) (hours : K)
    (files frames : List (List K))
    (hr : createFromChirps cb dem warp hours true files = .ok frames) :
    (∀ f ∈ frames, ∀ w ∈ f, 0 ≤ w) ∧ frames.length = files.length := by
  unfold createFromChirps at hr
  split_ifs at hr
  injection hr with hr
  subst hr
  refine ⟨?_, by simp⟩
  intro f hf w hw
  rw [List.mem_map] at hf
  obtain ⟨g, -, rfl⟩ := hf
  rw [List.mem_map] at hw
  obtain ⟨v, -, rfl⟩ := hw
  simp only [chirpsOut, Bool.true_and, decide_eq_true_eq]
  split_ifs with h1 h2 h2
  · exact le_refl _
  · exact not_lt.mp h2
  · exact le_refl _
  · exact not_lt.mp h2

/-- **Without the option for non-negative values, missing data turn into data**: the mark `-1` is divided
by the length of the interval first, so it is not recognised later and is stored as `-3600/hours`
(unless the interval is one hour). -/
theorem C121_missing_violated (cb dem : Box K) (hours : K) (h0 : hours ≠ 0) (h1 : hours ≠ 1)
    (files frames : List (List K))
    (hr : createFromChirps cb dem id hours false files = .ok frames)
    (k n : ℕ) (g : List K) (hg : files[k]? = some g) (hv : g[n]? = some (-1)) :
    ∃ f, frames[k]? = some f ∧ f[n]? = some (-(3600 / hours)) := by
  unfold createFromChirps at hr
  split_ifs at hr
  injection hr with hr
  subst hr
  refine ⟨((id (g.map (chirpsIn hours))).map (chirpsOut false)), ?_, ?_⟩
  · rw [List.getElem?_map, hg]; rfl
  · rw [List.getElem?_map, id, List.getElem?_map, hv]
    simp only [Option.map_some, Option.some.injEq, chirpsIn, chirpsOut, Bool.false_and,
      Bool.false_eq_true, if_false]
    have : (-1 : K) / hours ≠ -1 := by
      intro hc
      rw [div_eq_iff h0] at hc
      exact h1 (by linarith)
    rw [if_pos this]
    field_simp

example : createFromChirps (K := ℚ) ⟨-20, -40, 55, 40⟩ ⟨30, 0, 31, 1⟩ id 6 true [[12, -1], [0, 6]] =
    .ok [[7200, 0], [0, 3600]] := by decide +kernel

example : Scales (K := ℚ) id := fun _ _ => rfl

end Regrid
