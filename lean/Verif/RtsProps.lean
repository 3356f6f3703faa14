import Verif.RtsModel
import Verif.FilesProps
import Mathlib.Tactic.Ring

/-!
# C37: RTS grid stacks read back what was written
-/

set_option autoImplicit false

namespace RtsSpec

/-- A stack of grids after "store `g` at index `i`": replace grid `i`, or append
when `i` is the number of grids. -/
def put {α : Type} (gs : List α) (i : ℕ) (g : α) : List α :=
  if i < gs.length then gs.set i g else gs ++ [g]

/-- A history of such writes. -/
def history {α : Type} (gs : List α) : List (ℕ × α) → List α
  | [] => gs
  | (i, g) :: r => history (put gs i g) r

/-- Every write of a history replaces an existing grid or appends the next one. -/
def InRange {α : Type} : ℕ → List (ℕ × α) → Prop
  | _, [] => True
  | n, (i, _) :: r => i ≤ n ∧ InRange (max n (i + 1)) r

end RtsSpec

namespace Rts
open Files RtsSpec

/-! ### Bytes of a stack of grids -/

/-- The bytes of one grid as written by `add_grid`. -/
def gridBytes (swap : Bool) (g : List Elt) : List Byte := (g.map (swapIf swap)).flatten

/-- The bytes of a stack of grids. -/
def onDisk (swap : Bool) (gs : List (List Elt)) : List Byte := (gs.map (gridBytes swap)).flatten

theorem swapIf_swapIf (s : Bool) (e : Elt) : swapIf s (swapIf s e) = e := by
  unfold swapIf; cases s <;> simp

theorem swapIf_length (s : Bool) (e : Elt) : (swapIf s e).length = e.length := by
  unfold swapIf; cases s <;> simp

theorem flatten_length {α : Type} (w : ℕ) : ∀ (l : List (List α)), (∀ e ∈ l, e.length = w) →
    l.flatten.length = l.length * w
  | [], _ => by simp
  | e :: l, h => by
    have h1 := flatten_length w l (fun e he => h e (List.mem_cons_of_mem _ he))
    have h2 := h e (by simp)
    rw [List.flatten_cons, List.length_append, h1, h2, List.length_cons]; ring

theorem flatten_drop {α : Type} (w : ℕ) : ∀ (i : ℕ) (l : List (List α)),
    (∀ e ∈ l, e.length = w) → l.flatten.drop (i * w) = (l.drop i).flatten
  | 0, l, _ => by simp
  | i + 1, [], _ => by simp
  | i + 1, e :: l, h => by
    have h2 : e.length = w := h e (by simp)
    rw [List.flatten_cons, List.drop_succ_cons,
      ← flatten_drop w i l (fun e he => h e (List.mem_cons_of_mem _ he))]
    rw [show (i + 1) * w = e.length + i * w by rw [h2]; ring, List.drop_append]
    simp

theorem flatten_take {α : Type} (w : ℕ) : ∀ (i : ℕ) (l : List (List α)),
    (∀ e ∈ l, e.length = w) → l.flatten.take (i * w) = (l.take i).flatten
  | 0, l, _ => by simp
  | i + 1, [], _ => by simp
  | i + 1, e :: l, h => by
    have h2 : e.length = w := h e (by simp)
    rw [List.flatten_cons, List.take_succ_cons, List.flatten_cons,
      ← flatten_take w i l (fun e he => h e (List.mem_cons_of_mem _ he))]
    rw [show (i + 1) * w = e.length + i * w by rw [h2]; ring, List.take_append]
    simp

theorem gridBytes_length {swap : Bool} {n w : ℕ} {g : List Elt} (hn : g.length = n)
    (hw : ∀ e ∈ g, e.length = w) : (gridBytes swap g).length = n * w := by
  unfold gridBytes
  rw [flatten_length w]
  · simp [hn]
  · intro e he
    obtain ⟨e', he', rfl⟩ := List.mem_map.1 he
    rw [swapIf_length]; exact hw e' he'

/-- A grid has the right shape. -/
def Shaped (n w : ℕ) (g : List Elt) : Prop := g.length = n ∧ ∀ e ∈ g, e.length = w

theorem onDisk_rows {swap : Bool} {n w : ℕ} {gs : List (List Elt)} (h : ∀ g ∈ gs, Shaped n w g) :
    ∀ b ∈ gs.map (gridBytes swap), b.length = n * w := by
  intro b hb
  obtain ⟨g, hg, rfl⟩ := List.mem_map.1 hb
  exact gridBytes_length (h g hg).1 (h g hg).2

theorem onDisk_length {swap : Bool} {n w : ℕ} {gs : List (List Elt)}
    (h : ∀ g ∈ gs, Shaped n w g) : (onDisk swap gs).length = gs.length * (n * w) := by
  unfold onDisk
  rw [flatten_length _ _ (onDisk_rows h)]; simp

theorem fromFile_flatten (w : ℕ) : ∀ (l : List Elt) (rest : List Byte),
    (∀ e ∈ l, e.length = w) → fromFile w l.length (l.flatten ++ rest) = l
  | [], _, _ => rfl
  | e :: l, rest, h => by
    have h2 : e.length = w := h e (by simp)
    have ih := fromFile_flatten w l rest (fun e he => h e (List.mem_cons_of_mem _ he))
    rw [List.length_cons, fromFile, List.flatten_cons, List.append_assoc]
    rw [if_neg (by simp [h2])]
    rw [← h2, List.take_left, List.drop_left, h2, ih]

/-- Storing one grid at its place in the file. -/
theorem writeAt_onDisk {swap : Bool} {n w : ℕ} {gs : List (List Elt)}
    (h : ∀ g ∈ gs, Shaped n w g) {g : List Elt} (hg : Shaped n w g) {i : ℕ}
    (hi : i ≤ gs.length) :
    writeAt (onDisk swap gs) (i * (n * w)) (gridBytes swap g) = onDisk swap (put gs i g) := by
  have hl := onDisk_length (swap := swap) h
  have hb := gridBytes_length (swap := swap) hg.1 hg.2
  have hrows := onDisk_rows (swap := swap) h
  unfold writeAt
  have hz : i * (n * w) - (onDisk swap gs).length = 0 := by
    rw [hl]; exact Nat.sub_eq_zero_of_le (Nat.mul_le_mul_right _ hi)
  rw [hz, hb, show i * (n * w) + n * w = (i + 1) * (n * w) by ring]
  unfold onDisk
  rw [flatten_take _ _ _ hrows, flatten_drop _ _ _ hrows]
  unfold put
  by_cases hlt : i < gs.length
  · rw [if_pos hlt, List.set_eq_take_append_cons_drop, if_pos hlt]
    simp [List.map_take, List.map_drop]
  · have : i = gs.length := by omega
    subst this
    rw [if_neg hlt, List.take_of_length_le (by simp), List.drop_of_length_le (by simp)]
    simp

theorem put_shaped {n w : ℕ} {gs : List (List Elt)} (h : ∀ g ∈ gs, Shaped n w g)
    {g : List Elt} (hg : Shaped n w g) (i : ℕ) : ∀ x ∈ put gs i g, Shaped n w x := by
  intro x hx
  unfold put at hx
  split at hx
  · rcases List.mem_or_eq_of_mem_set hx with h1 | h1
    · exact h x h1
    · rw [h1]; exact hg
  · rcases List.mem_append.1 hx with h1 | h1
    · exact h x h1
    · simp only [List.mem_singleton] at h1; rw [h1]; exact hg

/-! ### The file on disk -/

/-- File `name` holds the stack `gs`, and its RTI file describes it. -/
structure Holds (mach : String) (fs : Fs) (name : Name) (dtype : String) (nx ny : ℕ)
    (swap : Bool) (gs : List (List Elt)) : Prop where
  data : fs.data name = some (onDisk swap gs)
  rti : ∃ i, fs.rti (rtiName name) = some i ∧ i.ncols = nx ∧ i.nrows = ny ∧
    rtiDataType dtype = .ok i.dataType ∧ swap = decide (mach ≠ i.byteOrder)

theorem bpe_itemsize {dtype dt : String} {w : ℕ} (h : rtiDataType dtype = .ok dt)
    (hw : itemsize dtype = .ok w) : getBpe dt = .ok w := by
  unfold rtiDataType at h
  split at h <;> simp_all [itemsize, getBpe] <;> (subst h; simp)

theorem readInfo_of {mach : String} {fs : Fs} {name : Name} {i : Info}
    (h : fs.rti (rtiName name) = some i) :
    readInfo mach fs name = .ok { i with swapEndian := decide (mach ≠ i.byteOrder) } := by
  have : tryToFindRti (fun n => (fs.rti n).isSome) name = some (rtiName name) := by
    unfold tryToFindRti
    rw [if_pos (by simp [h])]
  unfold readInfo
  simp only [this, h]

/-- Opening a file that holds a stack. -/
theorem openFile_of {mach : String} {fs : Fs} {name : Name} {dtype : String} {nx ny w : ℕ}
    {swap : Bool} {gs : List (List Elt)} (hh : Holds mach fs name dtype nx ny swap gs)
    (hw : itemsize dtype = .ok w) (o : Obj) (upd : Bool) :
    ∃ i : Info, i.swapEndian = swap ∧ i.ncols = nx ∧ i.nrows = ny ∧
      openFile mach fs o name upd = .ok { o with
        info := some i
        nx := some nx
        ny := some ny
        gridSize := some (nx * ny * w)
        fileName := some name
        unit := some { file := name, canRead := true, canWrite := upd, pos := 0 } } := by
  obtain ⟨i, hi, hnx, hny, hdt, hsw⟩ := hh.rti
  refine ⟨{ i with swapEndian := decide (mach ≠ i.byteOrder) }, hsw.symm, hnx, hny, ?_⟩
  unfold openFile
  rw [readInfo_of hi]
  simp only [bpe_itemsize hdt hw, hnx, hny]

/-- Reading from a file that holds a stack, by any object that opened it. -/
theorem read_of {mach : String} {fs : Fs} {name : Name} {dtype : String} {nx ny w : ℕ}
    {swap : Bool} {gs : List (List Elt)} (hh : Holds mach fs name dtype nx ny swap gs)
    (hgs : ∀ g ∈ gs, Shaped (nx * ny) w g) (hw : itemsize dtype = .ok w) (o : Obj) (upd : Bool) :
    ∃ o', openFile mach fs o name upd = .ok o' ∧
      (∀ (i : ℕ) (hi : i < gs.length), getGrid fs o' i dtype = .ok gs[i]) ∧
      (0 < nx → 0 < ny → 0 < w → numberOfGrids fs o' = .ok gs.length) := by
  obtain ⟨inf, hswap, -, -, ho⟩ := openFile_of hh hw o upd
  refine ⟨_, ho, ?_, ?_⟩
  · intro i hi
    unfold getGrid
    simp only [attr, if_true, hw, hh.data, Option.getD_some]
    have hrows := onDisk_rows (swap := swap) hgs
    have hd : (onDisk swap gs).drop (i * (nx * ny * w))
        = gridBytes swap gs[i] ++ onDisk swap (gs.drop (i + 1)) := by
      unfold onDisk
      rw [flatten_drop _ _ _ hrows,
        List.drop_eq_getElem_cons (show i < (gs.map (gridBytes swap)).length by simpa using hi),
        List.flatten_cons, List.getElem_map, List.map_drop]
    have hg := hgs gs[i] (List.getElem_mem hi)
    have hf : fromFile w (nx * ny) ((onDisk swap gs).drop (i * (nx * ny * w)))
        = gs[i].map (swapIf swap) := by
      rw [hd]
      unfold gridBytes
      have h1 := fromFile_flatten w (gs[i].map (swapIf swap)) (onDisk swap (gs.drop (i + 1)))
        (fun e he => by
          obtain ⟨e', he', rfl⟩ := List.mem_map.1 he
          rw [swapIf_length]; exact hg.2 e' he')
      rw [List.length_map, hg.1] at h1
      exact h1
    rw [hf, if_pos (by rw [List.length_map, hg.1]; ring), hswap, List.map_map]
    congr 1
    conv_rhs => rw [← List.map_id gs[i]]
    apply List.map_congr_left
    intro e _
    simp [swapIf_swapIf]
  · intro h1 h2 h3
    unfold numberOfGrids
    simp only [attr, hh.data]
    have hpos : 0 < nx * ny * w := Nat.mul_pos (Nat.mul_pos h1 h2) h3
    rw [if_neg (by omega), onDisk_length hgs, Nat.mul_div_cancel _ hpos]

/-! ### Writing -/

/-- Object `o` is ready to write file `name`. -/
structure Ready (o : Obj) (name : Name) (dtype : String) (nx ny : ℕ) (swap : Bool)
    (pos : ℕ) : Prop where
  dtype : o.dtype = some dtype
  info : ∃ i, o.info = some i ∧ i.swapEndian = swap
  nx : o.nx = some nx
  ny : o.ny = some ny
  fileName : o.fileName = some name
  unit : ∃ h, o.unit = some h ∧ h.file = name ∧ h.canWrite = true ∧ h.pos = pos

/-- An object that created a file is ready to write after reopening it for update. -/
theorem openFile_ready {mach : String} {fs : Fs} {name : Name} {dtype : String} {nx ny w : ℕ}
    {swap : Bool} {gs : List (List Elt)} (hh : Holds mach fs name dtype nx ny swap gs)
    (hw : itemsize dtype = .ok w) (o : Obj) (hd : o.dtype = some dtype) :
    ∃ o', openFile mach fs o name true = .ok o' ∧ Ready o' name dtype nx ny swap 0 ∧
      o'.gridSize = some (nx * ny * w) := by
  obtain ⟨inf, hinf, -, -, h⟩ := openFile_of hh hw o true
  exact ⟨_, h, ⟨hd, ⟨inf, rfl, hinf⟩, rfl, rfl, rfl, _, rfl, rfl, rfl, rfl⟩, rfl⟩

section
variable {V : Type} {cast : String → V → Elt}

theorem cast_shaped {dtype : String} {n w : ℕ} (hc : ∀ v, (cast dtype v).length = w)
    {g : List V} (hg : g.length = n) : Shaped n w (g.map (cast dtype)) :=
  ⟨by simpa using hg, fun e he => by
    obtain ⟨v, -, rfl⟩ := List.mem_map.1 he
    exact hc v⟩

/-- One `add_grid` call at position `i` of a stack. -/
theorem addGrid_step {mach : String} {fs : Fs} {o : Obj} {name : Name} {dtype : String}
    {nx ny w : ℕ} {swap : Bool} {gs : List (List Elt)} {pos : ℕ}
    (hh : Holds mach fs name dtype nx ny swap gs)
    (hgs : ∀ g ∈ gs, Shaped (nx * ny) w g) (hr : Ready o name dtype nx ny swap pos)
    (hc : ∀ v, (cast dtype v).length = w) {g : List V} (hg : g.length = nx * ny)
    (ti : ℤ) (i : ℕ) (hi : i ≤ gs.length)
    (hti : (ti = i ∧ o.gridSize = some (nx * ny * w)) ∨
      (ti < 0 ∧ pos = i * (nx * ny * w))) :
    ∃ o' fs', addGrid cast fs o (.grid g) ti = .ok (o', fs') ∧
      Holds mach fs' name dtype nx ny swap (put gs i (g.map (cast dtype))) ∧
      Ready o' name dtype nx ny swap ((i + 1) * (nx * ny * w)) ∧
      o'.gridSize = o.gridSize := by
  obtain ⟨inf, hinf, hswap⟩ := hr.info
  obtain ⟨h, hu, hfile, hcw, hpos⟩ := hr.unit
  have hsk : seekTo o h ti = .ok (i * (nx * ny * w)) := by
    unfold seekTo
    rcases hti with ⟨h1, h2⟩ | ⟨h1, h2⟩
    · rw [h1, if_pos (by omega)]
      simp [h2, attr]
    · rw [if_neg (by omega), hpos, h2]
  have hb : ((g.map (fun v => swapIf swap (cast dtype v))).flatten)
      = gridBytes swap (g.map (cast dtype)) := by
    unfold gridBytes; rw [List.map_map]; rfl
  have hsh := cast_shaped (dtype := dtype) hc hg
  have hbl := gridBytes_length (swap := swap) hsh.1 hsh.2
  refine ⟨{ o with unit := some { h with pos := i * (nx * ny * w) +
        (g.map (fun v => swapIf swap (cast dtype v))).flatten.length } },
      { fs with
        data := fun n =>
          if n = h.file then some (writeAt ((fs.data n).getD []) (i * (nx * ny * w))
            (g.map (fun v => swapIf swap (cast dtype v))).flatten)
          else fs.data n }, ?_, ?_, ?_, rfl⟩
  · unfold addGrid
    simp only [hr.dtype, hu, hsk, hinf, hr.nx, hr.ny, attr, outGrid, hcw, if_true, hswap]
  · constructor
    · simp only [hfile, if_true, hh.data, Option.getD_some]
      rw [hb, writeAt_onDisk hgs hsh hi]
    · exact hh.rti
  · refine ⟨hr.dtype, ⟨inf, hinf, hswap⟩, hr.nx, hr.ny, hr.fileName, _, rfl, hfile, hcw, ?_⟩
    simp only
    rw [hb, hbl]; ring

/-- A sequence of appends. -/
theorem addAll_run {mach : String} {name : Name} {dtype : String}
    {nx ny w : ℕ} {swap : Bool} (hc : ∀ v, (cast dtype v).length = w) :
    ∀ (l : List (List V)) (fs : Fs) (o : Obj) (gs : List (List Elt)),
      Holds mach fs name dtype nx ny swap gs → (∀ g ∈ gs, Shaped (nx * ny) w g) →
      Ready o name dtype nx ny swap (gs.length * (nx * ny * w)) →
      (∀ g ∈ l, g.length = nx * ny) →
      ∃ o' fs', addAll cast fs o l = .ok (o', fs') ∧
        Holds mach fs' name dtype nx ny swap (gs ++ l.map (List.map (cast dtype))) ∧
        (∃ p, Ready o' name dtype nx ny swap p)
  | [], fs, o, gs, hh, _, hr, _ => ⟨o, fs, rfl, by simpa using hh, _, hr⟩
  | g :: l, fs, o, gs, hh, hgs, hr, hl => by
    obtain ⟨o1, fs1, h1, hh1, hr1, -⟩ := addGrid_step (cast := cast) hh hgs hr hc (hl g (by simp)) (-1) gs.length
      (le_refl _) (Or.inr ⟨by omega, rfl⟩)
    have hput : put gs gs.length (g.map (cast dtype)) = gs ++ [g.map (cast dtype)] := by
      unfold put; rw [if_neg (by omega)]
    have hs := put_shaped hgs (cast_shaped (dtype := dtype) hc (hl g (by simp))) gs.length
    rw [hput] at hh1 hs
    obtain ⟨o2, fs2, h2, hh2, hr2⟩ := addAll_run hc l fs1 o1 (gs ++ [g.map (cast dtype)]) hh1 hs
      (by simpa using hr1) (fun g hg => hl g (List.mem_cons_of_mem _ hg))
    refine ⟨o2, fs2, ?_, by simpa using hh2, hr2⟩
    unfold addAll
    rw [h1]; exact h2

/-- A sequence of writes at given indices. -/
theorem updateAll_run {mach : String} {name : Name} {dtype : String}
    {nx ny w : ℕ} {swap : Bool} (hc : ∀ v, (cast dtype v).length = w) :
    ∀ (l : List (ℕ × List V)) (fs : Fs) (o : Obj) (gs : List (List Elt)) (p : ℕ),
      Holds mach fs name dtype nx ny swap gs → (∀ g ∈ gs, Shaped (nx * ny) w g) →
      Ready o name dtype nx ny swap p → o.gridSize = some (nx * ny * w) →
      (∀ g ∈ l, g.2.length = nx * ny) → InRange gs.length l →
      ∃ o' fs', updateAll cast fs o l = .ok (o', fs') ∧
        Holds mach fs' name dtype nx ny swap
          (history gs (l.map (fun e => (e.1, e.2.map (cast dtype))))) ∧
        (∀ g ∈ history gs (l.map (fun e => (e.1, e.2.map (cast dtype)))), Shaped (nx * ny) w g)
  | [], fs, o, gs, p, hh, hgs, _, _, _, _ => ⟨o, fs, rfl, by simpa [history] using hh, by
      simpa [history] using hgs⟩
  | (i, g) :: l, fs, o, gs, p, hh, hgs, hr, hz, hl, hir => by
    obtain ⟨o1, fs1, h1, hh1, hr1, hz1⟩ := addGrid_step (cast := cast) hh hgs hr hc
      (hl (i, g) (by simp)) (i : ℤ) i hir.1 (Or.inl ⟨rfl, hz⟩)
    have hs := put_shaped hgs (cast_shaped (dtype := dtype) hc (hl (i, g) (by simp))) i
    have hlen : (put gs i (g.map (cast dtype))).length = max gs.length (i + 1) := by
      have := hir.1
      unfold put; split
      · rw [List.length_set]; omega
      · rw [List.length_append]; simp; omega
    obtain ⟨o2, fs2, h2, hh2, hs2⟩ := updateAll_run hc l fs1 o1 _ _ hh1 hs hr1
      (by rw [hz1]; exact hz) (fun g hg => hl g (List.mem_cons_of_mem _ hg))
      (by rw [hlen]; exact hir.2)
    refine ⟨o2, fs2, ?_, by simpa [history] using hh2, by simpa [history] using hs2⟩
    unfold updateAll
    simp only [h1]; exact h2

end

/-- What `open_new_file` leaves behind. -/
theorem openNew_state {fs fs1 : Fs} {o o1 : Obj} {file : Name} {info : Info} {dtype : String}
    {ow : Bool} {fuel : ℕ} {mach : String}
    (hswap : info.swapEndian = decide (mach ≠ info.byteOrder))
    (h : openNewFile fs o file info dtype ow fuel = .ok (o1, fs1)) :
    ∃ name, o1.fileName = some name ∧ (ow = true → name = file) ∧
      Holds mach fs1 name dtype info.ncols info.nrows info.swapEndian [] ∧
      Ready o1 name dtype info.ncols info.nrows info.swapEndian 0 ∧
      o1.gridSize = o.gridSize := by
  unfold openNewFile at h
  simp only at h
  split at h
  · cases h
  · next name hname =>
    split at h
    · cases h
    · next dt hdt =>
      simp only [Except.ok.injEq, Prod.mk.injEq] at h
      obtain ⟨rfl, rfl⟩ := h
      refine ⟨name, rfl, fun how => ?_, ⟨by simp [onDisk], { info with dataType := dt }, by simp, rfl, rfl, by simpa using hdt, hswap⟩,
        ⟨rfl, ⟨_, rfl, rfl⟩, rfl, rfl, rfl, _, rfl, rfl, rfl, rfl⟩, rfl⟩
      rw [how, if_pos rfl] at hname
      exact (Option.some.inj hname).symm

/-- **C37 (appends).**  Open a new RTS file, append any list of grids of the
right size, and read it with any (other) object: the number of grids is the
number of appends and grid `i` is the `i`-th grid appended, converted to the
data type of the file.  For every grid size, data type, byte order of the file
and of the machine.  Partial: the reader has to pass the data type of the file
(see `C37_default_dtype_violated`). -/
theorem C37_append_read_partial {V : Type} (mach : String) (cast : String → V → Elt)
    (dtype : String) (w : ℕ) (hw : itemsize dtype = .ok w)
    (hc : ∀ v, (cast dtype v).length = w) (fs fs1 : Fs) (writer o1 reader : Obj)
    (file : Name) (info : Info)
    (hswap : info.swapEndian = decide (mach ≠ info.byteOrder)) (ow : Bool) (fuel : ℕ)
    (hopen : openNewFile fs writer file info dtype ow fuel = .ok (o1, fs1))
    (gs : List (List V)) (hgs : ∀ g ∈ gs, g.length = info.ncols * info.nrows) :
    ∃ o2 fs2 name o3, addAll cast fs1 o1 gs = .ok (o2, fs2) ∧
      o1.fileName = some name ∧
      openFile mach fs2 reader name false = .ok o3 ∧
      (∀ (i : ℕ) (hi : i < gs.length),
        getGrid fs2 o3 i dtype = .ok (gs[i].map (cast dtype))) ∧
      (0 < info.ncols → 0 < info.nrows → numberOfGrids fs2 o3 = .ok gs.length) := by
  obtain ⟨name, hn, -, hh, hr, -⟩ := openNew_state hswap hopen
  obtain ⟨o2, fs2, h2, hh2, -⟩ := addAll_run hc gs fs1 o1 [] hh (by simp) (by simpa using hr) hgs
  rw [List.nil_append] at hh2
  have hsh : ∀ g ∈ gs.map (List.map (cast dtype)), Shaped (info.ncols * info.nrows) w g := by
    intro g hg
    obtain ⟨g', hg', rfl⟩ := List.mem_map.1 hg
    exact cast_shaped hc (hgs g' hg')
  obtain ⟨o3, h3, hget, hnum⟩ := read_of hh2 hsh hw reader false
  have hwpos : 0 < w := by
    unfold itemsize at hw; split at hw <;> simp_all <;> omega
  refine ⟨o2, fs2, name, o3, h2, hn, h3, fun i hi => ?_, fun h4 h5 => ?_⟩
  · rw [hget i (by simpa using hi)]; simp
  · rw [hnum h4 h5 hwpos]; simp

/-- **C37 (overwriting).**  After any list of appends the writing object closes
the file, reopens it for update and stores grids at given indices, each the index
of an existing grid or the next free one.  Any reader then sees exactly the stack
in which these grids, and no others, have been replaced. -/
theorem C37_overwrite_read_partial {V : Type} (mach : String) (cast : String → V → Elt)
    (dtype : String) (w : ℕ) (hw : itemsize dtype = .ok w)
    (hc : ∀ v, (cast dtype v).length = w) (fs fs1 : Fs) (writer o1 reader : Obj)
    (file : Name) (info : Info)
    (hswap : info.swapEndian = decide (mach ≠ info.byteOrder)) (ow : Bool) (fuel : ℕ)
    (hopen : openNewFile fs writer file info dtype ow fuel = .ok (o1, fs1))
    (gs : List (List V)) (hgs : ∀ g ∈ gs, g.length = info.ncols * info.nrows)
    (ups : List (ℕ × List V)) (hups : ∀ u ∈ ups, u.2.length = info.ncols * info.nrows)
    (hrange : InRange gs.length ups) :
    ∃ o2 fs2 name o3 o4 fs4 o5, addAll cast fs1 o1 gs = .ok (o2, fs2) ∧
      o1.fileName = some name ∧
      openFile mach fs2 (closeFile o2) name true = .ok o3 ∧
      updateAll cast fs2 o3 ups = .ok (o4, fs4) ∧
      openFile mach fs4 reader name false = .ok o5 ∧
      (∀ (i : ℕ) (hi : i < (history gs ups).length),
        getGrid fs4 o5 i dtype = .ok ((history gs ups)[i].map (cast dtype))) ∧
      (0 < info.ncols → 0 < info.nrows →
        numberOfGrids fs4 o5 = .ok (history gs ups).length) := by
  obtain ⟨name, hn, -, hh, hr, -⟩ := openNew_state hswap hopen
  obtain ⟨o2, fs2, h2, hh2, p, hr2⟩ :=
    addAll_run hc gs fs1 o1 [] hh (by simp) (by simpa using hr) hgs
  rw [List.nil_append] at hh2
  have hsh : ∀ g ∈ gs.map (List.map (cast dtype)), Shaped (info.ncols * info.nrows) w g := by
    intro g hg
    obtain ⟨g', hg', rfl⟩ := List.mem_map.1 hg
    exact cast_shaped hc (hgs g' hg')
  obtain ⟨o3, h3, hr3, hz3⟩ := openFile_ready hh2 hw (closeFile o2) hr2.dtype
  obtain ⟨o4, fs4, h4, hh4, hsh4⟩ := updateAll_run hc ups fs2 o3 _ 0 hh2 hsh hr3 hz3 hups
    (by simpa using hrange)
  have hmap : ∀ (ups : List (ℕ × List V)) (gs : List (List V)),
      history (gs.map (List.map (cast dtype))) (ups.map (fun e => (e.1, e.2.map (cast dtype))))
        = (history gs ups).map (List.map (cast dtype)) := by
    intro ups
    induction ups with
    | nil => intro gs; rfl
    | cons u r ih =>
      intro gs
      simp only [List.map_cons, history]
      rw [← ih]
      congr 1
      unfold put
      rw [List.length_map]
      split
      · rw [List.map_set]
      · simp
  rw [hmap] at hh4 hsh4
  obtain ⟨o5, h5, hget, hnum⟩ := read_of hh4 hsh4 hw reader false
  have hwpos : 0 < w := by
    unfold itemsize at hw; split at hw <;> simp_all <;> omega
  refine ⟨o2, fs2, name, o3, o4, fs4, o5, h2, hn, h3, h4, h5, fun i hi => ?_, fun h6 h7 => ?_⟩
  · rw [hget i (by simpa using hi)]; simp
  · rw [hnum h6 h7 hwpos]; simp

/-- The spec agrees with the English: storing at index `i` changes no other grid. -/
theorem put_other {α : Type} (gs : List α) (i : ℕ) (g : α) (j : ℕ) (hj : j < gs.length)
    (hij : j ≠ i) : (put gs i g)[j]? = gs[j]? := by
  unfold put
  split
  · rw [List.getElem?_set_ne (Ne.symm hij)]
  · rw [List.getElem?_append_left hj]

/-- Storing at index `i` puts the grid there. -/
theorem put_same {α : Type} (gs : List α) (i : ℕ) (g : α) (hi : i ≤ gs.length) :
    (put gs i g)[i]? = some g := by
  unfold put
  split
  · next h => rw [List.getElem?_set_self h]
  · next h =>
    have : i = gs.length := by omega
    subst this; simp

/-- **C37 (index argument on a new file, violated).**  A file that was just
created by a new object rejects every `add_grid(grid, time_index=i)` call. -/
theorem C37_index_on_new_file_violated {V : Type} (cast : String → V → Elt) (fs fs1 : Fs)
    (o1 : Obj) (file : Name) (info : Info) (dtype : String) (ow : Bool) (fuel : ℕ)
    (hopen : openNewFile fs {} file info dtype ow fuel = .ok (o1, fs1)) (g : Arg V) (i : ℕ) :
    addGrid cast fs1 o1 g i = .error "AttributeError: grid_size" := by
  obtain ⟨name, -, -, -, hr, hz⟩ := openNew_state (mach := if info.swapEndian then
    info.byteOrder ++ "x" else info.byteOrder) (by
      cases info.swapEndian
      · simp
      · simp only [if_true]
        symm
        rw [decide_eq_true_eq]
        intro h
        have := congrArg String.length h
        simp at this) hopen
  obtain ⟨h, hu, -⟩ := hr.unit
  unfold addGrid
  simp [hr.dtype, hu, attr, seekTo, hz]

/-- **C37 (update by a new object, violated).**  An object that opens an existing
file for update, without having created one before, cannot store a grid at all:
the attribute `dtype` is only set by `open_new_file`. -/
theorem C37_update_violated {V : Type} (mach : String) (cast : String → V → Elt) (fs : Fs)
    (o : Obj) (file : Name) (hopen : openFile mach fs {} file true = .ok o) (g : Arg V) (i : ℤ) :
    addGrid cast fs o g i = .error "AttributeError: dtype" := by
  unfold openFile at hopen
  split at hopen
  · cases hopen
  · split at hopen
    · cases hopen
    · simp only [Except.ok.injEq] at hopen
      subst hopen
      unfold addGrid
      simp [attr]

/-- **C37 (append after reopening, violated).**  When the writing object reopens
its file for update, `add_grid(grid)` without an index does not append: it
replaces the first grid (for every non-empty stack). -/
theorem C37_append_after_reopen_violated {V : Type} (mach : String) (cast : String → V → Elt)
    (dtype : String) (w : ℕ) (hw : itemsize dtype = .ok w)
    (hc : ∀ v, (cast dtype v).length = w) (fs fs1 : Fs) (writer o1 reader : Obj)
    (file : Name) (info : Info)
    (hswap : info.swapEndian = decide (mach ≠ info.byteOrder)) (ow : Bool) (fuel : ℕ)
    (hopen : openNewFile fs writer file info dtype ow fuel = .ok (o1, fs1))
    (g0 : List V) (gs : List (List V))
    (hgs : ∀ g ∈ g0 :: gs, g.length = info.ncols * info.nrows)
    (g : List V) (hg : g.length = info.ncols * info.nrows) :
    ∃ o2 fs2 name o3 o4 fs4 o5, addAll cast fs1 o1 (g0 :: gs) = .ok (o2, fs2) ∧
      o1.fileName = some name ∧
      openFile mach fs2 (closeFile o2) name true = .ok o3 ∧
      addGrid cast fs2 o3 (.grid g) (-1) = .ok (o4, fs4) ∧
      openFile mach fs4 reader name false = .ok o5 ∧
      getGrid fs4 o5 0 dtype = .ok (g.map (cast dtype)) ∧
      (0 < info.ncols → 0 < info.nrows →
        numberOfGrids fs4 o5 = .ok (gs.length + 1)) := by
  obtain ⟨name, hn, -, hh, hr, -⟩ := openNew_state hswap hopen
  obtain ⟨o2, fs2, h2, hh2, p, hr2⟩ :=
    addAll_run hc (g0 :: gs) fs1 o1 [] hh (by simp) (by simpa using hr) hgs
  rw [List.nil_append] at hh2
  have hsh : ∀ x ∈ (g0 :: gs).map (List.map (cast dtype)),
      Shaped (info.ncols * info.nrows) w x := by
    intro x hx
    obtain ⟨g', hg', rfl⟩ := List.mem_map.1 hx
    exact cast_shaped hc (hgs g' hg')
  obtain ⟨o3, h3, hr3, -⟩ := openFile_ready hh2 hw (closeFile o2) hr2.dtype
  obtain ⟨o4, fs4, h4, hh4, -, -⟩ := addGrid_step (cast := cast) hh2 hsh hr3 hc hg (-1) 0
    (by omega) (Or.inr ⟨by omega, by simp⟩)
  have hsh4 := put_shaped hsh (cast_shaped (dtype := dtype) hc hg) 0
  obtain ⟨o5, h5, hget, hnum⟩ := read_of hh4 hsh4 hw reader false
  have hwpos : 0 < w := by
    unfold itemsize at hw; split at hw <;> simp_all <;> omega
  refine ⟨o2, fs2, name, o3, o4, fs4, o5, h2, hn, h3, h4, h5, ?_, fun h6 h7 => ?_⟩
  · rw [hget 0 (by simp [put])]; simp [put]
  · rw [hnum h6 h7 hwpos]; simp [put]

/-- **C37 (scalars, violated).**  `add_grid` promises to write a grid when it is
given a scalar; for a zero-dimensional array it always raises. -/
theorem C37_scalar_violated {V : Type} (cast : String → V → Elt) (fs : Fs) (o : Obj)
    (v : V) (i : ℤ) : ∃ e, addGrid cast fs o (.zeroDim v) i = .error e := by
  unfold addGrid
  simp only [outGrid]
  repeat' split
  all_goals exact ⟨_, rfl⟩

/-- **C37 (default data type, violated).**  `get_grid(i)` without a data type
reads `float32` whatever the file contains: in a `float64` file the elements
returned are never those that were written (they have half the bytes). -/
theorem C37_default_dtype_violated {V : Type} (cast : String → V → Elt)
    (hc : ∀ v, (cast "float64" v).length = 8) (fs : Fs) (o : Obj) (i : ℕ) (g : List V)
    (hg : g ≠ []) : getGrid fs o i "float32" ≠ .ok (g.map (cast "float64")) := by
  intro h
  have key : ∀ (w count : ℕ) (bs : List Byte), ∀ e ∈ fromFile w count bs, e.length = w := by
    intro w count
    induction count with
    | zero => intro bs e he; simp [fromFile] at he
    | succ n ih =>
      intro bs e he
      unfold fromFile at he
      split at he
      · simp at he
      · rcases List.mem_cons.1 he with h1 | h1
        · rw [h1, List.length_take]; omega
        · exact ih _ e h1
  obtain ⟨v, r, rfl⟩ := List.exists_cons_of_ne_nil hg
  unfold getGrid at h
  split at h
  · split at h
    · simp only [itemsize] at h
      split at h
      · simp only [Except.ok.injEq] at h
        have hm : cast "float64" v ∈ (List.map (cast "float64") (v :: r)) := by simp
        rw [← h] at hm
        obtain ⟨e, he, heq⟩ := List.mem_map.1 hm
        have h1 := key _ _ _ e he
        have h2 := hc v
        rw [← heq, swapIf_length] at h2
        omega
      · cases h
    · cases h
  · cases h

/-- **C39 (info files, violated).**  Creating a grid stack with overwriting
switched off replaces an existing info file: whenever `file` itself is free but
its `.rti` file exists, that file is overwritten with the new grid information. -/
theorem C39_info_file_violated (fs : Fs) (o : Obj) (file : Name) (info old : Info)
    (dtype dt : String) (hdt : rtiDataType dtype = .ok dt) (fuel : ℕ)
    (hfree : fs.data file = none) (hfree' : fs.rti file = none)
    (hold : fs.rti (rtiName file) = some old) (hne : old ≠ { info with dataType := dt }) :
    ∃ o1 fs1, openNewFile fs o file info dtype false fuel = .ok (o1, fs1) ∧
      fs1.rti (rtiName file) ≠ fs.rti (rtiName file) := by
  have hn : checkOverwrite (fun n => (fs.data n).isSome || (fs.rti n).isSome) fuel file
      = some file := by
    simp [checkOverwrite, hfree, hfree']
  unfold openNewFile
  simp only [hn, hdt, Bool.false_eq_true, if_false]
  refine ⟨_, _, rfl, ?_⟩
  simp only [if_true, ne_eq, Option.some.injEq, hold]
  exact fun h => hne h.symm

/-! ### Concrete cases -/

/-- A 2-byte toy conversion used in the examples. -/
def demoCast (_ : String) (v : UInt8) : Elt := [v, 7]

def demoInfo : Info :=
  { ncols := 2, nrows := 1, dataType := "FLOAT", byteOrder := "MSB", swapEndian := true }

def demoFs : Fs := { data := fun _ => none, rti := fun _ => none }

/-- Hypotheses are met: a byte-swapped `int16` file with three grids, the second
of which is then replaced. -/
example :
    (match openNewFile demoFs {} "q.rts".toList demoInfo "int16" false 5 with
     | .ok (o1, fs1) =>
       match addAll demoCast fs1 o1 [[1, 2], [3, 4], [5, 6]] with
       | .ok (o2, fs2) =>
         match openFile "LSB" fs2 (closeFile o2) "q.rts".toList true with
         | .ok o3 =>
           match updateAll demoCast fs2 o3 [(1, [8, 9])] with
           | .ok (o4, fs4) =>
             decide ((fs4.data "q.rts".toList) = some [7, 1, 7, 2, 7, 8, 7, 9, 7, 5, 7, 6]) &&
             (match getGrid fs4 o4 1 "int16", numberOfGrids fs4 o4 with
              | .ok g, .ok n => decide (g = [[8, 7], [9, 7]]) && decide (n = 3)
              | _, _ => false)
           | .error _ => false
         | .error _ => false
       | .error _ => false
     | .error _ => false) = true := by decide +kernel

end Rts
