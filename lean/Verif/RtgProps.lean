import Verif.RtgModel
import Verif.RtsProps
import Verif.TimeUtilsProps

/-!
# Properties of RTG grid files (C92, C93, C94)
-/

set_option autoImplicit false

namespace Rtg
open Files Rts

/-- What is assumed of numpy's conversions: the result has the size of its type, an element that has the type already
keeps its bytes, and a byte survives the way through int16. -/
structure ConvOk (conv : String → String → Elt → Elt) : Prop where
  size : ∀ a d w e, itemsize d = .ok w → (conv a d e).length = w
  refl : ∀ d e, conv d d e = e
  byte : ∀ e, conv "int16" "uint8" (conv "uint8" "int16" e) = e

/-- The elements of a grid in the data type of a file: `d`, by way of int16 for bytes. -/
def inType (conv : String → String → Elt → Elt) (g : Arr) (d : String) : List Elt :=
  if d = "uint8" then g.elts.map (fun e => conv "int16" "uint8" (conv g.dtype "int16" e))
  else g.elts.map (conv g.dtype d)

theorem itemsize_of_type {T d : String} (h : numpyDataType T = .ok d) : ∃ w, itemsize d = .ok w := by
  unfold numpyDataType at h
  split at h <;> first | (injection h with h; subst h; exact ⟨_, rfl⟩) | cases h

theorem swapArr_swapArr (s : Bool) (a : Arr) : swapArr s (swapArr s a) = a := by
  obtain ⟨d, l⟩ := a
  simp only [swapArr, List.map_map, Arr.mk.injEq, true_and]
  conv_rhs => rw [← List.map_id l]
  exact List.map_congr_left (fun e _ => swapIf_swapIf s e)

/-- Reading the bytes of an array, in either byte order, gives the array; what follows in the file is ignored. -/
theorem decode_elts (a : Arr) (rest : List Byte) (ncols nrows w : ℕ) (swap : Bool) (hw : itemsize a.dtype = .ok w)
    (hl : a.elts.length = ncols * nrows) (he : ∀ e ∈ a.elts, e.length = w) :
    decode ((swapArr swap a).elts.flatten ++ rest) ncols nrows swap a.dtype = .ok a := by
  unfold decode
  have h1 := fromFile_flatten w (swapArr swap a).elts rest (fun e h => by
    obtain ⟨e', h', rfl⟩ := List.mem_map.1 h
    rw [swapIf_length]; exact he e' h')
  have h2 : (swapArr swap a).elts.length = ncols * nrows := by simp [swapArr, hl]
  rw [h2] at h1
  simp only [hw, h1]
  rw [if_pos (by rw [h2, Nat.mul_comm])]
  congr 1
  exact swapArr_swapArr swap a

theorem fromFile_length_le (w : ℕ) : ∀ (n : ℕ) (bs : List Byte), (fromFile w n bs).length * w ≤ bs.length
  | 0, bs => by simp [fromFile]
  | n + 1, bs => by
    unfold fromFile
    split
    · simp
    · have := fromFile_length_le w n (bs.drop w)
      rw [List.length_drop] at this
      rw [List.length_cons, Nat.add_mul]
      omega

theorem decode_short (bs : List Byte) (ncols nrows w : ℕ) (swap : Bool) (d : String) (hw : itemsize d = .ok w)
    (h : bs.length < ncols * nrows * w) : ∃ e, decode bs ncols nrows swap d = .error e := by
  unfold decode
  simp only [hw]
  rw [if_neg]
  · exact ⟨_, rfl⟩
  · intro e
    have := fromFile_length_le w (ncols * nrows) bs
    rw [e, Nat.mul_comm nrows] at this
    omega

/-- The array that is written, for every type of file. -/
theorem toType_eq (keeps : Bool) (conv : String → String → Elt → Elt) (g : Arr) (T d : String)
    (hT : numpyDataType T = .ok d) :
    toType keeps conv g T = .ok (⟨d, inType conv g d⟩, decide (T ≠ "BYTE") && (keeps && g.dtype == d)) := by
  unfold numpyDataType at hT
  split at hT
  · injection hT with hT; subst hT
    simp only [toType, inType, List.map_map, Function.comp_def]
    simp
  all_goals first
    | (injection hT with hT; subst hT; simp [toType, inType])
    | cases hT

theorem inType_size (conv : String → String → Elt → Elt) (hc : ConvOk conv) (g : Arr) (d : String) (w : ℕ)
    (hw : itemsize d = .ok w) : ∀ e ∈ inType conv g d, e.length = w := by
  intro e he
  unfold inType at he
  split at he
  · next h =>
    obtain ⟨e', -, rfl⟩ := List.mem_map.1 he
    subst h
    exact hc.size _ _ _ _ hw
  · obtain ⟨e', -, rfl⟩ := List.mem_map.1 he
    exact hc.size _ _ _ _ hw

theorem inType_self (conv : String → String → Elt → Elt) (hc : ConvOk conv) (g : Arr) :
    inType conv g g.dtype = g.elts := by
  unfold inType
  split
  · next h =>
    rw [h]
    conv_rhs => rw [← List.map_id g.elts]
    exact List.map_congr_left (fun e _ => hc.byte e)
  · conv_rhs => rw [← List.map_id g.elts]
    exact List.map_congr_left (fun e _ => hc.refl _ e)

/-! ## C92 -/

/-- **C92** (round trip).  A grid of the size of the data set, written to a file of any of the six types and read with
this type, is the grid converted to the type — for every byte order; a grid that has the type is read back as it was.
No other file changes. -/
theorem C92_round_trip (keeps : Bool) (conv : String → String → Elt → Elt) (hc : ConvOk conv) (fs : Fs) (g : Arr)
    (file : Name) (rti : Info) (T d : String) (hT : numpyDataType T = .ok d)
    (hg : g.elts.length = rti.ncols * rti.nrows) :
    ∃ g' fs', writeGrid keeps conv fs g file rti T = .ok (g', fs') ∧
      readGrid fs' file rti (some T) = .ok ⟨d, inType conv g d⟩ ∧
      (g.dtype = d → readGrid fs' file rti (some T) = .ok g) ∧
      (∀ n, n ≠ file → fs'.data n = fs.data n) ∧ fs'.rti = fs.rti := by
  obtain ⟨w, hw⟩ := itemsize_of_type hT
  have key : ∀ fs' : Fs, fs'.data file = some (swapArr rti.swapEndian ⟨d, inType conv g d⟩).elts.flatten →
      readGrid fs' file rti (some T) = .ok ⟨d, inType conv g d⟩ := by
    intro fs' h
    have := decode_elts ⟨d, inType conv g d⟩ [] rti.ncols rti.nrows w rti.swapEndian hw
      (by show (inType conv g d).length = _; unfold inType; split <;> simp [hg]) (inType_size conv hc g d w hw)
    rw [List.append_nil] at this
    simp only [readGrid, h, Option.getD_some, hT]
    exact this
  have hwr : writeGrid keeps conv fs g file rti T = .ok (
      if (decide (T ≠ "BYTE") && (keeps && g.dtype == d)) = true then
        swapArr rti.swapEndian ⟨d, inType conv g d⟩ else g,
      ⟨fun n => if n = file then some (swapArr rti.swapEndian ⟨d, inType conv g d⟩).elts.flatten else fs.data n,
        fs.rti⟩) := by
    rw [writeGrid, toType_eq keeps conv g T d hT]
  refine ⟨_, _, hwr, key _ (by simp), ?_, ?_, rfl⟩
  · intro h
    rw [key _ (by simp)]
    subst h
    rw [inType_self conv hc]
  · intro n hn
    simp [hn]

/-- **C92** (short files).  A file with fewer bytes than the grid has in the type asked for is refused, not padded. -/
theorem C92_short_file (fs : Fs) (file : Name) (rti : Info) (T d : String) (w : ℕ) (bs : List Byte)
    (hT : numpyDataType T = .ok d) (hw : itemsize d = .ok w) (hf : fs.data file = some bs)
    (h : bs.length < rti.ncols * rti.nrows * w) : ∃ e, readGrid fs file rti (some T) = .error e := by
  simp only [readGrid, hf, Option.getD_some, hT]
  exact decode_short bs _ _ w _ d hw h

/-- **C92** (unknown types).  A type that is none of the six is refused before anything is written. -/
theorem C92_unknown_type (keeps : Bool) (conv : String → String → Elt → Elt) (fs : Fs) (g : Arr) (file : Name)
    (rti : Info) (T : String) (h : T ∉ ["BYTE", "INTEGER", "LONG", "LONG64", "FLOAT", "DOUBLE"]) :
    ∃ e, writeGrid keeps conv fs g file rti T = .error e := by
  simp only [List.mem_cons, List.not_mem_nil, or_false, not_or] at h
  obtain ⟨h1, h2, h3, h4, h5, h6⟩ := h
  unfold writeGrid toType
  split
  · next e he => exact ⟨_, rfl⟩
  · next he =>
    split at he <;> contradiction

/-! ## C93 -/

/-- **C93** (the grid in memory).  Writing leaves the grid of the caller as it is if the byte orders agree, or the file
has another type, or the type BYTE. -/
theorem C93_grid_kept_partial (keeps : Bool) (conv : String → String → Elt → Elt) (hc : ConvOk conv) (fs fs' : Fs)
    (g g' : Arr) (file : Name) (rti : Info) (T d : String) (hT : numpyDataType T = .ok d)
    (h : writeGrid keeps conv fs g file rti T = .ok (g', fs'))
    (hk : rti.swapEndian = false ∨ g.dtype ≠ d ∨ T = "BYTE" ∨ keeps = false) : g' = g := by
  rw [writeGrid, toType_eq keeps conv g T d hT] at h
  simp only [Except.ok.injEq, Prod.mk.injEq] at h
  obtain ⟨h, -⟩ := h
  rw [← h]
  split
  · next hs =>
    simp only [ne_eq, Bool.and_eq_true, decide_eq_true_eq, beq_iff_eq] at hs
    obtain ⟨h1, h2, h3⟩ := hs
    rcases hk with hk | hk | hk | hk
    · rw [hk, ← h3, inType_self conv hc]
      obtain ⟨gd, ge⟩ := g
      have hid : (fun e : Elt => swapIf false e) = id := by funext e; rfl
      simp only [swapArr, Arr.mk.injEq, true_and]
      rw [show swapIf false = id from hid, List.map_id]
    · exact absurd h3 hk
    · exact absurd hk h1
    · rw [hk] at h2; cases h2
  · rfl

/-- **C93** (violated).  If the byte order of the data set is not that of the machine, and the grid has the type of the
file already (five of the six types), writing it reverses the bytes of every element of the grid in memory, so the
numbers the caller goes on with are others. -/
theorem C93_grid_kept_violated (conv : String → String → Elt → Elt) (hc : ConvOk conv) (fs : Fs) (g : Arr)
    (file : Name) (rti : Info) (T : String) (hT : numpyDataType T = .ok g.dtype) (hb : T ≠ "BYTE")
    (hs : rti.swapEndian = true) :
    ∃ fs', writeGrid true conv fs g file rti T = .ok (⟨g.dtype, g.elts.map List.reverse⟩, fs') := by
  refine ⟨⟨fun n => if n = file then some (g.elts.map List.reverse).flatten else fs.data n, fs.rti⟩, ?_⟩
  rw [writeGrid, toType_eq true conv g T g.dtype hT, inType_self conv hc]
  have hr : swapIf true = List.reverse := by funext e; rfl
  simp [hb, hs, swapArr, hr]

/-- **C93** (no type named).  Without a type, writing and reading agree if the data set is of type FLOAT. -/
theorem C93_default_type_partial (keeps : Bool) (conv : String → String → Elt → Elt) (hc : ConvOk conv) (fs : Fs)
    (g : Arr) (file : Name) (rti : Info) (hg : g.elts.length = rti.ncols * rti.nrows) (ht : rti.dataType = "FLOAT") :
    ∃ g' fs', writeGrid keeps conv fs g file rti "FLOAT" = .ok (g', fs') ∧
      readGrid fs' file rti none = .ok ⟨"float32", inType conv g "float32"⟩ := by
  obtain ⟨g', fs', h1, h2, -⟩ := C92_round_trip keeps conv hc fs g file rti "FLOAT" "float32" rfl hg
  refine ⟨g', fs', h1, ?_⟩
  rw [← h2]
  simp only [readGrid, Option.getD_none, Option.getD_some, ht]

theorem decode_dtype {bs : List Byte} {ncols nrows : ℕ} {swap : Bool} {d : String} {r : Arr}
    (h : decode bs ncols nrows swap d = .ok r) : r.dtype = d := by
  unfold decode at h
  split at h
  · cases h
  · simp only at h
    split at h
    · injection h with h; subst h; rfl
    · cases h

/-- **C93** (violated).  For a data set of any other type (an INTEGER DEM, say) the bytes written without naming a type
are never read back as what was written: either reading fails or the numbers are taken for another type. -/
theorem C93_default_type_violated (keeps : Bool) (conv : String → String → Elt → Elt) (fs fs' : Fs)
    (g g' : Arr) (file : Name) (rti : Info) (ht : rti.dataType ≠ "FLOAT")
    (_h : writeGrid keeps conv fs g file rti "FLOAT" = .ok (g', fs')) :
    readGrid fs' file rti none ≠ .ok ⟨"float32", inType conv g "float32"⟩ := by
  intro h
  unfold readGrid at h
  split at h
  · cases h
  · split at h
    · cases h
    · next d hd =>
      have := decode_dtype h
      simp only at this
      subst this
      simp only [Option.getD_none] at hd
      unfold numpyDataType at hd
      split at hd <;> simp_all

/-- A conversion that meets the assumptions, on elements of up to eight bytes: cut or fill with zeros. -/
def sampleConv (a d : String) (e : Elt) : Elt :=
  if a = d then e
  else match itemsize d with
    | .ok w => (e ++ List.replicate w 0).take w
    | .error _ => e

example : ∃ fs', writeGrid true sampleConv ⟨fun _ => none, fun _ => none⟩ ⟨"int16", [[1, 2], [3, 4]]⟩ "a.rtg".toList
    ⟨2, 1, "INTEGER", "MSB", true⟩ "INTEGER" = .ok (⟨"int16", [[2, 1], [4, 3]]⟩, fs') := ⟨_, rfl⟩

/-! ## C94 -/

theorem pad_injective (k : ℕ) : Function.Injective (fun n => TimeUtils.pad n k) := by
  intro a b h
  have h1 := TimeUtils.parseNat_pad a k
  rw [show TimeUtils.pad a k = TimeUtils.pad b k from h, TimeUtils.parseNat_pad] at h1
  injection h1 with h1
  exact h1.symm

theorem pad_no_dot (n k : ℕ) : '.' ∉ TimeUtils.pad n k :=
  TimeUtils.notMem_of_digits (TimeUtils.isDigit_pad n k) '.' (by decide)

/-- **C94** (names).  For a file name with an extension, the index stands before the extension. -/
theorem C94_indexed_name (stem ext : Name) (he : '.' ∉ ext) (i : ℕ) :
    addIndex (stem ++ '.' :: ext) i = stem ++ '_' :: (TimeUtils.pad i 5 ++ '.' :: ext) := by
  unfold addIndex
  rw [rfind_append stem he]
  simp

theorem addIndex_injective (stem ext : Name) (he : '.' ∉ ext) :
    Function.Injective (addIndex (stem ++ '.' :: ext)) := by
  intro a b h
  rw [C94_indexed_name stem ext he, C94_indexed_name stem ext he] at h
  have h1 := List.append_cancel_left h
  simp only [List.cons.injEq, true_and] at h1
  exact pad_injective 5 (List.append_cancel_right h1)

theorem rtiName_index (stem ext : Name) (he : '.' ∉ ext) (i : ℕ) :
    rtiName (addIndex (stem ++ '.' :: ext) i) = stem ++ '_' :: (TimeUtils.pad i 5 ++ ".rti".toList) := by
  rw [C94_indexed_name stem ext he]
  unfold rtiName prefixOf
  have : stem ++ '_' :: (TimeUtils.pad i 5 ++ '.' :: ext) = (stem ++ '_' :: TimeUtils.pad i 5) ++ '.' :: ext := by simp
  rw [this, rfind_append _ he]
  simp only [List.take_left]
  simp only [List.append_assoc, List.cons_append]

theorem rtiName_index_injective (stem ext : Name) (he : '.' ∉ ext) :
    Function.Injective (fun i => rtiName (addIndex (stem ++ '.' :: ext) i)) := by
  intro a b h
  simp only [rtiName_index stem ext he] at h
  have h1 := List.append_cancel_left h
  simp only [List.cons.injEq, true_and] at h1
  exact pad_injective 5 (List.append_cancel_right h1)

/-- The files after a series of saves. -/
theorem saveAll_run (stem ext : Name) (he : '.' ∉ ext) (info : Info) (dtype dt : String)
    (hdt : rtiDataType dtype = .ok dt) : ∀ (gs : List Arr) (fs : Fs) (o : Obj),
    ∃ o' fs', saveAll fs o (stem ++ '.' :: ext) info dtype gs = .ok (o', fs') ∧
      o'.timeIndex = o.timeIndex + gs.length ∧
      (∀ (k : ℕ) (h : k < gs.length),
        fs'.data (addIndex (stem ++ '.' :: ext) (o.timeIndex + k))
          = some (swapArr info.swapEndian gs[k]).elts.flatten ∧
        fs'.rti (rtiName (addIndex (stem ++ '.' :: ext) (o.timeIndex + k))) = some { info with dataType := dt }) ∧
      (∀ n, (∀ k < gs.length, n ≠ addIndex (stem ++ '.' :: ext) (o.timeIndex + k)) → fs'.data n = fs.data n) ∧
      (∀ n, (∀ k < gs.length, n ≠ rtiName (addIndex (stem ++ '.' :: ext) (o.timeIndex + k))) →
        fs'.rti n = fs.rti n)
  | [], fs, o => ⟨o, fs, rfl, by simp, by simp, by simp, by simp⟩
  | g :: gs, fs, o => by
    obtain ⟨o', fs', h1, h2, h3, h4, h5⟩ := saveAll_run stem ext he info dtype dt hdt gs
      { data := fun n => if n = addIndex (stem ++ '.' :: ext) o.timeIndex then
          some (swapArr info.swapEndian g).elts.flatten else fs.data n
        rti := fun n => if n = rtiName (addIndex (stem ++ '.' :: ext) o.timeIndex) then
          some { info with dataType := dt } else fs.rti n }
      ⟨o.timeIndex + 1, some { info with dataType := dt }, some info.ncols, some info.nrows,
        some (addIndex (stem ++ '.' :: ext) o.timeIndex),
        some ⟨addIndex (stem ++ '.' :: ext) o.timeIndex, false, false, 0⟩⟩
    refine ⟨o', fs', ?_, ?_, ?_, ?_, ?_⟩
    · rw [← h1, saveAll]
      simp only [openNewFile, hdt, writeGridM, attr, if_true, Option.isSome_some]
      congr 1
      congr 1
      funext n
      by_cases hn : n = addIndex (stem ++ '.' :: ext) o.timeIndex
      · simp [hn, writeAt]
      · simp [hn]
    · rw [h2, List.length_cons]; show o.timeIndex + 1 + gs.length = _; omega
    · intro k hk
      cases k with
      | zero =>
        constructor
        · rw [h4]
          · simp
          · intro j _ e
            have := addIndex_injective stem ext he e
            simp only at this
            omega
        · rw [h5]
          · simp
          · intro j _ e
            have := rtiName_index_injective stem ext he e
            simp only at this
            omega
      | succ k =>
        have := h3 k (by simpa using hk)
        rw [show o.timeIndex + 1 + k = o.timeIndex + (k + 1) by omega] at this
        exact this
    · intro n hn
      rw [h4 n]
      · have := hn 0 (by simp)
        simp only [Nat.add_zero] at this
        simp [this]
      · intro k hk
        have := hn (k + 1) (by simpa using hk)
        rw [show o.timeIndex + (k + 1) = o.timeIndex + 1 + k by omega] at this
        exact this
    · intro n hn
      rw [h5 n]
      · have := hn 0 (by simp)
        simp only [Nat.add_zero] at this
        simp [this]
      · intro k hk
        have := hn (k + 1) (by simpa using hk)
        rw [show o.timeIndex + (k + 1) = o.timeIndex + 1 + k by omega] at this
        exact this

/-- **C94** (series of grids).  A new object that saves any list of grids of one data type under one name with an
extension makes files with indices 1, 2, ...; opened by any object, file `k` reads back as grid `k`, in every byte order
and by any of the two ways of naming the type.  All other data files stay as they were. -/
theorem C94_series (mach : String) (stem ext : Name) (he : '.' ∉ ext) (info : Info) (dtype : String) (w : ℕ)
    (hw : itemsize dtype = .ok w) (hswap : info.swapEndian = decide (mach ≠ info.byteOrder)) (gs : List Arr)
    (hgs : ∀ g ∈ gs, g.dtype = dtype ∧ g.elts.length = info.ncols * info.nrows ∧ ∀ e ∈ g.elts, e.length = w)
    (fs : Fs) :
    ∃ o' fs' T, saveAll fs {} (stem ++ '.' :: ext) info dtype gs = .ok (o', fs') ∧ rtiDataType dtype = .ok T ∧
      (∀ (k : ℕ) (h : k < gs.length) (r : Obj),
        ∃ r', openFile mach fs' r (some (stem ++ '_' :: (TimeUtils.pad (k + 1) 5 ++ '.' :: ext))) = .ok r' ∧
          readGridM fs' r' dtype none = .ok gs[k] ∧ ∀ d, readGridM fs' r' d (some T) = .ok gs[k]) ∧
      (∀ n, (∀ k < gs.length, n ≠ stem ++ '_' :: (TimeUtils.pad (k + 1) 5 ++ '.' :: ext)) →
        fs'.data n = fs.data n) := by
  obtain ⟨T, hT, hTd⟩ : ∃ T, rtiDataType dtype = .ok T ∧ numpyDataType T = .ok dtype := by
    unfold itemsize at hw
    split at hw <;> first | exact ⟨_, rfl, rfl⟩ | cases hw
  obtain ⟨o', fs', h1, h2, h3, h4, h5⟩ := saveAll_run stem ext he info dtype T hT gs fs {}
  have hn : ∀ k, addIndex (stem ++ '.' :: ext) (1 + k) = stem ++ '_' :: (TimeUtils.pad (k + 1) 5 ++ '.' :: ext) := by
    intro k
    rw [C94_indexed_name stem ext he, Nat.add_comm]
  refine ⟨o', fs', T, h1, hT, ?_, ?_⟩
  · intro k hk r
    obtain ⟨hd, hr⟩ := h3 k hk
    rw [show ({} : Obj).timeIndex = 1 from rfl, hn] at hd hr
    obtain ⟨g1, g2, g3⟩ := hgs gs[k] (List.getElem_mem hk)
    have hdec := decode_elts gs[k] [] info.ncols info.nrows w info.swapEndian (by rw [g1]; exact hw) g2 g3
    rw [List.append_nil, g1] at hdec
    have hopen : openFile mach fs' r (some (stem ++ '_' :: (TimeUtils.pad (k + 1) 5 ++ '.' :: ext))) = .ok
        ⟨r.timeIndex, some ⟨info.ncols, info.nrows, T, info.byteOrder, info.swapEndian⟩, some info.ncols,
          some info.nrows, some (stem ++ '_' :: (TimeUtils.pad (k + 1) 5 ++ '.' :: ext)),
          some ⟨stem ++ '_' :: (TimeUtils.pad (k + 1) 5 ++ '.' :: ext), true, false, 0⟩⟩ := by
      simp only [openFile, readInfo_of hr, hswap]
    refine ⟨_, hopen, ?_, ?_⟩
    · simp only [readGridM, attr, if_true, hd, List.drop_zero]
      exact hdec
    · intro d
      simp only [readGridM, attr, if_true, hd, List.drop_zero, hTd]
      exact hdec
  · intro n hne
    apply h4
    intro k hk
    rw [show ({} : Obj).timeIndex = 1 from rfl, hn]
    exact hne k hk

/-- **C94** (distinct names).  No two saves of a series have the same file name. -/
theorem C94_distinct (stem ext : Name) (he : '.' ∉ ext) (i j : ℕ) (h : i ≠ j) :
    addIndex (stem ++ '.' :: ext) i ≠ addIndex (stem ++ '.' :: ext) j :=
  fun e => h (addIndex_injective stem ext he e)

/-- **C93** (the method).  Saving with an object swaps the grid of the caller in place, whatever its type: saving one
grid twice gives two different files when the byte orders differ. -/
theorem C93_save_twice_violated (fs fs1 fs2 fs3 fs4 : Fs) (o1 o2 o3 o4 : Obj) (info : Info)
    (hs : info.swapEndian = true) (dtype : String) (f1 f2 : Name) (g g' g'' : Arr)
    (h1 : openNewFile fs {} f1 (some info) dtype false = .ok (o1, fs1))
    (h2 : writeGridM fs1 o1 g = .ok (o2, g', fs2))
    (h3 : openNewFile fs2 o2 f2 (some info) dtype false = .ok (o3, fs3))
    (h4 : writeGridM fs3 o3 g' = .ok (o4, g'', fs4)) :
    fs2.data f1 = some (g.elts.map List.reverse).flatten ∧ fs4.data f2 = some g.elts.flatten := by
  have hr : swapIf true = List.reverse := by funext e; rfl
  unfold openNewFile at h1 h3
  cases hdt : rtiDataType dtype with
  | error e => simp [hdt] at h1
  | ok dt =>
    simp only [hdt, Except.ok.injEq, Prod.mk.injEq] at h1 h3
    obtain ⟨rfl, rfl⟩ := h1
    simp only [writeGridM, attr, if_true, Except.ok.injEq, Prod.mk.injEq] at h2
    obtain ⟨rfl, rfl, rfl⟩ := h2
    obtain ⟨rfl, rfl⟩ := h3
    simp only [writeGridM, attr, if_true, Except.ok.injEq, Prod.mk.injEq] at h4
    obtain ⟨rfl, rfl, rfl⟩ := h4
    constructor
    · simp [writeAt, swapArr, hr, hs]
    · simp [writeAt, swapArr, hr, hs]

/-- **C94** (violated without an extension).  If the name of the file has no extension but a directory of its path has a
dot, the index is put into the directory: the file is not where the caller asked for it. -/
theorem C94_no_extension_violated (a b : Name) (hb : '.' ∉ b) (i : ℕ) :
    addIndex (a ++ '.' :: ('/' :: b)) i = a ++ '_' :: (TimeUtils.pad i 5 ++ '.' :: ('/' :: b)) :=
  C94_indexed_name a ('/' :: b) (by simp [hb]) i

example : addIndex "./out/depth".toList 7 = "_00007./out/depth".toList := by decide +kernel
example : addIndex "out/depth.rtg".toList 123456 = "out/depth_123456.rtg".toList := by decide +kernel

/-- **C94** (open for writing).  A file just opened for writing cannot be read through the same object, neither before
nor after its grid has been saved: it has to be opened again. -/
theorem C94_write_only (fs fs1 : Fs) (o o1 : Obj) (file : Name) (info : Option Info) (dtype : String) (addIdx : Bool)
    (h : openNewFile fs o file info dtype addIdx = .ok (o1, fs1)) (d : String) (T : Option String) :
    (∃ e, readGridM fs1 o1 d T = .error e) ∧
      ∀ g o2 g' fs2, writeGridM fs1 o1 g = .ok (o2, g', fs2) → ∃ e, readGridM fs2 o2 d T = .error e := by
  have hu : ∀ (fs : Fs) (o : Obj) (h : Handle), o.unit = some h → h.canRead = false →
      ∃ e, readGridM fs o d T = .error e := by
    intro fs o u hu hr
    unfold readGridM
    split
    · exact ⟨_, rfl⟩
    · split
      · rename_i he _
        rw [hu] at he
        simp only [attr, Except.ok.injEq] at he
        subst he
        rw [hr]
        exact ⟨_, rfl⟩
      · exact ⟨_, rfl⟩
  have h1 : ∃ u, o1.unit = some u ∧ u.canRead = false := by
    unfold openNewFile at h
    dsimp only at h
    split at h
    · cases h
    · cases h
    · cases h
      exact ⟨_, rfl, rfl⟩
  obtain ⟨u, hu1, hr1⟩ := h1
  refine ⟨hu fs1 o1 u hu1 hr1, ?_⟩
  intro g o2 g' fs2 hw
  unfold writeGridM at hw
  split at hw
  · split at hw
    · cases hw
      exact hu _ _ _ rfl rfl
    · cases hw
  · cases hw

end Rtg
