import Verif.ConvertModel
import Verif.RtsProps

/-!
# C268: unit conversion of a grid stack
-/

set_option autoImplicit false

namespace ConvertSpec

/-- The conversion of one value: `factor * x + addVal`, with the two operations
of the machine, where multiplying by one and adding zero change nothing. -/
def Converts {α : Type} (mul add : ℚ → α → α) (factor addVal : ℚ) (x y : α) : Prop :=
  (factor = 1 ∧ addVal = 0 ∧ y = x) ∨
  (factor ≠ 1 ∧ addVal = 0 ∧ y = mul factor x) ∨
  (factor = 1 ∧ addVal ≠ 0 ∧ y = add addVal x) ∨
  (factor ≠ 1 ∧ addVal ≠ 0 ∧ y = add addVal (mul factor x))

end ConvertSpec

namespace Rts
open Files RtsSpec ConvertSpec

theorem convertGrid_spec (A : Arith) (factor addVal : ℚ) (g : List Elt) :
    List.Forall₂ (Converts A.times A.plus factor addVal) g (convertGrid A factor addVal g) := by
  unfold convertGrid
  by_cases h1 : factor = 1 <;> by_cases h2 : addVal = 0 <;>
    simp only [h1, h2, ne_eq, not_true_eq_false, not_false_eq_true, if_true, if_false]
  · exact List.forall₂_same.2 (fun _ _ => Or.inl ⟨rfl, rfl, rfl⟩)
  · rw [List.forall₂_map_right_iff]
    exact List.forall₂_same.2 (fun _ _ => Or.inr (Or.inr (Or.inl ⟨rfl, h2, rfl⟩)))
  · rw [List.forall₂_map_right_iff]
    exact List.forall₂_same.2 (fun _ _ => Or.inr (Or.inl ⟨h1, rfl, rfl⟩))
  · rw [List.map_map, List.forall₂_map_right_iff]
    exact List.forall₂_same.2 (fun _ _ => Or.inr (Or.inr (Or.inr ⟨h1, h2, rfl⟩)))

theorem convertGrid_shaped {A : Arith} {factor addVal : ℚ} {n w : ℕ}
    (ht : ∀ f e, e.length = w → (A.times f e).length = w)
    (hp : ∀ a e, e.length = w → (A.plus a e).length = w)
    {g : List Elt} (hg : Shaped n w g) : Shaped n w (convertGrid A factor addVal g) := by
  have hs := convertGrid_spec A factor addVal g
  refine ⟨by rw [← hs.length_eq]; exact hg.1, fun e he => ?_⟩
  obtain ⟨i, hi, rfl⟩ := List.getElem_of_mem he
  have hi' : i < g.length := by rw [hs.length_eq]; exact hi
  have hc := hs.get hi' hi
  have hl := hg.2 g[i] (List.getElem_mem hi')
  simp only [List.get_eq_getElem] at hc
  rcases hc with ⟨-, -, h⟩ | ⟨-, -, h⟩ | ⟨-, -, h⟩ | ⟨-, -, h⟩ <;> rw [h]
  · exact hl
  · exact ht _ _ hl
  · exact hp _ _ hl
  · exact hp _ _ (ht _ _ hl)

/-- Adding a grid changes only the file of the object. -/
theorem addGrid_data {V : Type} {cast : String → V → Elt} {fs fs' : Fs} {o o' : Obj} {g : Arg V}
    {ti : ℤ} {name old : Name} {dtype : String} {nx ny : ℕ} {swap : Bool} {pos : ℕ}
    (hr : Ready o name dtype nx ny swap pos) (hne : old ≠ name)
    (h : addGrid cast fs o g ti = .ok (o', fs')) : fs'.data old = fs.data old ∧ fs'.rti = fs.rti := by
  obtain ⟨hd, hu, hfile, -, -⟩ := hr.unit
  unfold addGrid at h
  simp only [hr.dtype, hu, attr] at h
  repeat' split at h
  all_goals first
    | cases h; done
    | (simp only [Except.ok.injEq, Prod.mk.injEq] at h
       obtain ⟨-, rfl⟩ := h
       exact ⟨by simp only [hfile, if_neg hne], rfl⟩)

/-- Reading depends only on the contents of the file that is open. -/
theorem getGrid_congr {fs fs' : Fs} {o o' : Obj} {k : ℕ} {dtype : String} {h : Handle}
    (hu : o.unit = some h) (hd : fs'.data h.file = fs.data h.file) (ho : o'.unit = o.unit)
    (hx : o'.nx = o.nx) (hy : o'.ny = o.ny) (hz : o'.gridSize = o.gridSize)
    (hi : o'.info.map Info.swapEndian = o.info.map Info.swapEndian) :
    getGrid fs' o' k dtype = getGrid fs o k dtype := by
  unfold getGrid
  rw [ho, hx, hy, hz, hu]
  cases o.nx <;> cases o.ny <;> cases o.gridSize <;>
    cases h1 : o.info <;> cases h2 : o'.info <;> simp_all [attr]

/-- The loop, started after `k` grids. -/
theorem convertLoop_run {mach : String} {A : Arith} {factor addVal : ℚ}
    (ht : ∀ f e, e.length = 4 → (A.times f e).length = 4)
    (hp : ∀ a e, e.length = 4 → (A.plus a e).length = 4)
    {name old : Name} {nx ny : ℕ} {swap : Bool} (hne : old ≠ name)
    {src : Obj} {hd : Handle} (hu : src.unit = some hd) (hf : hd.file = old)
    {gs : List (List Elt)} (hgs : ∀ g ∈ gs, Shaped (nx * ny) 4 g) :
    ∀ (n k : ℕ) (fs : Fs) (o : Obj) (out : List (List Elt)), k + n = gs.length →
      (∀ (i : ℕ) (hi : i < gs.length), getGrid fs src i "float32" = .ok gs[i]) →
      Holds mach fs name "float32" nx ny swap out → (∀ g ∈ out, Shaped (nx * ny) 4 g) →
      Ready o name "float32" nx ny swap (out.length * (nx * ny * 4)) →
      ∃ o' fs', convertLoop A factor addVal src n k fs o = .ok (o', fs') ∧
        Holds mach fs' name "float32" nx ny swap
          (out ++ (gs.drop k).map (convertGrid A factor addVal)) ∧
        fs'.data old = fs.data old ∧ fs'.rti = fs.rti ∧ o'.fileName = some name
  | 0, k, fs, o, out, hk, _, hh, _, hr => by
    refine ⟨o, fs, rfl, ?_, rfl, rfl, hr.fileName⟩
    rw [List.drop_eq_nil_of_le (by omega)]; simpa using hh
  | n + 1, k, fs, o, out, hk, hget, hh, hout, hr => by
    have hklt : k < gs.length := by omega
    have hsh : Shaped (nx * ny) 4 (convertGrid A factor addVal gs[k]) :=
      convertGrid_shaped ht hp (hgs _ (List.getElem_mem hklt))
    -- `addGrid_step` asks for a conversion of constant width
    obtain ⟨inf, hinf, hswap⟩ := hr.info
    obtain ⟨h, hu1, hfile, hcw, hpos⟩ := hr.unit
    have hbl := gridBytes_length (swap := swap) hsh.1 hsh.2
    have hb : (((convertGrid A factor addVal gs[k]).map (fun v => swapIf swap v)).flatten)
      = gridBytes swap (convertGrid A factor addVal gs[k]) := rfl
    obtain ⟨o1, fs1, h1, hh1, hr1⟩ : ∃ o1 fs1,
        addGrid (fun _ (v : Elt) => v) fs o (.grid (convertGrid A factor addVal gs[k])) (-1)
          = .ok (o1, fs1) ∧
        Holds mach fs1 name "float32" nx ny swap (out ++ [convertGrid A factor addVal gs[k]]) ∧
        Ready o1 name "float32" nx ny swap ((out.length + 1) * (nx * ny * 4)) := by
      refine ⟨{ o with unit := some { h with pos := out.length * (nx * ny * 4) +
            ((convertGrid A factor addVal gs[k]).map (fun v => swapIf swap v)).flatten.length } },
          { fs with
            data := fun n =>
              if n = h.file then some (writeAt ((fs.data n).getD []) (out.length * (nx * ny * 4))
                ((convertGrid A factor addVal gs[k]).map (fun v => swapIf swap v)).flatten)
              else fs.data n }, ?_, ⟨?_, hh.rti⟩, ?_⟩
      · unfold addGrid seekTo
        simp only [hr.dtype, hu1, hinf, hr.nx, hr.ny, attr, outGrid, hcw, if_true, hswap, hpos]
        rfl
      · simp only [hfile, if_true, hh.data, Option.getD_some]
        rw [hb, writeAt_onDisk hout hsh (le_refl _)]
        unfold put; rw [if_neg (by omega)]
      · refine ⟨hr.dtype, ⟨inf, hinf, hswap⟩, hr.nx, hr.ny, hr.fileName, _, rfl, hfile, hcw, ?_⟩
        simp only
        rw [hb, hbl]; ring
    obtain ⟨hd1, hrti1⟩ := addGrid_data hr hne h1
    obtain ⟨o2, fs2, h2, hh2, hd2, hrti2, hn2⟩ := convertLoop_run ht hp hne hu hf hgs n (k + 1) fs1 o1
      (out ++ [convertGrid A factor addVal gs[k]]) (by omega)
      (fun i hi => by
        rw [getGrid_congr (o := src) (o' := src) (fs := fs) hu (by rw [hf]; exact hd1) rfl rfl rfl
          rfl rfl]
        exact hget i hi)
      hh1 (by
        intro g hg
        rcases List.mem_append.1 hg with h | h
        · exact hout g h
        · simp only [List.mem_singleton] at h; rw [h]; exact hsh)
      (by simpa using hr1)
    refine ⟨o2, fs2, ?_, ?_, hd2.trans hd1, hrti2.trans hrti1, hn2⟩
    · unfold convertLoop
      rw [hget k hklt]
      simp only [h1]
      exact h2
    · rw [List.drop_eq_getElem_cons hklt, List.map_cons]
      rw [List.append_assoc] at hh2
      exact hh2

theorem checkOverwrite_free {ex : Name → Bool} {fuel : ℕ} {s v : Name}
    (h : checkOverwrite ex fuel s = some v) : ex v = false := by
  unfold checkOverwrite at h
  split at h
  · next hs => simp only [Option.some.injEq] at h; rw [← h]; simpa using hs
  · obtain ⟨m, -, -, hf, -⟩ := overwriteLoop_spec _ _ _ _ _ h
    exact hf

/-- **C268 (conversion).**  `old` holds a stack of `float32` grids and is open.
Whatever the new name, the conversion ends; it writes to a name that was not in
use (the requested one when that was free); any reader finds there as many grids
as in the old file, each value `x` replaced by `factor * x + addVal` in the
arithmetic of the machine; and the old stack is still there.  For every grid
size, byte order, number of grids and content of the directory.  Partial: only
for `float32` stacks, see `C268_narrow_violated` and `C268_double_violated`. -/
theorem C268_convert_partial (mach : String) (A : Arith)
    (ht : ∀ f e, e.length = 4 → (A.times f e).length = 4)
    (hp : ∀ a e, e.length = 4 → (A.plus a e).length = 4)
    (fs : Fs) (hfin : {n | fs.data n ≠ none ∨ fs.rti n ≠ none}.Finite)
    (old : Name) (nx ny : ℕ) (hx : 0 < nx) (hy : 0 < ny) (swap : Bool) (gs : List (List Elt))
    (hh : Holds mach fs old "float32" nx ny swap gs)
    (hgs : ∀ g ∈ gs, Shaped (nx * ny) 4 g) (upd : Bool) (newFile : Name) (factor addVal : ℚ) :
    ∃ o, openFile mach fs {} old upd = .ok o ∧
    ∃ fuel o2 fs2 name, convertUnits A fs o newFile factor addVal fuel = .ok (o2, fs2) ∧
      o2.fileName = some name ∧ fs.data name = none ∧ fs.rti name = none ∧
      (fs.data newFile = none → fs.rti newFile = none → name = newFile) ∧
      Holds mach fs2 old "float32" nx ny swap gs ∧
      (∀ reader, ∃ o3, openFile mach fs2 reader name false = .ok o3 ∧
        numberOfGrids fs2 o3 = .ok gs.length ∧
        ∀ (i : ℕ) (hi : i < gs.length), ∃ g, getGrid fs2 o3 i "float32" = .ok g ∧
          List.Forall₂ (Converts A.times A.plus factor addVal) gs[i] g) := by
  obtain ⟨inf0, hrti0, hnx0, hny0, hdt0, hsw0⟩ := hh.rti
  have hw : itemsize "float32" = .ok 4 := rfl
  obtain ⟨o, ho, hget, hnum⟩ := read_of hh hgs hw {} upd
  have ho' : openFile mach fs {} old upd = .ok { ({} : Obj) with
        info := some { inf0 with swapEndian := decide (mach ≠ inf0.byteOrder) }
        nx := some nx
        ny := some ny
        gridSize := some (nx * ny * 4)
        fileName := some old
        unit := some { file := old, canRead := true, canWrite := upd, pos := 0 } } := by
    unfold openFile
    rw [readInfo_of hrti0]
    simp only [bpe_itemsize hdt0 hw, hnx0, hny0]
  have hoeq := ho.symm.trans ho'
  simp only [Except.ok.injEq] at hoeq
  refine ⟨o, ho, ?_⟩
  have hfin' : {n | ((fs.data n).isSome || (fs.rti n).isSome) = true}.Finite := by
    refine hfin.subset (fun n hn => ?_)
    simp only [Bool.or_eq_true, Set.mem_setOf_eq, Option.isSome_iff_ne_none] at hn ⊢
    exact hn
  obtain ⟨fuel, name, hname, hfree, hsame⟩ :=
    C39_never_existing (fun n => (fs.data n).isSome || (fs.rti n).isSome) hfin' newFile
  simp only [Bool.or_eq_false_iff, Option.isSome_eq_false_iff, Option.isNone_iff_eq_none] at hfree hsame
  have hne : old ≠ name := by
    rintro rfl
    rw [hh.data] at hfree
    exact absurd hfree.1 (by simp)
  -- the new file
  have hdt : rtiDataType "float32" = .ok "FLOAT" := rfl
  have hdt0' : inf0.dataType = "FLOAT" := by
    rw [hdt] at hdt0; exact (Except.ok.inj hdt0).symm
  set inf : Info := { inf0 with swapEndian := decide (mach ≠ inf0.byteOrder) } with hinf
  have hopen : ∃ o1 fs1, openNewFile fs {} newFile inf "float32" false fuel = .ok (o1, fs1) := by
    unfold openNewFile
    simp only [Bool.false_eq_true, if_false, hname, hdt]
    exact ⟨_, _, rfl⟩
  obtain ⟨o1, fs1, hopen⟩ := hopen
  obtain ⟨name', hn', -, hh1, hr1, -⟩ := openNew_state (mach := mach) (by rw [hinf]) hopen
  have hcopy := hopen
  unfold openNewFile at hcopy
  simp only [Bool.false_eq_true, if_false, hname, hdt, Except.ok.injEq, Prod.mk.injEq] at hcopy
  have hnn : name' = name := by
    rw [← hcopy.1] at hn'
    exact (Option.some.inj hn').symm
  subst hnn
  have hinc : inf.ncols = nx := hnx0
  have hinr : inf.nrows = ny := hny0
  have hins : inf.swapEndian = swap := hsw0.symm
  rw [hinc, hinr, hins] at hh1 hr1
  have hold1 : fs1.data old = fs.data old := by
    rw [← hcopy.2]; simp [hne]
  have hoi : o.info = some inf := by rw [hoeq]
  have hou : o.unit = some { file := old, canRead := true, canWrite := upd, pos := 0 } := by
    rw [hoeq]
  have ho1i : o1.info = some inf := by
    rw [← hcopy.1]
    simp only [hinf, ← hdt0']
  have hsrc : ({ o with info := o1.info } : Obj) = o := by
    rw [ho1i, ← hoi]
  obtain ⟨o2, fs2, h2, hh2, hd2, hrti2, hn2⟩ := convertLoop_run (A := A) (factor := factor)
    (addVal := addVal) ht hp hne hou rfl hgs gs.length 0 fs1 o1 [] (by omega)
    (fun i hi => by
      rw [getGrid_congr (o := o) (o' := o) (fs := fs) hou hold1 rfl rfl rfl rfl rfl]
      exact hget i hi)
    hh1 (by simp) (by simpa using hr1)
  rw [List.nil_append, List.drop_zero] at hh2
  refine ⟨fuel, closeFile o2, fs2, name', ?_, hn2, hfree.1, hfree.2,
    fun h1 h3 => hsame ⟨h1, h3⟩, ⟨?_, ?_⟩, ?_⟩
  · unfold convertUnits
    rw [hoi]
    simp only [attr, hnum hx hy (by norm_num), hopen, hsrc, h2]
  · rw [hd2, hold1]; exact hh.data
  · rw [hrti2, ← hcopy.2]
    by_cases hr : rtiName old = rtiName name'
    · refine ⟨inf, ?_, hnx0, hny0, ?_, ?_⟩
      · simp only [hr, if_true, hinf, ← hdt0']
      · rw [hdt, ← hdt0']
      · exact hsw0
    · exact ⟨inf0, by simp only [hr, if_false]; exact hrti0, hnx0, hny0, hdt0, hsw0⟩
  · intro reader
    have hsh : ∀ g ∈ gs.map (convertGrid A factor addVal), Shaped (nx * ny) 4 g := by
      intro g hg
      obtain ⟨g', hg', rfl⟩ := List.mem_map.1 hg
      exact convertGrid_shaped ht hp (hgs g' hg')
    obtain ⟨o3, h3, hget3, hnum3⟩ := read_of hh2 hsh hw reader false
    refine ⟨o3, h3, by rw [hnum3 hx hy (by norm_num)]; simp, fun i hi => ?_⟩
    refine ⟨_, hget3 i (by simpa using hi), ?_⟩
    rw [List.getElem_map]
    exact convertGrid_spec A factor addVal _

theorem fromFile_length_le (w : ℕ) (hw : 0 < w) :
    ∀ (count : ℕ) (bs : List Byte), (fromFile w count bs).length * w ≤ bs.length
  | 0, bs => by simp [fromFile]
  | n + 1, bs => by
    unfold fromFile
    split
    · simp
    · have := fromFile_length_le w hw n (bs.drop w)
      rw [List.length_drop] at this
      rw [List.length_cons, Nat.add_mul, Nat.one_mul]
      omega

/-- **C268 (narrow data types, violated).**  For every nonempty stack whose data
type has fewer than four bytes (`uint8`, `int16`) the conversion fails, whatever
the factor: the grids are read as `float32` and the last one ends too early. -/
theorem C268_narrow_violated (mach : String) (A : Arith) (fs : Fs) (old : Name) (dtype : String)
    (w : ℕ) (hw : itemsize dtype = .ok w) (hw4 : w < 4) (nx ny : ℕ) (hx : 0 < nx) (hy : 0 < ny)
    (swap : Bool) (gs : List (List Elt)) (hne : gs ≠ [])
    (hh : Holds mach fs old dtype nx ny swap gs)
    (hgs : ∀ g ∈ gs, Shaped (nx * ny) w g) (upd : Bool) (newFile : Name) (factor addVal : ℚ)
    (fuel : ℕ) :
    ∃ o, openFile mach fs {} old upd = .ok o ∧
      ∃ e, convertUnits A fs o newFile factor addVal fuel = .error e := by
  obtain ⟨inf, -, -, -, ho⟩ := openFile_of hh hw {} upd
  obtain ⟨o', ho', -, hnum⟩ := read_of hh hgs hw {} upd
  have hoo := ho'.symm.trans ho
  simp only [Except.ok.injEq] at hoo
  refine ⟨o', ho', ?_⟩
  have hwpos : 0 < w := by
    unfold itemsize at hw; split at hw <;> simp_all <;> omega
  cases hc : convertUnits A fs o' newFile factor addVal fuel with
  | error e => exact ⟨e, rfl⟩
  | ok r =>
    exfalso
    unfold convertUnits at hc
    have hoi : o'.info = some inf := by rw [hoo]
    rw [hoi] at hc
    simp only [attr, hnum hx hy hwpos] at hc
    cases hop : openNewFile fs {} newFile inf "float32" false fuel with
    | error e => rw [hop] at hc; cases hc
    | ok p =>
      obtain ⟨o1, fs1⟩ := p
      rw [hop] at hc
      simp only at hc
      obtain ⟨name, hname, hnold, hr1, hd1⟩ : ∃ name, o1.fileName = some name ∧ old ≠ name ∧
          (∃ hd, o1.unit = some hd ∧ hd.file = name) ∧ fs1.data old = fs.data old := by
        unfold openNewFile at hop
        simp only [Bool.false_eq_true, if_false] at hop
        split at hop
        · cases hop
        · next name hn =>
          split at hop
          · cases hop
          · simp only [Except.ok.injEq, Prod.mk.injEq] at hop
            obtain ⟨rfl, rfl⟩ := hop
            have hf := checkOverwrite_free hn
            have hne' : old ≠ name := by
              rintro rfl
              rw [hh.data] at hf
              simp at hf
            exact ⟨name, rfl, hne', ⟨_, rfl, rfl⟩, by simp [hne']⟩
      -- the loop fails at the last grid at the latest
      have key : ∀ (n k : ℕ) (f : Fs) (ob : Obj), 0 < n → k + n = gs.length →
          f.data old = fs.data old → (∃ hd, ob.unit = some hd ∧ hd.file = name) →
          ∃ e, convertLoop A factor addVal { o' with info := o1.info } n k f ob = .error e := by
        intro n
        induction n with
        | zero => intro k f ob h0; omega
        | succ n ih =>
          intro k f ob _ hk hf hob
          unfold convertLoop
          cases hg : getGrid f { o' with info := o1.info } k "float32" with
          | error e => exact ⟨e, rfl⟩
          | ok g =>
            simp only
            rcases Nat.eq_zero_or_pos n with h0 | hpos
            · exfalso
              subst h0
              rw [hoo] at hg
              unfold getGrid at hg
              cases hi1 : o1.info with
              | none => simp [hi1, attr] at hg
              | some inf1 =>
                simp only [hi1, attr, if_true, itemsize, hf, hh.data, Option.getD_some] at hg
                split at hg
                · next hlen =>
                  have h1 := fromFile_length_le 4 (by norm_num) (nx * ny)
                    ((onDisk swap gs).drop (k * (nx * ny * w)))
                  rw [hlen, List.length_drop, onDisk_length hgs, ← Nat.sub_mul] at h1
                  have h2 : gs.length - k = 1 := by omega
                  rw [h2, Nat.one_mul, Nat.mul_comm ny nx] at h1
                  have h3 := Nat.le_of_mul_le_mul_left h1 (Nat.mul_pos hx hy)
                  omega
                · cases hg
            · cases ha : addGrid (fun _ (v : Elt) => v) f ob
                (.grid (convertGrid A factor addVal g)) (-1) with
              | error e => exact ⟨e, rfl⟩
              | ok q =>
                obtain ⟨ob', f'⟩ := q
                simp only
                obtain ⟨hd, hu, hfile⟩ := hob
                have hkeep : f'.data old = f.data old ∧
                    ∃ hd', ob'.unit = some hd' ∧ hd'.file = name := by
                  unfold addGrid at ha
                  simp only [hu, attr] at ha
                  repeat' split at ha
                  all_goals first
                    | cases ha; done
                    | (simp only [Except.ok.injEq, Prod.mk.injEq] at ha
                       obtain ⟨rfl, rfl⟩ := ha
                       exact ⟨by simp only [hfile, if_neg hnold], _, rfl, hfile⟩)
                exact ih (k + 1) f' ob' hpos (by omega) (hkeep.1.trans hf) hkeep.2
      obtain ⟨e, he⟩ := key gs.length 0 fs1 o1 (List.length_pos_of_ne_nil hne) (by omega) hd1 hr1
      rw [he] at hc
      cases hc

/-! ### Concrete cases -/

/-- A toy arithmetic on four bytes: the operations act on the first byte. -/
def demoArith : Arith where
  times := fun _ e => match e with
    | a :: r => (2 * a) :: r
    | [] => []
  plus := fun _ e => match e with
    | a :: r => (a + 1) :: r
    | [] => []

/-- A stack of two grids with two cells, for a data type of `w` bytes. -/
def demoStack (w : ℕ) : List (List Elt) :=
  [[List.replicate w 3, List.replicate w 5], [List.replicate w 7, List.replicate w 9]]

/-- The directory with this stack in `a.rts`. -/
def demoDir (dt : String) (w : ℕ) : Fs where
  data := fun n => if n = "a.rts".toList then some (onDisk true (demoStack w)) else none
  rti := fun n => if n = "a.rti".toList then some
    { ncols := 2, nrows := 1, dataType := dt, byteOrder := "MSB", swapEndian := false } else none

/-- What a reader finds in `b.rts` after the conversion. -/
def demoRun (dt : String) (w : ℕ) (factor addVal : ℚ) : Except String (List (List Elt)) :=
  match openFile "LSB" (demoDir dt w) {} "a.rts".toList false with
  | .error e => .error e
  | .ok o =>
    match convertUnits demoArith (demoDir dt w) o "b.rts".toList factor addVal 3 with
    | .error e => .error e
    | .ok (_, fs2) =>
      match openFile "LSB" fs2 {} "b.rts".toList false with
      | .error e => .error e
      | .ok o3 =>
        match getGrid fs2 o3 0 "float32", getGrid fs2 o3 1 "float32" with
        | .ok a, .ok b => .ok [a, b]
        | _, _ => .error "read"

/-- The hypotheses are met by a stack in the other byte order. -/
example : Holds "LSB" (demoDir "FLOAT" 4) "a.rts".toList "float32" 2 1 true (demoStack 4) ∧
    (∀ g ∈ demoStack 4, Shaped (2 * 1) 4 g) ∧
    (∀ f e, e.length = 4 → (demoArith.times f e).length = 4) ∧
    (∀ a e, e.length = 4 → (demoArith.plus a e).length = 4) := by
  have hr : rtiName "a.rts".toList = "a.rti".toList := by decide +kernel
  refine ⟨⟨by simp [demoDir], _, by rw [hr]; simp [demoDir]; rfl, rfl, rfl, rfl, by decide⟩, ?_,
    ?_, ?_⟩
  · unfold Shaped demoStack; decide
  · intro f e he; cases e with
    | nil => simpa [demoArith] using he
    | cons a r => simpa [demoArith] using he
  · intro f e he; cases e with
    | nil => simpa [demoArith] using he
    | cons a r => simpa [demoArith] using he

/-- Twice the value plus one. -/
example : demoRun "FLOAT" 4 2 1
    = .ok [[[7, 3, 3, 3], [11, 5, 5, 5]], [[15, 7, 7, 7], [19, 9, 9, 9]]] := by decide +kernel

/-- **C268 (doubles, violated).**  A stack of `float64` grids is "converted"
without an error, even with factor one and nothing added, into a stack of
`float32` grids that are not the old ones: each grid consists of the halves of
the first elements of the old one. -/
theorem C268_double_violated :
    Holds "LSB" (demoDir "DOUBLE" 8) "a.rts".toList "float64" 2 1 true (demoStack 8) ∧
    demoRun "DOUBLE" 8 1 0
      = .ok [[[3, 3, 3, 3], [3, 3, 3, 3]], [[7, 7, 7, 7], [7, 7, 7, 7]]] := by
  have hr : rtiName "a.rts".toList = "a.rti".toList := by decide +kernel
  refine ⟨⟨by simp [demoDir], _, by rw [hr]; simp [demoDir]; rfl, rfl, rfl, rfl, by decide⟩, ?_⟩
  decide +kernel

end Rts
