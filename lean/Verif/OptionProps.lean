import Verif.OptionModel

/-!
# Options that older CFG files do not have (C240), new channel files (C241)
-/

set_option autoImplicit false

namespace Opts

/-! ## Specification -/

/-- The documented default of an option that the CFG file does not have. -/
def documented : Name → Option Val
  | .CHECK_STABILITY => some (.bool true)
  | .FLOOD_OPTION => some (.bool false)
  | .ATTENUATE => some (.bool false)
  | .min_baseflow_flux => some (.num 0)
  | .d_bankfull_type => some (.str "Scalar")
  | .d_bankfull => some (.num 10)
  | .d_bankfull_file => some (.str "")
  | .CREATE_CHANNEL_FILES => some (.bool false)
  | .slope_factor | .nval_factor | .z0val_factor | .width_factor | .angle_factor | .sinu_factor
  | .d0_factor | .d_bankfull_factor => some (.num 1)
  | _ => none

/-- The default of a parameter of an option that is in use. -/
def defaultInUse : Name → Option (Name × Val)
  | .n_days => some (.ATTENUATE, .num 5)
  | .max_river_width => some (.CREATE_CHANNEL_FILES, .num 140)
  | .channel_width_power => some (.CREATE_CHANNEL_FILES, .num (1 / 2))
  | .min_manning_n => some (.CREATE_CHANNEL_FILES, .num (3 / 100))
  | .max_manning_n => some (.CREATE_CHANNEL_FILES, .num (1 / 5))
  | .max_bankfull_depth => some (.CREATE_CHANNEL_FILES, .num 8)
  | .bankfull_depth_power => some (.CREATE_CHANNEL_FILES, .num (2 / 5))
  | _ => none

/-- What is computed rather than read. -/
def computed : List Name := [.min_baseflow_flux_mps, .vol_GW]

/-- The output of flood depths, which is switched off with the flood option. -/
def floodOutput : List Name := [.SAVE_DF_GRIDS, .SAVE_DF_PIXELS, .d_flood_gs_file, .d_flood_ts_file]

/-- The bankfull depth, whose type comes with it. -/
def bankfull : List Name := [.d_bankfull, .d_bankfull_file]

/-! ## Proofs -/

theorem put_same (a : Attrs) (n : Name) (v : Val) : put a n v n = some v := if_pos rfl

theorem put_other (a : Attrs) {n m : Name} (v : Val) (h : m ≠ n) : put a n v m = a m := if_neg h

theorem orElse_apply (a : Attrs) (n m : Name) (v : Val) :
    orElse a n v m = if m = n ∧ a n = none then some v else a m := by
  unfold orElse
  by_cases h : a n = none
  · rw [if_pos h]
    by_cases hm : m = n
    · rw [if_pos ⟨hm, h⟩, hm, put_same]
    · rw [if_neg (fun x => hm x.1), put_other a v hm]
  · rw [if_neg h, if_neg (fun x => h x.2)]

/-- The baseflow can be computed: it is missing or not a text. -/
def NumericBaseflow (a : Attrs) : Prop := ∀ s, a .min_baseflow_flux ≠ some (.str s)

theorem baseflow_apply {a b : Attrs} (h : baseflow a = .ok b) (n : Name) (hn : n ∉ computed) :
    b n = orElse a .min_baseflow_flux (.num 0) n := by
  unfold baseflow at h
  simp only at h
  simp only [computed, List.mem_cons, List.not_mem_nil, or_false, not_or] at hn
  split at h
  · rw [Except.ok.injEq] at h
    rw [← h, put_other _ _ hn.2, put_other _ _ hn.1]
  · rw [Except.ok.injEq] at h
    rw [← h, put_other _ _ hn.2, put_other _ _ hn.1]
  · cases h

theorem attenuate_apply (a : Attrs) (n : Name) : attenuateDefault a n =
    if n = .ATTENUATE ∧ a .ATTENUATE = none then some (.bool false)
    else if n = .n_days ∧ a .n_days = none ∧ (a .ATTENUATE).any isTrue = true then some (.num 5)
    else a n := by
  unfold attenuateDefault
  simp only [orElse_apply]
  cases hA : a .ATTENUATE with
  | none => simp [isTrue, orElse_apply, hA]
  | some v =>
    cases hv : isTrue v with
    | true => simp [hv, orElse_apply, hA]
    | false => simp [hv, orElse_apply, hA]

theorem flood_apply (a : Attrs) (n : Name) : floodDefault a n =
    if a .FLOOD_OPTION = none ∧ n ∈ [Name.FLOOD_OPTION, .SAVE_DF_GRIDS, .SAVE_DF_PIXELS]
    then some (.bool false) else a n := by
  unfold floodDefault
  by_cases h : a .FLOOD_OPTION = none
  · rw [if_pos h]
    cases n <;> simp [put, h]
  · rw [if_neg h, if_neg (fun x => h x.1)]

theorem bankfull_apply (a : Attrs) (n : Name) (hn : n ∉ bankfull ∨ a .d_bankfull_type ≠ none) :
    bankfullDefault a n =
      if n = .d_bankfull_type ∧ a .d_bankfull_type = none then some (.str "Scalar") else a n := by
  unfold bankfullDefault
  by_cases h : a .d_bankfull_type = none
  · rw [if_pos h]
    have hn' : n ∉ bankfull := hn.resolve_right (fun x => x h)
    simp only [bankfull, List.mem_cons, List.not_mem_nil, or_false, not_or] at hn'
    rw [put_other _ _ hn'.2, put_other _ _ hn'.1]
    by_cases hm : n = .d_bankfull_type
    · rw [if_pos ⟨hm, h⟩, hm, put_same]
    · rw [if_neg (fun x => hm x.1), put_other _ _ hm]
  · rw [if_neg h, if_neg (fun x => h x.2)]

theorem create_apply (a : Attrs) (n : Name) : createDefault a n =
    if n = .CREATE_CHANNEL_FILES ∧ a .CREATE_CHANNEL_FILES = none then some (.bool false)
    else match defaultInUse n with
      | some (.CREATE_CHANNEL_FILES, v) =>
        if a n = none ∧ (a .CREATE_CHANNEL_FILES).any isTrue = true then some v else a n
      | _ => a n := by
  unfold createDefault
  simp only [orElse_apply]
  cases hA : a .CREATE_CHANNEL_FILES with
  | none => cases n <;> simp [isTrue, orElse_apply, hA, defaultInUse]
  | some v =>
    cases hv : isTrue v with
    | true => cases n <;> simp [hv, orElse_apply, hA, defaultInUse]
    | false => cases n <;> simp [hv, orElse_apply, hA, defaultInUse]

/-- The names of the scale factors. -/
def factors : List Name :=
  [.slope_factor, .nval_factor, .z0val_factor, .width_factor, .angle_factor, .sinu_factor,
    .d0_factor, .d_bankfull_factor]

theorem factor_apply (a : Attrs) (n : Name) : factorDefaults a n =
    if n ∈ factors ∧ a n = none then some (.num 1) else a n := by
  unfold factorDefaults
  simp only [List.foldl_cons, List.foldl_nil, orElse_apply]
  cases n <;> simp [factors]

theorem noFlood_apply (a : Attrs) (n : Name) (h : n ∉ floodOutput ∨ (a .FLOOD_OPTION).any truthy = true) :
    noFlood a n = a n := by
  unfold noFlood
  by_cases hf : (a .FLOOD_OPTION).any truthy = true
  · rw [if_pos hf]
  · rw [if_neg hf]
    have hn := h.resolve_right hf
    simp only [floodOutput, List.mem_cons, List.not_mem_nil, or_false, not_or] at hn
    rw [put_other _ _ hn.2.2.2, put_other _ _ hn.2.2.1, put_other _ _ hn.2.1, put_other _ _ hn.1]

/-- The options after the start (with or without new channel files). -/
def options (a : Attrs) : Except String Attrs :=
  match channelsMissing a with
  | .error e => .error e
  | .ok b => .ok (noFlood b)

theorem chain {a b : Attrs} (h : channelsMissing a = .ok b) :
    ∃ c, baseflow (attenuateDefault (floodDefault (orElse a .CHECK_STABILITY (.bool true)))) = .ok c ∧
    b = factorDefaults (createDefault (bankfullDefault c)) := by
  unfold channelsMissing at h
  split at h
  · cases h
  · rename_i c hc'
    exact ⟨c, hc', (Except.ok.inj h).symm⟩

/-- The value of every attribute before the flood option is looked at. -/
theorem missing_apply {a b : Attrs} (h : channelsMissing a = .ok b) (n : Name) (hc : n ∉ computed)
    (hb : n ∉ bankfull ∨ a .d_bankfull_type ≠ none)
    (hf : n ∉ floodOutput ∨ a .FLOOD_OPTION ≠ none) :
    (∀ v, a n = some v → b n = some v) ∧
    (a n = none → ∀ v, documented n = some v → n ∉ bankfull → b n = some v) ∧
    (a n = none → ∀ m v w, defaultInUse n = some (m, v) → a m = some w → isTrue w = true →
      b n = some v) := by
  obtain ⟨c, h1, rfl⟩ := chain h
  have hcv : ∀ m, m ∉ computed → c m =
      orElse (attenuateDefault (floodDefault (orElse a .CHECK_STABILITY (.bool true))))
        .min_baseflow_flux (.num 0) m := fun m hm => baseflow_apply h1 m hm
  have hbt : n ∉ bankfull ∨ c .d_bankfull_type ≠ none := by
    refine hb.imp id fun hx => ?_
    rw [hcv _ (by simp [computed])]
    simpa [orElse_apply, attenuate_apply, flood_apply] using hx
  have hcc : c .CREATE_CHANNEL_FILES = a .CREATE_CHANNEL_FILES := by
    rw [hcv _ (by simp [computed])]
    simp [orElse_apply, attenuate_apply, flood_apply]
  have hct : c .d_bankfull_type = a .d_bankfull_type := by
    rw [hcv _ (by simp [computed])]
    simp [orElse_apply, attenuate_apply, flood_apply]
  simp only [factor_apply, create_apply, bankfull_apply c n hbt,
    bankfull_apply c .CREATE_CHANNEL_FILES (.inl (by simp [bankfull])), hcc, hct, hcv n hc,
    orElse_apply, attenuate_apply, flood_apply]
  refine ⟨?_, ?_, ?_⟩
  · intro v hv
    cases n <;> simp_all [factors, defaultInUse, computed, bankfull, floodOutput]
  · intro hv v hd hnb
    cases n <;> simp_all [factors, defaultInUse, computed, bankfull, floodOutput, documented]
  · intro hv m v w hm hw ht
    cases n <;> simp only [defaultInUse, Option.some.injEq, Prod.mk.injEq, reduceCtorEq] at hm <;>
      obtain ⟨rfl, rfl⟩ := hm <;> simp [factors, hv, hw, ht, defaultInUse]

/-- The start succeeds unless the baseflow is a text. -/
theorem missing_ok (a : Attrs) (hn : NumericBaseflow a) : ∃ b, channelsMissing a = .ok b := by
  have h0 : ∀ s, attenuateDefault (floodDefault (orElse a .CHECK_STABILITY (.bool true)))
      .min_baseflow_flux ≠ some (.str s) := by
    intro s
    simpa [attenuate_apply, flood_apply, orElse_apply] using hn s
  generalize hd : attenuateDefault (floodDefault (orElse a .CHECK_STABILITY (.bool true))) = d at h0
  have hb : ∃ c, baseflow d = .ok c := by
    unfold baseflow
    simp only [orElse_apply, true_and]
    cases hx : d .min_baseflow_flux with
    | none => exact ⟨_, rfl⟩
    | some v =>
      cases v with
      | bool t => exact ⟨_, rfl⟩
      | num x => exact ⟨_, rfl⟩
      | str s => exact absurd hx (h0 s)
  obtain ⟨c, hc⟩ := hb
  unfold channelsMissing
  rw [hd, hc]
  exact ⟨_, rfl⟩

/-! ## C240 -/

/-- **C240 (partial).** With a baseflow that is not a text the options are always set; an option that
the CFG file gives keeps its value, one that is missing gets its documented default, and the parameters
of an option in use get theirs.  Missing: the bankfull depth given without its type
(`C240_bankfull_violated`); the output of flood depths goes with the flood option. -/
theorem C240_options_partial (a : Attrs) (hn : NumericBaseflow a) :
    ∃ b, options a = .ok b ∧
    (∀ n v, a n = some v → n ∉ computed → (n ∉ bankfull ∨ a .d_bankfull_type ≠ none) →
      (n ∉ floodOutput ∨ (a .FLOOD_OPTION).any truthy = true) → b n = some v) ∧
    (∀ n v, a n = none → documented n = some v → (n ∉ bankfull ∨ a .d_bankfull_type = none) →
      b n = some v) ∧
    (∀ n m v w, a n = none → defaultInUse n = some (m, v) → a m = some w → isTrue w = true →
      b n = some v) := by
  obtain ⟨b, hb⟩ := missing_ok a hn
  refine ⟨noFlood b, by unfold options; rw [hb], ?_, ?_, ?_⟩
  · intro n v hv hc hk hf
    have hfl : n ∉ floodOutput ∨ (b .FLOOD_OPTION).any truthy = true := by
      refine hf.imp id fun ht => ?_
      cases hx : a .FLOOD_OPTION with
      | none => rw [hx] at ht; simp at ht
      | some w =>
        have := (missing_apply hb .FLOOD_OPTION (by simp [computed]) (.inl (by simp [bankfull]))
          (.inl (by simp [floodOutput]))).1 w hx
        rw [this, ← hx]
        exact ht
    rw [noFlood_apply b n hfl]
    refine (missing_apply hb n hc hk (hf.imp id fun ht hx => ?_)).1 v hv
    rw [hx] at ht
    simp at ht
  · intro n v hv hd hk
    have hnf : n ∉ floodOutput := by
      cases n <;> simp_all [documented, floodOutput]
    have hc : n ∉ computed := by
      cases n <;> simp_all [documented, computed]
    rw [noFlood_apply b n (.inl hnf)]
    by_cases hbk : n ∈ bankfull
    · have ht := hk.resolve_left (fun x => x hbk)
      obtain ⟨c, h1, rfl⟩ := chain hb
      have hct : c .d_bankfull_type = none := by
        rw [baseflow_apply h1 _ (by simp [computed])]
        simpa [orElse_apply, attenuate_apply, flood_apply] using ht
      rw [factor_apply, create_apply]
      unfold bankfullDefault
      rw [if_pos hct]
      cases n <;> simp_all [bankfull, factors, defaultInUse, documented, put]
    · exact (missing_apply hb n hc (.inl hbk) (.inl hnf)).2.1 hv v hd hbk
  · intro n m v w hv hm hw ht
    have hnf : n ∉ floodOutput := by
      cases n <;> simp_all [defaultInUse, floodOutput]
    have hc : n ∉ computed := by
      cases n <;> simp_all [defaultInUse, computed]
    have hbk : n ∉ bankfull := by
      cases n <;> simp_all [defaultInUse, bankfull]
    rw [noFlood_apply b n (.inl hnf)]
    exact (missing_apply hb n hc (.inl hbk) (.inl hnf)).2.2 hv m v w hm hw ht

/-- **C240 (flood output).** Without the flood option, given or missing, no flood depths are saved,
whatever the CFG file says. -/
theorem C240_flood (a : Attrs) (hn : NumericBaseflow a)
    (ht : (a .FLOOD_OPTION).any truthy = false) :
    ∃ b, options a = .ok b ∧ b .SAVE_DF_GRIDS = some (.bool false) ∧
      b .SAVE_DF_PIXELS = some (.bool false) ∧ b .d_flood_gs_file = some (.str "") ∧
      b .d_flood_ts_file = some (.str "") := by
  obtain ⟨b, hb⟩ := missing_ok a hn
  have hf : ¬ (b .FLOOD_OPTION).any truthy = true := by
    have h := missing_apply hb .FLOOD_OPTION (by simp [computed]) (.inl (by simp [bankfull]))
      (.inl (by simp [floodOutput]))
    cases hx : a .FLOOD_OPTION with
    | none => rw [h.2.1 hx _ rfl (by simp [bankfull])]; simp [truthy]
    | some w => rw [h.1 w hx, ← hx, ht]; simp
  refine ⟨noFlood b, by unfold options; rw [hb], ?_⟩
  unfold noFlood
  rw [if_neg hf]
  simp [put]

/-- A CFG file with a bankfull depth of 2.5 m and without the line for its type. -/
def untyped : Attrs := fun n =>
  match n with
  | .d_bankfull => some (.num (5 / 2))
  | .width_file => some (.str "Treynor_chan-w.rtg")
  | _ => none

/-- **C240 (violated).** A bankfull depth that the CFG file gives without its type is replaced by
10 m. -/
theorem C240_bankfull_violated : ∃ a : Attrs, ∃ b, NumericBaseflow a ∧ options a = .ok b ∧
    a .d_bankfull = some (.num (5 / 2)) ∧ b .d_bankfull = some (.num 10) := by
  have hn : NumericBaseflow untyped := fun s => by simp [untyped]
  obtain ⟨b, hb⟩ := missing_ok untyped hn
  refine ⟨untyped, noFlood b, hn, by unfold options; rw [hb], rfl, ?_⟩
  obtain ⟨c, h1, rfl⟩ := chain hb
  have hct : c .d_bankfull_type = none := by
    rw [baseflow_apply h1 _ (by simp [computed])]
    simp [orElse_apply, attenuate_apply, flood_apply, untyped]
  rw [noFlood_apply _ _ (.inl (by simp [floodOutput])), factor_apply, create_apply]
  unfold bankfullDefault
  rw [if_pos hct]
  simp [factors, defaultInUse, put]

/-- The case is met: an old CFG file with the flood option and a scale factor. -/
def oldFile : Attrs := fun n =>
  match n with
  | .FLOOD_OPTION => some (.bool true)
  | .SAVE_DF_GRIDS => some (.bool true)
  | .width_factor => some (.num 2)
  | .ATTENUATE => some (.bool true)
  | _ => none

example : ∃ b, options oldFile = .ok b ∧ b .SAVE_DF_GRIDS = some (.bool true) ∧
    b .width_factor = some (.num 2) ∧ b .n_days = some (.num 5) ∧ b .sinu_factor = some (.num 1) ∧
    b .d_bankfull = some (.num 10) := by
  obtain ⟨b, h, k, d, u⟩ := C240_options_partial oldFile (fun s => by simp [oldFile])
  exact ⟨b, h, k _ _ rfl (by simp [computed]) (.inl (by simp [bankfull])) (.inr rfl),
    k _ _ rfl (by simp [computed]) (.inl (by simp [bankfull])) (.inl (by simp [floodOutput])),
    u .n_days .ATTENUATE _ _ rfl rfl rfl rfl,
    d .sinu_factor _ rfl rfl (.inl (by simp [bankfull])), d .d_bankfull _ rfl rfl (.inr rfl)⟩

example : options oldFile ≠ .error "TypeError" := by
  obtain ⟨b, h, _⟩ := C240_options_partial oldFile (fun s => by simp [oldFile])
  rw [h]
  simp

/-! ## C241 -/

/-- **C241 (violated).** With the option to create channel files the channels component never starts:
whatever else the CFG file gives, as long as it has no entry `manning_file` (no CFG file has). -/
theorem C241_create_violated (a : Attrs) (v : Val) (hv : a .CREATE_CHANNEL_FILES = some v)
    (ht : truthy v = true) (hm : a .manning_file = none) : ∃ e, channelsStart a = .error e := by
  unfold channelsStart
  cases h : channelsMissing a with
  | error e => exact ⟨e, rfl⟩
  | ok b =>
    have hC : b .CREATE_CHANNEL_FILES = some v := (missing_apply h .CREATE_CHANNEL_FILES
      (by simp [computed]) (.inl (by simp [bankfull])) (.inl (by simp [floodOutput]))).1 v hv
    have hM : b .manning_file = none := by
      obtain ⟨c, h1, rfl⟩ := chain h
      have hc : c .manning_file = none := by
        rw [baseflow_apply h1 _ (by simp [computed])]
        simp [orElse_apply, attenuate_apply, flood_apply, hm]
      rw [factor_apply, create_apply]
      simp [factors, defaultInUse, bankfull_apply c .manning_file (.inl (by simp [bankfull])), hc]
    have hC' : noFlood b .CREATE_CHANNEL_FILES = some v := by
      rw [noFlood_apply _ _ (.inl (by simp [floodOutput])), hC]
    have hM' : noFlood b .manning_file = none := by
      rw [noFlood_apply _ _ (.inl (by simp [floodOutput])), hM]
    simp only [bind, Except.bind]
    unfold createFiles
    rw [hC']
    simp only [Option.any_some, ht, if_true, bind, Except.bind]
    have hg : get (noFlood b) .manning_file = .error "AttributeError" := by
      unfold get; rw [hM']
    cases get (noFlood b) .width_file with
    | error e => exact ⟨e, rfl⟩
    | ok w =>
      cases get (noFlood b) .max_river_width with
      | error e => exact ⟨e, rfl⟩
      | ok w =>
        cases get (noFlood b) .channel_width_power with
        | error e => exact ⟨e, rfl⟩
        | ok w => rw [hg]; exact ⟨_, rfl⟩

/-- **C241 (partial).** Without the option, given as off or missing, no channel file is written and the
start goes on with the options of C240.  Missing: the option itself (`C241_create_violated`). -/
theorem C241_off_partial (a : Attrs) (hn : NumericBaseflow a)
    (ht : (a .CREATE_CHANNEL_FILES).any truthy = false) :
    ∃ b, options a = .ok b ∧ channelsStart a = .ok (b, []) := by
  obtain ⟨b, hb⟩ := missing_ok a hn
  have hC : (noFlood b .CREATE_CHANNEL_FILES).any truthy = false := by
    rw [noFlood_apply _ _ (.inl (by simp [floodOutput]))]
    have h := missing_apply hb .CREATE_CHANNEL_FILES (by simp [computed]) (.inl (by simp [bankfull]))
      (.inl (by simp [floodOutput]))
    cases hx : a .CREATE_CHANNEL_FILES with
    | none => rw [h.2.1 hx _ rfl (by simp [bankfull])]; simp [truthy]
    | some w => rw [h.1 w hx, ← hx, ht]
  refine ⟨noFlood b, by unfold options; rw [hb], ?_⟩
  unfold channelsStart
  rw [hb]
  simp only [bind, Except.bind]
  unfold createFiles
  rw [hC]
  rfl

/-- Both cases are met. -/
example : ∃ e, channelsStart (put untyped .CREATE_CHANNEL_FILES (.bool true)) = .error e :=
  C241_create_violated _ (.bool true) (put_same _ _ _) rfl rfl

example : ∃ b, options oldFile = .ok b ∧ channelsStart oldFile = .ok (b, []) :=
  C241_off_partial oldFile (fun s => by simp [oldFile]) rfl

end Opts
