import Verif.OutNameModel
import Verif.FilesProps

/-!
# C272: every output file is created in the output directory
-/

set_option autoImplicit false
set_option maxRecDepth 4000

namespace OutNameSpec

open Files (Name)

/-- What a configuration file offers: a switch, the entry with the name of the file, and whether grids are
saved (they are written as netCDF and as RTS) or values at the monitored cells (netCDF only). -/
abbrev Promise := String × String × Bool

/-- The files that must be created: for every switch that is on, in the directory `dir`, with the name of the
entry up to its extension. -/
def wanted (dir : Name) (base : String → Name) (on : String → Bool) (pr : List Promise) :
    List (String × List Name) :=
  (pr.filter (fun p => on p.1)).map fun p =>
    (p.1, if p.2.2 then [dir ++ base p.2.1 ++ ".nc".toList, dir ++ base p.2.1 ++ ".rts".toList]
      else [dir ++ base p.2.1 ++ ".nc".toList])

/-- The outputs of a component that are part of the options in use: flood depths belong to the flood option. -/
def inUse (on : String → Bool) (pr : List Promise) : List Promise :=
  pr.filter (fun p => on "FLOOD_OPTION" || (p.1 != "SAVE_DF_GRIDS" && p.1 != "SAVE_DF_PIXELS"))

/-- The entries of the configuration file are file names with an extension. -/
def Given (a : String → Option Name) (base ext : String → Name) (pr : List Promise) : Prop :=
  ∀ p ∈ pr, a p.2.1 = some (base p.2.1 ++ '.' :: ext p.2.1) ∧ '.' ∉ ext p.2.1

/-- The entries of the configuration file: channel flow. -/
def channels : List Promise :=
  [("SAVE_Q_GRIDS", "Q_gs_file", true), ("SAVE_U_GRIDS", "u_gs_file", true),
    ("SAVE_D_GRIDS", "d_gs_file", true), ("SAVE_F_GRIDS", "f_gs_file", true),
    ("SAVE_DF_GRIDS", "d_flood_gs_file", true), ("SAVE_Q_PIXELS", "Q_ts_file", false),
    ("SAVE_U_PIXELS", "u_ts_file", false), ("SAVE_D_PIXELS", "d_ts_file", false),
    ("SAVE_F_PIXELS", "f_ts_file", false), ("SAVE_DF_PIXELS", "d_flood_ts_file", false)]

/-- The entries of the configuration file: snow. -/
def snow : List Promise :=
  [("SAVE_MR_GRIDS", "mr_gs_file", true), ("SAVE_HS_GRIDS", "hs_gs_file", true),
    ("SAVE_SW_GRIDS", "sw_gs_file", true), ("SAVE_CC_GRIDS", "cc_gs_file", true),
    ("SAVE_MR_PIXELS", "mr_ts_file", false), ("SAVE_HS_PIXELS", "hs_ts_file", false),
    ("SAVE_SW_PIXELS", "sw_ts_file", false), ("SAVE_CC_PIXELS", "cc_ts_file", false)]

/-- The entries of the configuration file: meteorology. -/
def met : List Promise :=
  [("SAVE_EA_GRIDS", "ea_gs_file", true), ("SAVE_ES_GRIDS", "es_gs_file", true),
    ("SAVE_QSW_GRIDS", "Qsw_gs_file", true), ("SAVE_QLW_GRIDS", "Qlw_gs_file", true),
    ("SAVE_EMA_GRIDS", "ema_gs_file", true), ("SAVE_TSURF_GRIDS", "tsurf_gs_file", true),
    ("SAVE_ALB_GRIDS", "alb_gs_file", true), ("SAVE_EA_PIXELS", "ea_ts_file", false),
    ("SAVE_ES_PIXELS", "es_ts_file", false), ("SAVE_QSW_PIXELS", "Qsw_ts_file", false),
    ("SAVE_QLW_PIXELS", "Qlw_ts_file", false), ("SAVE_EMA_PIXELS", "ema_ts_file", false),
    ("SAVE_TSURF_PIXELS", "tsurf_ts_file", false), ("SAVE_ALB_PIXELS", "alb_ts_file", false)]

/-- The entries of the configuration file: groundwater. -/
def satzone : List Promise :=
  [("SAVE_GW_GRIDS", "GW_gs_file", true), ("SAVE_HT_GRIDS", "h_table_gs_file", true),
    ("SAVE_DF_GRIDS", "d_freeze_gs_file", true), ("SAVE_DT_GRIDS", "d_thaw_gs_file", true),
    ("SAVE_GW_PIXELS", "GW_ts_file", false), ("SAVE_HT_PIXELS", "h_table_ts_file", false),
    ("SAVE_DF_PIXELS", "d_freeze_ts_file", false), ("SAVE_DT_PIXELS", "d_thaw_ts_file", false)]

/-- The entries of the configuration file: evaporation. -/
def evap : List Promise :=
  [("SAVE_ET_GRIDS", "ET_gs_file", true), ("SAVE_ET_PIXELS", "ET_ts_file", false)]

/-- The entries of the configuration file: valley glacier. -/
def ice : List Promise :=
  [("SAVE_HI_GRIDS", "hi_gs_file", true), ("SAVE_ZI_GRIDS", "zi_gs_file", true),
    ("SAVE_MR_GRIDS", "mr_gs_file", true), ("SAVE_HI_PIXELS", "hi_ts_file", false),
    ("SAVE_ZI_PIXELS", "zi_ts_file", false), ("SAVE_MR_PIXELS", "mr_ts_file", false)]

/-- The entries of the configuration file: glacier melt. -/
def glacier : List Promise :=
  [("SAVE_SMR_GRIDS", "smr_gs_file", true), ("SAVE_HS_GRIDS", "hs_gs_file", true),
    ("SAVE_SW_GRIDS", "sw_gs_file", true), ("SAVE_CC_GRIDS", "cc_gs_file", true),
    ("SAVE_IMR_GRIDS", "imr_gs_file", true), ("SAVE_HI_GRIDS", "hi_gs_file", true),
    ("SAVE_IW_GRIDS", "iw_gs_file", true), ("SAVE_CCI_GRIDS", "cci_gs_file", true),
    ("SAVE_TMR_GRIDS", "tmr_gs_file", true), ("SAVE_SMR_PIXELS", "smr_ts_file", false),
    ("SAVE_HS_PIXELS", "hs_ts_file", false), ("SAVE_SW_PIXELS", "sw_ts_file", false),
    ("SAVE_CC_PIXELS", "cc_ts_file", false), ("SAVE_IMR_PIXELS", "imr_ts_file", false),
    ("SAVE_HI_PIXELS", "hi_ts_file", false), ("SAVE_IW_PIXELS", "iw_ts_file", false),
    ("SAVE_CCI_PIXELS", "cci_ts_file", false), ("SAVE_TMR_PIXELS", "tmr_ts_file", false)]

/-- The entries of the configuration file: landscape evolution. -/
def erode : List Promise :=
  [("SAVE_Z_GRIDS", "z_gs_file", true), ("SAVE_S_GRIDS", "S_gs_file", true),
    ("SAVE_A_GRIDS", "A_gs_file", true), ("SAVE_Q_GRIDS", "Q_gs_file", true),
    ("SAVE_QS_GRIDS", "Qs_gs_file", true), ("SAVE_DZ_GRIDS", "dz_gs_file", true),
    ("SAVE_DT_GRIDS", "dt_gs_file", true), ("SAVE_DZ_DT_GRIDS", "dz_dt_gs_file", true),
    ("SAVE_Z_PIXELS", "z_ts_file", false), ("SAVE_S_PIXELS", "S_ts_file", false),
    ("SAVE_A_PIXELS", "A_ts_file", false), ("SAVE_Q_PIXELS", "Q_ts_file", false),
    ("SAVE_QS_PIXELS", "Qs_ts_file", false), ("SAVE_DZ_PIXELS", "dz_ts_file", false),
    ("SAVE_DT_PIXELS", "dt_ts_file", false), ("SAVE_DZ_DT_PIXELS", "dz_dt_ts_file", false)]

/-- The entries of the configuration file: Richards infiltration (without cubes). -/
def richards : List Promise :=
  [("SAVE_V0_GRIDS", "v0_gs_file", true), ("SAVE_I_GRIDS", "I_gs_file", true),
    ("SAVE_Q0_GRIDS", "q0_gs_file", true), ("SAVE_ZW_GRIDS", "Zw_gs_file", true),
    ("SAVE_V0_PIXELS", "v0_ts_file", false), ("SAVE_I_PIXELS", "I_ts_file", false),
    ("SAVE_Q0_PIXELS", "q0_ts_file", false), ("SAVE_ZW_PIXELS", "Zw_ts_file", false),
    ("SAVE_Q_PROFILES", "q_ps_file", false), ("SAVE_P_PROFILES", "p_ps_file", false),
    ("SAVE_K_PROFILES", "K_ps_file", false), ("SAVE_V_PROFILES", "v_ps_file", false)]

/-- The entries of the configuration file: flow grids. -/
def d8 : List Promise :=
  [("SAVE_CODE_GRIDS", "code_gs_file", true), ("SAVE_AREA_GRIDS", "area_gs_file", true),
    ("SAVE_DS_GRIDS", "ds_gs_file", true), ("SAVE_DW_GRIDS", "dw_gs_file", true),
    ("SAVE_CODE_PIXELS", "code_ts_file", false), ("SAVE_AREA_PIXELS", "area_ts_file", false),
    ("SAVE_DS_PIXELS", "ds_ts_file", false), ("SAVE_DW_PIXELS", "dw_ts_file", false)]

/-- The switches for profiles of the soil. -/
def profiles : List String := ["SAVE_Q_PROFILES", "SAVE_P_PROFILES", "SAVE_K_PROFILES", "SAVE_V_PROFILES"]

/-- The switches of the other infiltration components. -/
def greenAmpt : List Promise :=
  [("SAVE_V0_GRIDS", "v0_gs_file", true), ("SAVE_I_GRIDS", "I_gs_file", true),
    ("SAVE_Q0_GRIDS", "q0_gs_file", true), ("SAVE_ZW_GRIDS", "Zw_gs_file", true),
    ("SAVE_V0_PIXELS", "v0_ts_file", false), ("SAVE_I_PIXELS", "I_ts_file", false),
    ("SAVE_Q0_PIXELS", "q0_ts_file", false), ("SAVE_ZW_PIXELS", "Zw_ts_file", false)]

end OutNameSpec

namespace OutName

open Files (Name)
open OutNameSpec (Promise wanted Given)

theorem mapKeys_spec (f : Name → Name) (s : String → Name) : ∀ (ks : List String) (a : Attrs), ks.Nodup →
    (∀ k ∈ ks, a k = some (s k)) →
    mapKeys f ks a = .ok (fun k => if k ∈ ks then some (f (s k)) else a k) := by
  intro ks
  induction ks with
  | nil => intro a _ _; simp [mapKeys]
  | cons k ks ih =>
    intro a hn ha
    rw [List.nodup_cons] at hn
    rw [mapKeys, ha k (by simp)]
    dsimp only
    rw [ih _ hn.2]
    · congr 1
      funext j
      by_cases hj : j = k
      · subst hj; simp [hn.1]
      · simp [hj, Function.update_of_ne hj]
    · intro j hj
      have : j ≠ k := fun h => hn.1 (h ▸ hj)
      rw [Function.update_of_ne this, ha j (by simp [hj])]

/-- The attribute a synonym stands for. -/
def src : List (String × String) → String → String
  | [], k => k
  | (new, old) :: l, k => if k = new then old else src l k

theorem src_cases (l : List (String × String)) (k : String) :
    src l k ∈ l.map Prod.snd ∨ (src l k = k ∧ k ∉ l.map Prod.fst) := by
  induction l with
  | nil => right; simp [src]
  | cons p l ih =>
    obtain ⟨new, old⟩ := p
    by_cases h : k = new
    · left; simp [src, h]
    · rcases ih with ih | ih
      · left; simp only [src, h, if_false, List.map_cons, List.mem_cons]; right; exact ih
      · right; simpa [src, h] using ih

theorem synonyms_spec : ∀ (l : List (String × String)) (a : Attrs) (k : String), (l.map Prod.fst).Nodup →
    (∀ x ∈ l.map Prod.snd, x ∉ l.map Prod.fst) → synonyms l a k = a (src l k) := by
  intro l
  induction l with
  | nil => intro a k _ _; rfl
  | cons p l ih =>
    obtain ⟨new, old⟩ := p
    intro a k hn hd
    rw [List.map_cons, List.nodup_cons] at hn
    have hd' : ∀ x ∈ l.map Prod.snd, x ∉ l.map Prod.fst := fun x hx h =>
      hd x (by rw [List.map_cons]; exact List.mem_cons_of_mem _ hx)
        (by rw [List.map_cons]; exact List.mem_cons_of_mem _ h)
    rw [synonyms, ih _ _ hn.2 hd']
    by_cases hk : k = new
    · have : src l k = k := by
        rcases src_cases l k with h | h
        · subst hk
          clear h
          have h2 : ∀ (m : List (String × String)), k ∉ m.map Prod.fst → src m k = k := by
            intro m
            induction m with
            | nil => intro _; rfl
            | cons q m ihm =>
              obtain ⟨x, y⟩ := q
              intro hm
              simp only [List.map_cons, List.mem_cons, not_or] at hm
              simp only [src, hm.1, if_false]
              exact ihm hm.2
          exact h2 l hn.1
        · exact h.1
      rw [this, hk]
      simp [src]
    · have : src l k ≠ new := by
        rcases src_cases l k with h | h
        · intro he
          exact hd new (by rw [List.map_cons]; exact List.mem_cons_of_mem _ (he ▸ h)) (by simp)
        · rw [h.1]; exact hk
      rw [Function.update_of_ne this]
      simp [src, hk]

theorem openRows_spec (suffix : String) (exts : List String) (on : String → Bool) (a : Attrs)
    (g : String × String → List Name) : ∀ (l : List (String × String)),
    (∀ r ∈ l, on r.1 = true → ∃ s, a (r.2 ++ suffix) = some s ∧
      exts.map (fun e => Files.replaceExtension s e.toList) = g r) →
    openRows suffix exts on a l = .ok ((l.filter (fun r => on r.1)).map (fun r => (r.1, g r))) := by
  intro l
  induction l with
  | nil => intro _; rfl
  | cons r l ih =>
    obtain ⟨flag, v⟩ := r
    intro h
    rw [openRows]
    have ih' := ih (fun r hr => h r (List.mem_cons_of_mem _ hr))
    by_cases ho : on flag = true
    · obtain ⟨s, h1, h2⟩ := h (flag, v) (by simp) ho
      rw [if_pos ho, h1]
      dsimp only
      rw [ih']
      dsimp only
      rw [h2]
      simp [ho]
    · rw [if_neg ho, ih']
      simp [ho]

/-- The conditions on the tables of a component that the proof needs; they are checked for each. -/
def Fits (c : Comp) (pr : List Promise) : Prop :=
  c.rtg.Nodup ∧ c.keys.Nodup ∧ (∀ k ∈ c.rtg, k ∈ c.keys) ∧
  (∀ k ∈ c.keys, k ∈ pr.map (fun p => p.2.1)) ∧
  (c.syn.map Prod.fst).Nodup ∧ (∀ x ∈ c.syn.map Prod.snd, x ∉ c.syn.map Prod.fst) ∧
  c.gs.map (fun r => (r.1, src c.syn (r.2 ++ "_gs_file"), true)) ++
    c.ts.map (fun r => (r.1, src c.syn (r.2 ++ "_ts_file"), false)) ++
    c.ps.map (fun r => (r.1, src c.syn (r.2 ++ "_ps_file"), false)) = pr ∧
  (∀ r ∈ c.ps, r.1 ∈ OutNameSpec.profiles)

instance (c : Comp) (pr : List Promise) : Decidable (Fits c pr) := by unfold Fits; infer_instance

theorem replace_dot (dir b e x : Name) (he : '.' ∉ e) :
    Files.replaceExtension (dir ++ (b ++ '.' :: e)) x = dir ++ b ++ x := by
  have : dir ++ (b ++ '.' :: e) = (dir ++ b) ++ ['.'] ++ e := by simp
  rw [Files.replaceExtension, this, Files.prefixOf_dot _ he]

theorem openFiles_raw (c : Comp) (pr : List Promise) (hf : Fits c pr) (dir : Name) (a : Attrs)
    (on : String → Bool) (s base : String → Name)
    (ha : ∀ k ∈ c.keys, a k = some (s k))
    (hps : ∀ r ∈ c.ps, on r.1 = false)
    (hon : ∀ p ∈ pr, on p.1 = true → a p.2.1 = some (s p.2.1))
    (hs : ∀ p ∈ pr, on p.1 = true → ∃ e, '.' ∉ e ∧
      (if p.2.1 ∈ c.keys then dir ++ (if p.2.1 ∈ c.rtg then toRtg (s p.2.1) else s p.2.1)
        else s p.2.1) = base p.2.1 ++ '.' :: e) :
    openFiles c dir a on = .ok (wanted [] base on pr) := by
  obtain ⟨h1, h2, h3, h4, h5, h6, h7, h8⟩ := hf
  have hm1 := mapKeys_spec toRtg s c.rtg a h1 (fun k hk => ha k (h3 k hk))
  have hm2 := mapKeys_spec (dir ++ ·) (fun k => if k ∈ c.rtg then toRtg (s k) else s k) c.keys
    (fun k => if k ∈ c.rtg then some (toRtg (s k)) else a k) h2 (by
      intro k hk
      by_cases hr : k ∈ c.rtg
      · simp [hr]
      · simp [hr, ha k hk])
  rw [openFiles, updateNames, hm1]
  dsimp only
  rw [hm2]
  dsimp only
  have key : ∀ (suffix : String) (exts : List String) (g : Bool) (l : List (String × String)),
      (∀ r ∈ l, (r.1, src c.syn (r.2 ++ suffix), g) ∈ pr) →
      openRows suffix exts on (synonyms c.syn (fun k => if k ∈ c.keys then
          some (dir ++ (if k ∈ c.rtg then toRtg (s k) else s k))
        else if k ∈ c.rtg then some (toRtg (s k)) else a k)) l =
      .ok ((l.filter (fun r => on r.1)).map (fun r =>
        (r.1, exts.map (fun e => [] ++ base (src c.syn (r.2 ++ suffix)) ++ e.toList)))) := by
    intro suffix exts g l hl
    refine openRows_spec suffix exts on _ _ l ?_
    intro r hr ho
    have hp := hl r hr
    have hk := hon _ hp ho
    obtain ⟨e, he, hse⟩ := hs _ hp ho
    dsimp only at hk hse
    refine ⟨base (src c.syn (r.2 ++ suffix)) ++ '.' :: e, ?_, ?_⟩
    · rw [synonyms_spec _ _ _ h5 h6]
      by_cases hkk : src c.syn (r.2 ++ suffix) ∈ c.keys
      · simp only [hkk, if_true] at hse ⊢
        rw [hse]
      · have hkr : src c.syn (r.2 ++ suffix) ∉ c.rtg := fun h => hkk (h3 _ h)
        simp only [hkk, hkr, if_false] at hse ⊢
        rw [hk, hse]
    · refine List.map_congr_left ?_
      intro x _
      exact replace_dot [] _ _ _ he
  rw [key "_gs_file" _ true c.gs (fun r hr => by
      rw [← h7]; simp only [List.mem_append, List.mem_map]; left; left; exact ⟨r, hr, rfl⟩)]
  dsimp only
  rw [key "_ts_file" _ false c.ts (fun r hr => by
      rw [← h7]; simp only [List.mem_append, List.mem_map]; left; right; exact ⟨r, hr, rfl⟩)]
  dsimp only
  have hoff : ∀ r ∈ c.ps, on r.1 = false := hps
  rw [if_neg (by
    rw [Bool.not_eq_true, List.any_eq_false]
    intro r hr; simp [hoff r hr])]
  rw [← h7]
  have hnil : (c.ps.map (fun r => ((r.1, src c.syn (r.2 ++ "_ps_file"), false) : Promise))).filter
      (fun p => on p.1) = [] := by
    rw [List.filter_eq_nil_iff]
    intro p hp
    obtain ⟨r, hr, rfl⟩ := List.mem_map.1 hp
    simp [hoff r hr]
  rw [wanted, List.filter_append, hnil]
  simp only [List.append_nil, List.filter_append, List.map_append, List.filter_map, List.map_map]
  rfl

theorem openFiles_spec (c : Comp) (pr : List Promise) (hf : Fits c pr) (dir : Name) (a : Attrs)
    (on : String → Bool) (s base : String → Name)
    (ha : ∀ k ∈ c.keys, a k = some (s k))
    (hps : ∀ r ∈ c.ps, on r.1 = false)
    (hon : ∀ p ∈ pr, on p.1 = true → p.2.1 ∈ c.keys)
    (hs : ∀ p ∈ pr, on p.1 = true → ∃ e, '.' ∉ e ∧
      (if p.2.1 ∈ c.rtg then toRtg (s p.2.1) else s p.2.1) = base p.2.1 ++ '.' :: e) :
    openFiles c dir a on = .ok (wanted dir base on pr) := by
  rw [openFiles_raw c pr hf dir a on s (fun k => dir ++ base k) ha hps
    (fun p hp ho => ha _ (hon p hp ho)) ?_]
  · rfl
  · intro p hp ho
    obtain ⟨e, he, h⟩ := hs p hp ho
    refine ⟨e, he, ?_⟩
    rw [if_pos (hon p hp ho), h, List.append_assoc]

/-- The components whose output files all get the output directory, with what their configuration files
offer. -/
def components : List (Comp × List Promise) :=
  [(snow, OutNameSpec.snow), (satzone, OutNameSpec.satzone), (evap, OutNameSpec.evap), (ice, OutNameSpec.ice),
    (glacier, OutNameSpec.glacier), (erode, OutNameSpec.erode), (richards, OutNameSpec.richards)]

theorem components_fit : ∀ x ∈ components, Fits x.1 x.2 ∧ x.1.rtg = [] ∧
    (∀ p ∈ x.2, p.2.1 ∈ x.1.keys) ∧ x.1.off = [] ∧ x.1.needs = [] ∧ x.1.blank = [] ∧
    x.1.silent = [] := by
  decide +kernel

theorem openOutput_plain (c : Comp) (dir : Name) (a : Attrs) (on : String → Bool) (h1 : c.off = [])
    (h2 : c.needs = []) (h3 : c.blank = []) (h4 : c.silent = []) :
    openOutput c dir a on = openFiles c dir a on := by
  have e1 : effective c on = on := by
    funext f; simp [effective, h1, h2]
  have e2 : blanked c on a = a := by
    funext k; simp [blanked, h3]
  simp [openOutput, e1, e2, h4]

/-- Missing: names without an extension, the flow grids with a second dot in a name, two outputs of three
infiltration components and the profiles of the soil (theorems below).  For the seven components of the list,
every combination of the other switches, every output directory and all file names with an extension: the
files that are created are those asked for, in the output directory, and nothing else. -/
theorem C272_directory_partial (c : Comp) (pr : List Promise) (hc : (c, pr) ∈ components) (dir : Name)
    (a : Attrs) (base ext : String → Name) (on : String → Bool) (ha : Given a base ext pr)
    (hps : ∀ f ∈ OutNameSpec.profiles, on f = false) :
    openOutput c dir a on = .ok (wanted dir base on pr) := by
  obtain ⟨hf, hr, hk, o1, o2, o3, o4⟩ := components_fit _ hc
  dsimp only at hf hr hk o1 o2 o3 o4
  rw [openOutput_plain c dir a on o1 o2 o3 o4]
  refine openFiles_spec c pr hf dir a on (fun k => base k ++ '.' :: ext k) base ?_
    (fun r hr => hps _ (hf.2.2.2.2.2.2.2 r hr)) ?_ ?_
  · intro k hkk
    obtain ⟨p, hp, rfl⟩ := List.mem_map.1 (hf.2.2.2.1 k hkk)
    exact (ha p hp).1
  · exact fun p hp _ => hk p hp
  · intro p hp _
    exact ⟨ext p.2.1, (ha p hp).2, by simp [hr]⟩

/-- Channel flow: flood depths are saved only with the flood option, whose file names are not needed
otherwise. -/
theorem C272_channels_partial (dir : Name) (a : Attrs) (base ext : String → Name) (on : String → Bool)
    (ha : Given a base ext (OutNameSpec.inUse on OutNameSpec.channels)) :
    openOutput channels dir a on = .ok (wanted dir base on (OutNameSpec.inUse on OutNameSpec.channels)) := by
  have hf : Fits channels OutNameSpec.channels ∧ channels.rtg = [] ∧
    ∀ p ∈ OutNameSpec.channels, p.2.1 ∈ channels.keys := by decide +kernel
  have hs : openOutput channels dir a on =
      openFiles channels dir (blanked channels on a) (effective channels on) := by
    simp [openOutput, channels]
  rw [hs]
  have hin : ∀ p ∈ OutNameSpec.channels, effective channels on p.1 = true →
      p ∈ OutNameSpec.inUse on OutNameSpec.channels := by
    intro p hp ho
    unfold OutNameSpec.inUse
    rw [List.mem_filter]
    refine ⟨hp, ?_⟩
    simp only [effective, channels, List.contains_nil, Bool.not_false, Bool.and_true, List.all_cons,
      List.all_nil, Bool.and_eq_true, Bool.or_eq_true, bne_iff_ne, ne_eq] at ho ⊢
    obtain ⟨-, h1, h2⟩ := ho
    rcases h1 with h1 | h1
    · rcases h2 with h2 | h2
      · exact Or.inr ⟨fun h => h1 h.symm, fun h => h2 h.symm⟩
      · exact Or.inl h2
    · exact Or.inl h1
  rw [openFiles_spec channels _ hf.1 dir _ _ (fun k => if channels.blank.any
      (fun r => r.1 == k && !on r.2) then [] else base k ++ '.' :: ext k) base ?_
    (fun r hr => by cases (show r ∈ ([] : List (String × String)) from hr)) (fun p hp _ => hf.2.2 p hp) ?_]
  · congr 1
    unfold wanted OutNameSpec.inUse
    rw [List.filter_filter]
    congr 1
    refine List.filter_congr ?_
    intro p hp
    have hne : ∀ f : String, ("SAVE_DF_GRIDS" != f) = (f != "SAVE_DF_GRIDS") ∧
        ("SAVE_DF_PIXELS" != f) = (f != "SAVE_DF_PIXELS") := by
      intro f; constructor <;> exact bne_comm
    simp only [effective, channels, List.contains_nil, Bool.not_false, Bool.and_true, List.all_cons,
      List.all_nil, (hne p.1).1, (hne p.1).2]
    cases on p.1 <;> cases on "FLOOD_OPTION" <;> simp
  · intro k hkk
    by_cases hb : channels.blank.any (fun r => r.1 == k && !on r.2) = true
    · simp [blanked, hb]
    · have hkey : ∀ k ∈ channels.keys, ∃ p ∈ OutNameSpec.channels, p.2.1 = k ∧
          ((p.1 ≠ "SAVE_DF_GRIDS" ∧ p.1 ≠ "SAVE_DF_PIXELS") ∨
            k = "d_flood_gs_file" ∨ k = "d_flood_ts_file") := by decide +kernel
      obtain ⟨p, hp, rfl, hor⟩ := hkey k hkk
      have hm : p ∈ OutNameSpec.inUse on OutNameSpec.channels := by
        unfold OutNameSpec.inUse
        rw [List.mem_filter]
        refine ⟨hp, ?_⟩
        rcases hor with h | h | h
        · simp [h.1, h.2]
        · have : on "FLOOD_OPTION" = true := by
            by_contra hc
            apply hb
            simp only [Bool.not_eq_true] at hc
            simp [channels, h, hc]
          simp [this]
        · have : on "FLOOD_OPTION" = true := by
            by_contra hc
            apply hb
            simp only [Bool.not_eq_true] at hc
            simp [channels, h, hc]
          simp [this]
      simp only [blanked, hb, Bool.false_eq_true, if_false]
      exact (ha p hm).1
  · intro p hp ho
    have hm := hin p hp ho
    have hb : channels.blank.any (fun r => r.1 == p.2.1 && !on r.2) = false := by
      have hkey : ∀ p ∈ OutNameSpec.channels, (p.2.1 = "d_flood_gs_file" ∨ p.2.1 = "d_flood_ts_file") →
          (p.1 = "SAVE_DF_GRIDS" ∨ p.1 = "SAVE_DF_PIXELS") := by decide +kernel
      by_cases hfl : on "FLOOD_OPTION" = true
      · simp [channels, hfl]
      · have hnot : ¬ (p.1 = "SAVE_DF_GRIDS" ∨ p.1 = "SAVE_DF_PIXELS") := by
          unfold OutNameSpec.inUse at hm
          rw [List.mem_filter] at hm
          have := hm.2
          simp only [hfl, Bool.false_or, Bool.and_eq_true, bne_iff_ne, ne_eq] at this
          tauto
        have := mt (hkey p hp) hnot
        rw [not_or] at this
        simp [channels, Ne.symm this.1, Ne.symm this.2]
    refine ⟨ext p.2.1, (ha p hm).2, ?_⟩
    simp [hb, hf.2.1]

example : Given (fun k => if k = "d_flood_gs_file" ∨ k = "d_flood_ts_file" then none
      else some (k.toList ++ ".nc".toList)) String.toList (fun _ => "nc".toList)
    (OutNameSpec.inUse (fun f => f == "SAVE_DF_GRIDS") OutNameSpec.channels) := by
  intro p hp
  have key : ∀ p ∈ OutNameSpec.inUse (fun f => f == "SAVE_DF_GRIDS") OutNameSpec.channels,
    ¬ (p.2.1 = "d_flood_gs_file" ∨ p.2.1 = "d_flood_ts_file") := by decide +kernel
  exact ⟨by simp only [key p hp, if_false]; rfl, by show '.' ∉ "nc".toList; decide⟩

/-- Meteorology: nothing is saved if the component is for precipitation only; otherwise what was asked for. -/
theorem C272_met_partial (dir : Name) (a : Attrs) (on : String → Bool) :
    (on "PRECIP_ONLY" = true → openOutput met dir a on = .ok []) ∧
    (on "PRECIP_ONLY" = false → ∀ base ext, Given a base ext OutNameSpec.met →
      openOutput met dir a on = .ok (wanted dir base on OutNameSpec.met)) := by
  have hf : Fits met OutNameSpec.met ∧ met.rtg = [] ∧
    ∀ p ∈ OutNameSpec.met, p.2.1 ∈ met.keys := by decide +kernel
  refine ⟨fun h => by simp [openOutput, met, h], fun h base ext ha => ?_⟩
  have e1 : effective met on = on := by
    funext f; simp [effective, met]
  have e2 : blanked met on a = a := by
    funext k; simp [blanked, met]
  have hs : openOutput met dir a on = openFiles met dir a on := by
    rw [openOutput, e1, e2]
    simp [met, h]
  rw [hs]
  refine openFiles_spec met _ hf.1 dir a on (fun k => base k ++ '.' :: ext k) base ?_
    (fun r hr => by cases (show r ∈ ([] : List (String × String)) from hr)) ?_ ?_
  · intro k hkk
    obtain ⟨p, hp, rfl⟩ := List.mem_map.1 (hf.1.2.2.2.1 k hkk)
    exact (ha p hp).1
  · exact fun p hp _ => hf.2.2 p hp
  · intro p hp _
    exact ⟨ext p.2.1, (ha p hp).2, by simp [hf.2.1]⟩

example : Given (fun k => some (k.toList ++ ".nc".toList)) String.toList (fun _ => "nc".toList)
    OutNameSpec.ice := by
  intro p _; exact ⟨rfl, by show '.' ∉ "nc".toList; decide⟩

theorem toRtg_dot (b e : Name) (hb : '.' ∉ b) : toRtg (b ++ '.' :: e) = b ++ '.' :: "rtg".toList := by
  have hfind : ∀ b : Name, '.' ∉ b → find '.' (b ++ '.' :: e) = some b.length := by
    intro b
    induction b with
    | nil => intro _; simp [find]
    | cons x b ih =>
      intro h
      simp only [List.mem_cons, not_or] at h
      simp [find, Ne.symm h.1, ih h.2]
  rw [toRtg, hfind b hb]
  dsimp only
  rw [List.drop_left, List.take_left]
  split
  · rfl
  · rename_i h
    rw [not_not] at h
    rw [h]; rfl

/-- The flow grids, for file names with exactly one dot. -/
theorem C272_flow_grids_partial (dir : Name) (a : Attrs) (base ext : String → Name) (on : String → Bool)
    (ha : Given a base ext OutNameSpec.d8) (hb : ∀ k, '.' ∉ base k) :
    openOutput d8 dir a on = .ok (wanted dir base on OutNameSpec.d8) := by
  have hf : Fits d8 OutNameSpec.d8 ∧ (∀ p ∈ OutNameSpec.d8, p.2.1 ∈ d8.keys) := by decide +kernel
  rw [openOutput_plain d8 dir a on rfl rfl rfl rfl]
  refine openFiles_spec d8 _ hf.1 dir a on (fun k => base k ++ '.' :: ext k) base ?_
    (fun r hr => by cases (show r ∈ ([] : List (String × String)) from hr)) ?_ ?_
  · intro k hkk
    obtain ⟨p, hp, rfl⟩ := List.mem_map.1 (hf.1.2.2.2.1 k hkk)
    exact (ha p hp).1
  · exact fun p hp _ => hf.2 p hp
  · intro p hp _
    by_cases hr : p.2.1 ∈ d8.rtg
    · exact ⟨"rtg".toList, by decide, by simp only [hr, if_true]; exact toRtg_dot _ _ (hb _)⟩
    · exact ⟨ext p.2.1, (ha p hp).2, by simp [hr]⟩

/-- The switches for soil moisture at the surface and for the depth of the wetting front. -/
def ignored : List String := ["SAVE_Q0_GRIDS", "SAVE_ZW_GRIDS", "SAVE_Q0_PIXELS", "SAVE_ZW_PIXELS"]

theorem greenAmpt_files (dir : Name) (a : Attrs) (base ext : String → Name) (on : String → Bool)
    (ha : Given a base ext (OutNameSpec.greenAmpt.filter (fun p => p.1 ∉ ignored))) :
    openOutput greenAmpt dir a on =
      .ok (wanted dir base (fun f => on f && decide (f ∉ ignored)) OutNameSpec.greenAmpt) := by
  have hf : Fits greenAmpt OutNameSpec.greenAmpt ∧
      (∀ p ∈ OutNameSpec.greenAmpt, p.1 ∉ ignored → p.2.1 ∈ greenAmpt.keys) ∧
      (∀ k ∈ greenAmpt.keys, k ∈ (OutNameSpec.greenAmpt.filter (fun p => p.1 ∉ ignored)).map
          (fun p => p.2.1)) ∧ greenAmpt.rtg = [] := by decide +kernel
  obtain ⟨hf, h1, h2, h3⟩ := hf
  have e1 : effective greenAmpt on = (fun f => on f && decide (f ∉ ignored)) := by
    funext f
    have : greenAmpt.off = ignored := rfl
    simp only [effective, this]
    simp [greenAmpt]
  have e2 : blanked greenAmpt on a = a := by
    funext k; simp [blanked, greenAmpt]
  have hs : openOutput greenAmpt dir a on =
      openFiles greenAmpt dir a (fun f => on f && decide (f ∉ ignored)) := by
    rw [openOutput, e1, e2]
    simp [greenAmpt]
  rw [hs]
  have hon : ∀ p : Promise, (on p.1 && decide (p.1 ∉ ignored)) = true → p.1 ∉ ignored := by
    intro p ho
    simp only [Bool.and_eq_true, decide_eq_true_eq] at ho
    exact ho.2
  refine openFiles_spec greenAmpt _ hf dir a _ (fun k => base k ++ '.' :: ext k) base ?_
    (fun r hr => by cases (show r ∈ ([] : List (String × String)) from hr)) ?_ ?_
  · intro k hkk
    obtain ⟨p, hp, rfl⟩ := List.mem_map.1 (h2 k hkk)
    exact (ha p hp).1
  · exact fun p hp ho => h1 p hp (hon p ho)
  · intro p hp ho
    refine ⟨ext p.2.1, (ha p ?_).2, by simp [h3]⟩
    rw [List.mem_filter]
    exact ⟨hp, by simpa using hon p ho⟩

/-- Green-Ampt, Smith-Parlange and Beven infiltration, as long as neither soil moisture at the surface nor
the depth of the wetting front is to be saved. -/
theorem C272_infiltration_partial (dir : Name) (a : Attrs) (base ext : String → Name) (on : String → Bool)
    (ha : Given a base ext (OutNameSpec.greenAmpt.filter (fun p =>
      p.1 ∉ ["SAVE_Q0_GRIDS", "SAVE_ZW_GRIDS", "SAVE_Q0_PIXELS", "SAVE_ZW_PIXELS"])))
    (hoff : ∀ f ∈ ["SAVE_Q0_GRIDS", "SAVE_ZW_GRIDS", "SAVE_Q0_PIXELS", "SAVE_ZW_PIXELS"], on f = false) :
    openOutput greenAmpt dir a on = .ok (wanted dir base on OutNameSpec.greenAmpt) := by
  rw [greenAmpt_files dir a base ext on ha]
  congr 2
  funext f
  by_cases h : f ∈ ignored
  · rw [hoff f h]; rfl
  · simp [h]

example : Given (fun k => some (k.toList ++ ".nc".toList)) String.toList (fun _ => "nc".toList)
    (OutNameSpec.greenAmpt.filter (fun p => p.1 ∉ ignored)) := by
  intro p _; exact ⟨rfl, by show '.' ∉ "nc".toList; decide⟩

/-- A name without an extension: the dot that is found is in the output directory, if there is one, and
the file is created outside of it.  (Shown for the discharge grids.) -/
theorem C272_no_extension_violated (d1 d2 n : Name) (hd : '.' ∉ d2) (hn : '.' ∉ n) :
    openOutput channels (d1 ++ '.' :: d2) (fun _ => some n) (fun f => f == "SAVE_Q_GRIDS") =
      .ok [("SAVE_Q_GRIDS", [d1 ++ ".nc".toList, d1 ++ ".rts".toList])] := by
  have hf : Fits channels OutNameSpec.channels ∧ channels.rtg = [] ∧
    ∀ p ∈ OutNameSpec.channels, p.2.1 ∈ channels.keys := by decide +kernel
  have hs : openOutput channels (d1 ++ '.' :: d2) (fun _ => some n) (fun f => f == "SAVE_Q_GRIDS") =
      openFiles channels (d1 ++ '.' :: d2) (blanked channels (fun f => f == "SAVE_Q_GRIDS") (fun _ => some n))
        (effective channels (fun f => f == "SAVE_Q_GRIDS")) := by
    simp [openOutput, channels]
  have hk : ∀ p ∈ OutNameSpec.channels, effective channels (fun f => f == "SAVE_Q_GRIDS") p.1 = true →
      p.2.1 = "Q_gs_file" := by decide +kernel
  rw [hs, openFiles_raw channels _ hf.1 _ _ _
    (fun k => if k = "d_flood_gs_file" ∨ k = "d_flood_ts_file" then [] else n) (fun _ => d1) ?_
    (fun r hr => by cases (show r ∈ ([] : List (String × String)) from hr)) ?_ ?_]
  · rfl
  · intro k _
    by_cases h : k = "d_flood_gs_file" ∨ k = "d_flood_ts_file"
    · rcases h with rfl | rfl <;> simp [blanked, channels]
    · rw [not_or] at h
      simp [blanked, channels, Ne.symm h.1, Ne.symm h.2, h.1, h.2]
  · intro p hp ho
    rw [hk p hp ho]
    simp [blanked, channels]
  · intro p hp ho
    refine ⟨d2 ++ n, by simp [hd, hn], ?_⟩
    rw [if_pos (hf.2.2 p hp), hk p hp ho]
    simp [hf.2.1]

example : '.' ∉ "b/out/".toList ∧ '.' ∉ "Q_grids".toList := by decide

/-- The flow grids with a dot in the common part of the names, as in a prefix with a version number: all
four outputs get the same file. -/
theorem C272_flow_grids_violated (dir p : Name) (q : String → Name) (hp : '.' ∉ p) :
    openOutput d8 dir (fun k => some (p ++ '.' :: q k))
      (fun f => f ∈ ["SAVE_CODE_GRIDS", "SAVE_AREA_GRIDS", "SAVE_DS_GRIDS", "SAVE_DW_GRIDS"]) =
      .ok (["SAVE_CODE_GRIDS", "SAVE_AREA_GRIDS", "SAVE_DS_GRIDS", "SAVE_DW_GRIDS"].map
        (fun f => (f, [dir ++ p ++ ".nc".toList, dir ++ p ++ ".rts".toList]))) := by
  have hf : Fits d8 OutNameSpec.d8 ∧ (∀ x ∈ OutNameSpec.d8, x.2.1 ∈ d8.keys) ∧
    (∀ x ∈ OutNameSpec.d8, x.1 ∈ ["SAVE_CODE_GRIDS", "SAVE_AREA_GRIDS", "SAVE_DS_GRIDS",
      "SAVE_DW_GRIDS"] → x.2.1 ∈ d8.rtg) := by decide +kernel
  rw [openOutput_plain d8 _ _ _ rfl rfl rfl rfl, openFiles_spec d8 _ hf.1 dir _ _ (fun k => p ++ '.' :: q k) (fun _ => p) (fun _ _ => rfl)
    (fun r hr => by cases (show r ∈ ([] : List (String × String)) from hr))
    (fun x hx _ => hf.2.1 x hx) ?_]
  · rfl
  · intro x hx ho
    have hr := hf.2.2 x hx (by simpa using ho)
    refine ⟨"rtg".toList, by decide, ?_⟩
    rw [if_pos hr]
    exact toRtg_dot _ _ hp

/-- Green-Ampt, Smith-Parlange and Beven infiltration: the switches for soil moisture at the surface and for the
depth of the wetting front are set to False at the start, so no file is created for them, without a message. -/
theorem C272_infiltration_violated (dir : Name) (a : Attrs) (base ext : String → Name) (on : String → Bool)
    (ha : Given a base ext OutNameSpec.greenAmpt) :
    ∃ r, openOutput greenAmpt dir a on = .ok r ∧
      (∀ f ∈ ["SAVE_Q0_GRIDS", "SAVE_ZW_GRIDS", "SAVE_Q0_PIXELS", "SAVE_ZW_PIXELS"],
        f ∉ r.map Prod.fst) ∧
      (on "SAVE_Q0_GRIDS" = true → openOutput greenAmpt dir a on ≠
        .ok (wanted dir base on OutNameSpec.greenAmpt)) := by
  have h := greenAmpt_files dir a base ext on (fun p hp => ha p (List.mem_of_mem_filter hp))
  have hno : ∀ f ∈ ignored, f ∉ (wanted dir base (fun f => on f && decide (f ∉ ignored))
      OutNameSpec.greenAmpt).map Prod.fst := by
    intro f hf hm
    simp only [wanted, List.map_map, List.mem_map, List.mem_filter, Function.comp] at hm
    obtain ⟨p, ⟨-, hp⟩, rfl⟩ := hm
    simp [hf] at hp
  refine ⟨_, h, hno, ?_⟩
  intro hq
  rw [h]
  intro he
  have he' := Except.ok.inj he
  apply hno "SAVE_Q0_GRIDS" (by decide)
  rw [he']
  simp only [wanted, List.map_map, List.mem_map, List.mem_filter, Function.comp]
  exact ⟨("SAVE_Q0_GRIDS", "q0_gs_file", true), ⟨by decide, hq⟩, rfl⟩

/-- Richards infiltration with a switch for profiles on: the opening of the output files fails, whatever
else is asked for (see also C137). -/
theorem C272_profiles_violated (dir : Name) (a : Attrs) (on : String → Bool)
    (h : ∃ f ∈ OutNameSpec.profiles, on f = true) : ∃ e, openOutput richards dir a on = .error e := by
  have hany : richards.ps.any (fun r => on r.1) = true := by
    obtain ⟨f, hf, ho⟩ := h
    have : ∃ r ∈ richards.ps, r.1 = f := by
      revert f
      intro f hf _
      have key : ∀ f ∈ OutNameSpec.profiles, ∃ r ∈ richards.ps, r.1 = f := by decide
      exact key f hf
    obtain ⟨r, hr, rfl⟩ := this
    exact List.any_eq_true.2 ⟨r, hr, ho⟩
  rw [openOutput_plain richards dir a on rfl rfl rfl rfl]
  unfold openFiles
  rw [hany]
  repeat' split
  all_goals first | exact ⟨_, rfl⟩ | simp_all

example : ∃ f ∈ OutNameSpec.profiles, (fun f => f == "SAVE_K_PROFILES") f = true := by decide

end OutName
