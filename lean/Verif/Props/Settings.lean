import Verif.Spec.Settings
import Verif.Props.Clean

/-!
# C166: the configuration; C167: runs with the configuration as it is loaded
-/

set_option linter.unusedSectionVars false

namespace Verif.Props

open Verif.Np Verif.Configuration Verif.Spec Verif.Helper Verif.Region Verif.Profile Verif.Update Verif.Spec.Profile Verif.Level Verif.Finders
open Verif.Lemmas.Profile Verif.Utilities Verif.Saf Verif.Topo

theorem load_defaults : load = defaults := by decide +kernel

theorem load_nodup : (load.map (·.1)).Nodup := by decide +kernel

theorem read_cons (e : String × Value) (cfg : Dict) (k : String) : entry (e :: cfg) k = if e.1 = k then .ok e.2 else entry cfg k := by
  unfold entry
  rw [List.find?_cons]
  split_ifs with h <;> simp [h]

theorem read_error (cfg : Dict) (k : String) : k ∉ cfg.map (·.1) → entry cfg k = .error .keyError := by
  intro h
  induction cfg with
  | nil => rfl
  | cons e cfg ih =>
    rw [read_cons, if_neg (fun he => h (by simp [he])), ih (fun hk => h (by simp only [List.map_cons, List.mem_cons]; exact .inr hk))]

theorem read_ok (cfg : Dict) (k : String) (v : Value) (hn : (cfg.map (·.1)).Nodup) : entry cfg k = .ok v ↔ (k, v) ∈ cfg := by
  induction cfg with
  | nil => simp [entry]
  | cons e cfg ih =>
    rw [List.map_cons, List.nodup_cons] at hn
    rw [read_cons]
    split_ifs with h
    · subst h
      constructor
      · intro he
        injection he with he
        rw [← he]
        exact List.mem_cons_self
      · intro he
        rcases List.mem_cons.1 he with he | he
        · rw [← he]
        · exact absurd (List.mem_map_of_mem (f := (·.1)) he) hn.1
    · rw [ih hn.2, List.mem_cons]
      constructor
      · exact .inr
      · rintro (he | he)
        · exact absurd (by rw [← he]) h
        · exact he

theorem assign_names (cfg : Dict) (u : String × Value) :
    (assign cfg u).map (·.1) = if u.1 ∈ cfg.map (·.1) then cfg.map (·.1) else cfg.map (·.1) ++ [u.1] := by
  unfold assign
  split_ifs with h
  · rw [List.map_map]
    apply List.map_congr_left
    intro e _
    simp only [Function.comp]
    split_ifs with he
    · exact he.symm
    · rfl
  · simp

theorem read_assign (cfg : Dict) (u : String × Value) (k : String) : entry (assign cfg u) k = if u.1 = k then .ok u.2 else entry cfg k := by
  unfold assign
  split_ifs with h hk hk
  · subst hk
    induction cfg with
    | nil => simp at h
    | cons e cfg ih =>
      rw [List.map_cons, read_cons]
      by_cases he : e.1 = u.1
      · rw [if_pos he, if_pos rfl]
      · rw [if_neg he, if_neg he]
        refine ih ?_
        rw [List.map_cons, List.mem_cons] at h
        exact h.resolve_left fun h => he h.symm
  · clear h
    induction cfg with
    | nil => rfl
    | cons e cfg ih =>
      rw [List.map_cons, read_cons, read_cons, ih]
      by_cases he : e.1 = u.1
      · rw [if_pos he, if_neg hk, if_neg (he ▸ hk)]
      · rw [if_neg he]
  · subst hk
    induction cfg with
    | nil => rw [List.nil_append, read_cons, if_pos rfl]
    | cons e cfg ih =>
      rw [List.cons_append, read_cons, if_neg (fun he => h (by simp [he])), ih (fun hm => h (by simp only [List.map_cons, List.mem_cons]; exact .inr hm))]
  · clear h
    induction cfg with
    | nil => rw [List.nil_append, read_cons, if_neg hk]
    | cons e cfg ih => rw [List.cons_append, read_cons, read_cons, ih]

theorem configured_append (ups : List (String × Value)) (u : String × Value) : configured (ups ++ [u]) = assign (configured ups) u := by
  unfold configured
  rw [List.foldl_append]
  rfl

/-- C166. After any changes each name has the value last given to it, and without one the default; reading any other name is a `KeyError`. -/
theorem settings_read (ups : List (String × Value)) (name : String) (value : Value) :
    (entry (configured ups) name = .ok value ↔ LastGiven ups name value ∨ ((∀ u ∈ ups, u.1 ≠ name) ∧ Default name value)) ∧
    (entry (configured ups) name = .error .keyError ↔ (∀ u ∈ ups, u.1 ≠ name) ∧ ∀ v, ¬ Default name v) := by
  have hdef : ∀ v, entry load name = .ok v ↔ Default name v := fun v => (read_ok load name v load_nodup).trans (by rw [load_defaults]; rfl)
  have herr : entry load name = .error .keyError ↔ ∀ v, ¬ Default name v := by
    constructor
    · intro h v hv
      rw [(hdef v).2 hv] at h
      cases h
    · intro h
      apply read_error
      intro hm
      obtain ⟨e, he, rfl⟩ := List.mem_map.1 hm
      exact h e.2 (by unfold Default; rw [← load_defaults]; exact he)
  induction ups using List.reverseRecOn with
  | nil =>
    change (entry load name = _ ↔ _) ∧ (entry load name = _ ↔ _)
    rw [hdef, herr]
    simp [LastGiven]
  | append_singleton ups u ih =>
    rw [configured_append, read_assign]
    by_cases hu : u.1 = name
    · rw [if_pos hu]
      subst hu
      constructor
      · constructor
        · intro h
          injection h with h
          exact .inl ⟨ups, [], by rw [← h], by simp⟩
        · rintro (⟨a, b, hab, hb⟩ | ⟨h, -⟩)
          · rcases List.eq_nil_or_concat b with rfl | ⟨b', x, rfl⟩
            · have := List.singleton_inj.1 (List.append_inj' hab rfl).2
              rw [this]
            · exfalso
              rw [List.concat_eq_append, ← List.cons_append, ← List.append_assoc] at hab
              have := List.singleton_inj.1 (List.append_inj' hab rfl).2
              exact hb x (by simp) (by rw [← this])
          · exact absurd rfl (h u (by simp))
      · constructor
        · intro h
          cases h
        · rintro ⟨h, -⟩
          exact absurd rfl (h u (by simp))
    · rw [if_neg hu, ih.1, ih.2]
      have h1 : (∀ w ∈ ups ++ [u], w.1 ≠ name) ↔ ∀ w ∈ ups, w.1 ≠ name := by
        constructor
        · exact fun h w hw => h w (by simp [hw])
        · intro h w hw
          rcases List.mem_append.1 hw with hw | hw
          · exact h w hw
          · rw [List.mem_singleton.1 hw]
            exact hu
      rw [h1]
      refine ⟨or_congr ?_ Iff.rfl, Iff.rfl⟩
      constructor
      · rintro ⟨a, b, rfl, hb⟩
        refine ⟨a, b ++ [u], by simp, ?_⟩
        intro w hw
        rcases List.mem_append.1 hw with hw | hw
        · exact hb w hw
        · rw [List.mem_singleton.1 hw]
          exact hu
      · rintro ⟨a, b, hab, hb⟩
        rcases List.eq_nil_or_concat b with rfl | ⟨b', x, rfl⟩
        · have := List.singleton_inj.1 (List.append_inj' hab rfl).2
          exact absurd (by rw [this]) hu
        · rw [List.concat_eq_append, ← List.cons_append, ← List.append_assoc] at hab
          exact ⟨a, b', (List.append_inj' hab rfl).1, fun w hw => hb w (by simp [hw])⟩

/-- C166. No changes make a name that the programs read disappear. -/
theorem settings_complete (ups : List (String × Value)) (name : String) (h : name ∈ namesRead) : ∃ value, entry (configured ups) name = .ok value := by
  have hd : ∀ n ∈ namesRead, ∃ e ∈ defaults, e.1 = n := by decide +kernel
  obtain ⟨e, he, rfl⟩ := hd name h
  by_cases hu : ∃ u ∈ ups, u.1 = e.1
  · cases hr : entry (configured ups) e.1 with
    | ok v => exact ⟨v, rfl⟩
    | error x =>
      exfalso
      have hx : x = .keyError := by
        unfold entry at hr
        split at hr
        · cases hr
        · injection hr with hr
          exact hr.symm
      rw [hx] at hr
      obtain ⟨u, hu1, hu2⟩ := hu
      exact ((settings_read ups e.1 e.2).2.1 hr).1 u hu1 hu2
  · exact ⟨e.2, (settings_read ups e.1 e.2).1.2 (.inr ⟨fun u hu1 hu2 => hu ⟨u, hu1, hu2⟩, he⟩)⟩

/-- C166. Changes of other names, such as misspelt ones, are accepted and change nothing that the programs read. -/
theorem settings_misspelt (ups : List (String × Value)) (name : String) (h : name ∈ namesRead) :
    entry (configured ups) name = entry (configured (ups.filter fun u => u.1 ∈ namesRead)) name := by
  induction ups using List.reverseRecOn with
  | nil => rfl
  | append_singleton ups u ih =>
    rw [configured_append, read_assign, List.filter_append]
    by_cases hu : u.1 ∈ namesRead
    · rw [List.filter_cons_of_pos (by simpa using hu), List.filter_nil, configured_append, read_assign, ih]
    · rw [List.filter_cons_of_neg (by simpa using hu), List.filter_nil, List.append_nil, ← ih, if_neg]
      rintro rfl
      exact hu h

/-- C166. The only parameter without any effect is CONFIG_COASTLINES. -/
theorem settings_unused (name : String) : (name ∉ namesRead ∧ ∃ value, Default name value) ↔ name = "CONFIG_COASTLINES" := by
  have hw : ∀ e ∈ defaults, e.1 ∉ namesRead → e.1 = "CONFIG_COASTLINES" := by decide +kernel
  constructor
  · rintro ⟨h, v, hv⟩
    exact hw _ hv h
  · rintro rfl
    exact ⟨by decide +kernel, .text "coastdat.mat", by unfold Default; decide +kernel⟩

/-- C166. The parameters are listed in the order of their names; names added by the user follow, each once, in the order in which they were added. -/
theorem settings_order (ups : List (String × Value)) :
    ∃ new : List String, (configured ups).map (·.1) = load.map (·.1) ++ new ∧ (load.map (·.1)).Pairwise (· < ·) ∧ new.Nodup ∧
      new.Sublist (ups.map (·.1)) ∧ ∀ name, name ∈ new ↔ (∃ u ∈ ups, u.1 = name) ∧ ∀ value, ¬ Default name value := by
  have hs : (load.map (·.1)).Pairwise (· < ·) := by decide +kernel
  have hd : ∀ k, k ∈ load.map (·.1) ↔ ∃ v, Default k v := by
    intro k
    rw [load_defaults, List.mem_map]
    constructor
    · rintro ⟨e, he, rfl⟩
      exact ⟨e.2, he⟩
    · rintro ⟨v, hv⟩
      exact ⟨_, hv, rfl⟩
  induction ups using List.reverseRecOn with
  | nil => exact ⟨[], by rw [List.append_nil]; rfl, hs, List.nodup_nil, List.Sublist.refl _, by simp⟩
  | append_singleton ups u ih =>
    obtain ⟨new, h1, -, h3, h4, h5⟩ := ih
    rw [configured_append, assign_names, h1]
    by_cases hu : u.1 ∈ load.map (·.1) ++ new
    · rw [if_pos hu]
      refine ⟨new, rfl, hs, h3, by rw [List.map_append]; exact h4.trans (List.sublist_append_left _ _), ?_⟩
      intro name
      rw [h5]
      constructor
      · rintro ⟨⟨w, hw, e⟩, h⟩
        exact ⟨⟨w, by simp [hw], e⟩, h⟩
      · rintro ⟨⟨w, hw, rfl⟩, h⟩
        rcases List.mem_append.1 hw with hw | hw
        · exact ⟨⟨w, hw, rfl⟩, h⟩
        · obtain rfl := List.mem_singleton.1 hw
          rcases List.mem_append.1 hu with hu | hu
          · obtain ⟨v, hv⟩ := (hd _).1 hu
            exact absurd hv (h v)
          · exact (h5 _).1 hu
    · rw [if_neg hu, List.append_assoc]
      refine ⟨new ++ [u.1], rfl, hs, ?_, ?_, ?_⟩
      · rw [List.nodup_append]
        refine ⟨h3, by simp, ?_⟩
        rintro a ha b hb rfl
        obtain rfl := List.mem_singleton.1 hb
        exact hu (List.mem_append.2 (.inr ha))
      · rw [List.map_append]
        exact h4.append (List.Sublist.refl _)
      · intro name
        rw [List.mem_append, h5]
        constructor
        · rintro (⟨⟨w, hw, e⟩, h⟩ | h)
          · exact ⟨⟨w, by simp [hw], e⟩, h⟩
          · obtain rfl := List.mem_singleton.1 h
            exact ⟨⟨u, by simp, rfl⟩, fun v hv => hu (List.mem_append.2 (.inl ((hd _).2 ⟨v, hv⟩)))⟩
        · rintro ⟨⟨w, hw, rfl⟩, h⟩
          rcases List.mem_append.1 hw with hw | hw
          · exact .inl ⟨⟨w, hw, rfl⟩, h⟩
          · obtain rfl := List.mem_singleton.1 hw
            exact .inr (by simp)

/-- A misspelt name and a changed scale. -/
example : entry (configured [("MAPSCALE_LATITUDE_LARGE", .int 3), ("MAPSCALE_LATITUDE", .int 1), ("MAPSCALE_LATITUDE_LARGE", .int 6)]) "MAPSCALE_LATITUDE_LARGE" =
    .ok (.int 6) := by decide +kernel

theorem configured_untouched (ups : List (String × Value)) (name : String) (h : ∀ u ∈ ups, u.1 ≠ name) : entry (configured ups) name = entry load name := by
  induction ups using List.reverseRecOn with
  | nil => rfl
  | append_singleton ups u ih =>
    rw [configured_append, read_assign, if_neg (h u (by simp))]
    exact ih fun w hw => h w (by simp [hw])

/-- C167. Changes of paths, formats and the like leave the numbers of the mapping as they are: at most 300 casts, neither potential vorticity nor the
Subantarctic Front, scales of 8 and 4 degrees of longitude, 4 and 2 of latitude, 20 and 10 years, data from 100 dbar on, within 250 dbar. -/
theorem default_numbers (ups : List (String × Value)) (hups : ∀ u ∈ ups, ¬ ForMapping u.1) :
    readMapping (configured ups) = .ok (⟨8, 4, 4, 2, 0.1, 0.02, 20, 10, 0, 250, 100⟩, 300, 0) := by
  have h : ∀ name, ForMapping name → entry (configured ups) name = entry load name := fun name hn =>
    configured_untouched ups name fun u hu e => hups u hu (e ▸ hn)
  have d : ∀ name value, Default name value → entry load name = .ok value := fun name value hv =>
    (read_ok load name value load_nodup).2 (by rw [load_defaults]; exact hv)
  unfold readMapping
  rw [h "CONFIG_MAX_CASTS" (by simp [ForMapping]), h "MAP_USE_PV" (by simp [ForMapping]), h "MAP_USE_SAF" (by simp [ForMapping]),
    h "MAPSCALE_LONGITUDE_LARGE" (by simp [ForMapping]), h "MAPSCALE_LONGITUDE_SMALL" (by simp [ForMapping]), h "MAPSCALE_LATITUDE_LARGE" (by simp [ForMapping]),
    h "MAPSCALE_LATITUDE_SMALL" (by simp [ForMapping]), h "MAPSCALE_PHI_LARGE" (by simp [ForMapping]), h "MAPSCALE_PHI_SMALL" (by simp [ForMapping]),
    h "MAPSCALE_AGE_LARGE" (by simp [ForMapping]), h "MAPSCALE_AGE_SMALL" (by simp [ForMapping]), h "MAP_P_DELTA" (by simp [ForMapping]),
    h "MAP_P_EXCLUDE" (by simp [ForMapping]),
    d "CONFIG_MAX_CASTS" (.int 300) (by simp [Default, defaults]), d "MAP_USE_PV" (.int 0) (by simp [Default, defaults]),
    d "MAP_USE_SAF" (.int 0) (by simp [Default, defaults]), d "MAPSCALE_LONGITUDE_LARGE" (.int 8) (by simp [Default, defaults]),
    d "MAPSCALE_LONGITUDE_SMALL" (.int 4) (by simp [Default, defaults]), d "MAPSCALE_LATITUDE_LARGE" (.int 4) (by simp [Default, defaults]),
    d "MAPSCALE_LATITUDE_SMALL" (.int 2) (by simp [Default, defaults]), d "MAPSCALE_PHI_LARGE" (.float 0.1) (by simp [Default, defaults]),
    d "MAPSCALE_PHI_SMALL" (.float 0.02) (by simp [Default, defaults]), d "MAPSCALE_AGE_LARGE" (.int 20) (by simp [Default, defaults]),
    d "MAPSCALE_AGE_SMALL" (.int 10) (by simp [Default, defaults]), d "MAP_P_DELTA" (.int 250) (by simp [Default, defaults]),
    d "MAP_P_EXCLUDE" (.int 100) (by simp [Default, defaults])]
  simp only [bind, Except.bind, pure, Except.pure, whole, number]
  norm_num

theorem number_ok (cfg : Dict) (name : String) (x : ℝ) : (entry cfg name >>= number) = .ok x ↔ IsNumber cfg name x := by
  unfold IsNumber
  cases h : entry cfg name with
  | error e => simp [bind, Except.bind]
  | ok v => cases v <;> simp [bind, Except.bind, number, eq_comm]

theorem whole_ok (cfg : Dict) (name : String) (x : ℤ) : (entry cfg name >>= whole) = .ok x ↔ entry cfg name = .ok (.int x) := by
  cases h : entry cfg name with
  | error e => simp [bind, Except.bind]
  | ok v => cases v <;> simp [bind, Except.bind, whole]

theorem bind_ok {α β : Type} (a : Except PyErr α) (f : α → Except PyErr β) (b : β) : (a >>= f) = .ok b ↔ ∃ x, a = .ok x ∧ f x = .ok b := by
  cases a <;> simp [bind, Except.bind]

/-- C166. The numbers of the mapping are those under the names for them. -/
theorem settings_mapping (cfg : Dict) (c : MapConfig) (maxCasts useSaf : ℤ) : readMapping cfg = .ok (c, maxCasts, useSaf) ↔
    entry cfg "CONFIG_MAX_CASTS" = .ok (.int maxCasts) ∧ entry cfg "MAP_USE_PV" = .ok (.int c.usePv) ∧ entry cfg "MAP_USE_SAF" = .ok (.int useSaf) ∧
    IsNumber cfg "MAPSCALE_LONGITUDE_LARGE" c.longLarge ∧ IsNumber cfg "MAPSCALE_LONGITUDE_SMALL" c.longSmall ∧
    IsNumber cfg "MAPSCALE_LATITUDE_LARGE" c.latLarge ∧ IsNumber cfg "MAPSCALE_LATITUDE_SMALL" c.latSmall ∧
    IsNumber cfg "MAPSCALE_PHI_LARGE" c.phiLarge ∧ IsNumber cfg "MAPSCALE_PHI_SMALL" c.phiSmall ∧
    IsNumber cfg "MAPSCALE_AGE_LARGE" c.ageLarge ∧ IsNumber cfg "MAPSCALE_AGE_SMALL" c.ageSmall ∧
    IsNumber cfg "MAP_P_DELTA" c.pDelta ∧ IsNumber cfg "MAP_P_EXCLUDE" c.pExclude := by
  unfold readMapping
  simp only [← bind_assoc]
  simp only [← number_ok, ← whole_ok]
  simp only [bind_ok (_ >>= _), pure, Except.pure]
  constructor
  · intro h
    simp only [bind_assoc, bind_ok] at h
    obtain ⟨_, e1, _, e2, _, e3, _, e4, _, e5, _, e6, _, e7, _, e8, _, e9, _, e10, _, e11, _, e12, _, e13, h⟩ := h
    injection h with h
    obtain ⟨rfl, rfl, rfl⟩ : _ ∧ _ ∧ _ := by simpa only [Prod.mk.injEq] using h
    simp only [bind_ok]
    exact ⟨e1, e2, e3, e4, e5, e6, e7, e8, e9, e10, e11, e12, e13⟩
  · rintro ⟨h1, h2, h3, h4, h5, h6, h7, h8, h9, h10, h11, h12, h13⟩
    simp only [h1, h2, h3, h4, h5, h6, h7, h8, h9, h10, h11, h12, h13]
    simp [bind, Except.bind]

theorem default_proper (R : FloatRun) (ups : List (String × Value)) (hups : ∀ u ∈ ups, ¬ ForMapping u.1) (h : HasSettings R ups) :
    ProperConfig R.env.cfg ∧ R.env.cfg.usePv ≠ 1 ∧ R.env.maxCasts = 300 ∧ R.env.useSaf ≠ 1 := by
  unfold HasSettings at h
  rw [default_numbers ups hups] at h
  injection h with h
  obtain ⟨h1, h2, h3⟩ : _ ∧ _ ∧ _ := by simpa only [Prod.mk.injEq] using h
  rw [← h1, ← h3]
  refine ⟨?_, by norm_num, by omega, by norm_num⟩
  constructor <;> norm_num

/-- C167. With the configuration as it is loaded, but for paths and the like, what a run needs to end normally are conditions on its input files only. -/
theorem default_run_ends_iff (R : FloatRun) (ups : List (String × Value)) (hups : ∀ u ∈ ups, ¬ ForMapping u.1) (hset : HasSettings R ups) (fs : Fs ℝ)
    (hi : IsInterp2d R.env.interp2) (hf : R.env.topo.length = 2160 * 4320) (hw : WellFormedDisk R.env.disk) (hsort : IsArgsort R.env.argsort)
    (hrand : ValidRand R.env.rand) (hlen : R.no.length = R.source.length) (hload : fs R.loadPath = none)
    (hshape : ∀ f ∈ R.source, f.sal.length = R.levels ∧ f.ptmp.length = R.levels ∧ f.pres.length = R.levels)
    (hwithin : ∀ f ∈ R.source, Placed f → ∀ lat long, f.lat = some lat → f.long = some long → Within R lat long) :
    (updateMapping R.args fs).1 = none ↔
      (∀ f ∈ R.source, Placed f → ∀ lat long, f.lat = some lat → f.long = some long → Suffices R f lat long (pressureLimit f.pres 250)) ∧
      ∃ f ∈ R.source, Placed f ∧ ∃ lat long, f.lat = some lat ∧ f.long = some long ∧ ∃ n q, Mappable R f lat long n q := by
  obtain ⟨h1, h2, h3, h4⟩ := default_proper R ups hups hset
  have hd : R.env.cfg.pDelta = 250 := by
    unfold HasSettings at hset
    rw [default_numbers ups hups] at hset
    injection hset with hset
    rw [← (Prod.mk.inj hset).1]
  rw [run_ends_iff R fs hi hf hw h4 h2 hsort hrand h1 (by omega) hlen hload hshape hwithin, hd]

/-- C167. With the configuration as it is loaded, but for paths and the like, a run over reference data without defects ends normally. -/
theorem default_clean_run_ends (R : FloatRun) (ups : List (String × Value)) (hups : ∀ u ∈ ups, ¬ ForMapping u.1) (hset : HasSettings R ups) (fs : Fs ℝ)
    (hi : IsInterp2d R.env.interp2) (hf : R.env.topo.length = 2160 * 4320) (hw : WellFormedDisk R.env.disk) (hsort : IsArgsort R.env.argsort)
    (hrand : ValidRand R.env.rand) (hlen : R.no.length = R.source.length) (hload : fs R.loadPath = none)
    (hshape : ∀ f ∈ R.source, f.sal.length = R.levels ∧ f.ptmp.length = R.levels ∧ f.pres.length = R.levels)
    (hclean : ∀ f ∈ R.source, Placed f → ∀ lat long, f.lat = some lat → f.long = some long → Clean R f lat long)
    (hcovered : ∃ f ∈ R.source, Placed f ∧ ∃ lat long n, f.lat = some lat ∧ f.long = some long ∧ Covered R f lat long n) :
    (updateMapping R.args fs).1 = none := by
  obtain ⟨h1, -, h3, h4⟩ := default_proper R ups hups hset
  exact clean_run_ends R fs hi hf hw h4 hsort hrand h1 (by omega) hlen hload hshape hclean hcovered

end Verif.Props
