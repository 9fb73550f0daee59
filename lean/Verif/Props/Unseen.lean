import Verif.Spec.Unseen
import Verif.Lemmas.Pairs
import Verif.Props.Reach

/-!
# C159 and C160: the way in which reference longitudes are written, and reference data in the deep
-/

set_option linter.unusedSectionVars false

namespace Verif.Props

open Verif.Np Verif.Helper Verif.Region Verif.Profile Verif.Update Verif.Spec Verif.Spec.Profile Verif.Level Verif.Saf Verif.Utilities Verif.Finders Verif.Lemmas.Shift Verif.Lemmas.Pairs

/-- Files that give the same positions and data give the same run. -/
theorem mapping_of_files (R : FloatRun) (disk' : Disk ℝ) (hh : ∀ boxes, histLocations disk' R.env.name boxes = histLocations R.env.disk R.env.name boxes)
    (hr : ∀ f ∈ R.source, usable f = true → ∀ boxes idx,
      regionData disk' R.env.name boxes idx f.pres R.env.cfg.pDelta = regionData R.env.disk R.env.name boxes idx f.pres R.env.cfg.pDelta) (fs : Fs ℝ) :
    updateMapping (R.withReference disk').args fs = updateMapping R.args fs := by
  have hP : profilesOf { R.env with disk := disk' } R.source = profilesOf R.env R.source := by
    funext i
    unfold profilesOf item
    cases hi : R.source[i]? with
    | none => rfl
    | some f =>
      simp only [bind, Except.bind]
      unfold profileOf
      split_ifs with hu
      · cases hlat : f.lat with
        | none => rfl
        | some lat =>
          cases hlong : f.long with
          | none => rfl
          | some long =>
            have hp : prepare { R.env with disk := disk' } f lat long = prepare R.env f lat long := by
              unfold prepare chosenCasts
              have hd : floatDepth { R.env with disk := disk' } lat long = floatDepth R.env lat long := rfl
              have hb : boxesAt { R.env with disk := disk' } long lat = boxesAt R.env long lat := rfl
              have hgd : ∀ a b, gridDepths { R.env with disk := disk' } a b = gridDepths R.env a b := fun _ _ => rfl
              have hba : ∀ a b c d, besthistArgs { R.env with disk := disk' } a b c d = besthistArgs R.env a b c d := fun _ _ _ _ => rfl
              simp only [hd, hb, hgd, hba, hh, hr f (List.mem_of_getElem? hi) hu]
            dsimp only
            rw [hp]
            rfl
      · rfl
  unfold FloatRun.withReference FloatRun.args
  dsimp only
  rw [hP]

theorem loads_related {Q : RefCast ℝ → RefCast ℝ → Prop} {d d' : Disk ℝ} (name : List Char) (hs : ∀ c c', Q c c' → c.source = c'.source) (hw : WellFormedDisk d) (hw' : WellFormedDisk d')
    (h : FilesRelated Q d d') (boxes : List WmoBox) :
    List.Forall₂ (LoadPair Q) ((visits boxes).map fun v => getData d name v.1 v.2) ((visits boxes).map fun v => getData d' name v.1 v.2) := by
  rw [List.forall₂_map_left_iff, List.forall₂_map_right_iff, List.forall₂_same]
  rintro ⟨b, t⟩ -
  refine getData_pair _ name (fun c c' hc => by rw [hs c c' hc]) d d' b t ?_
  intro n _
  rcases h t n with h | ⟨F, F', h1, h2, h3⟩
  · exact .inl h
  · exact .inr ⟨F, F', h1, h2, .inr ⟨(hw t n F h1).1, (hw' t n F' h2).1⟩, h3⟩

theorem hist_related {Q : RefCast ℝ → RefCast ℝ → Prop} {d d' : Disk ℝ} (name : List Char) (hs : ∀ c c', Q c c' → c.source = c'.source) (hw : WellFormedDisk d) (hw' : WellFormedDisk d')
    (h : FilesRelated Q d d') (hlat : ∀ c c', Q c c' → c.lat = c'.lat) (hdate : ∀ c c', Q c c' → c.date = c'.date)
    (hlong : ∀ l l', List.Forall₂ Q l l' → wrapLongitude (l.map (·.long)) = wrapLongitude (l'.map (·.long))) (boxes : List WmoBox) :
    histLocations d' name boxes = histLocations d name boxes := by
  have hf := flat_pair (loads_related name hs hw hw' h boxes)
  unfold histLocations histFrom
  dsimp only
  rw [hist_fold, hist_fold]
  dsimp only
  simp only [List.nil_append]
  rw [far_map_eq hlat hf, far_map_eq hdate hf, hlong _ _ hf]

theorem sameMeridian_wrap {a b : List (Option ℝ)} (h : List.Forall₂ EitherWay a b) : wrapLongitude a = wrapLongitude b := by
  have : a.map (Option.map fun x : ℝ => if x < 0 then x + 360 else x) = b.map (Option.map fun x : ℝ => if x < 0 then x + 360 else x) := by
    refine far_map_eq ?_ h
    rintro x y (rfl | ⟨v, h1, h2, ⟨rfl, rfl⟩ | ⟨rfl, rfl⟩⟩)
    · rfl
    · rw [Option.map_some, Option.map_some, if_pos h2, if_neg (by linarith)]
    · rw [Option.map_some, Option.map_some, if_pos h2, if_neg (by linarith)]
  unfold wrapLongitude
  rw [this]

/-- States that differ in the way in which longitudes are written. -/
def MeridianState (st st' : RegionState ℝ) : Prop := st' = { st with long := st'.long } ∧ List.Forall₂ EitherWay st.long st'.long

theorem loadCast_meridian (index : List ℕ) (limit : Option ℝ) (lv : ℕ) (st st' : RegionState ℝ) (c c' : RefCast ℝ) (k : ℕ) (h : MeridianState st st') (hc : SameButMeridian c c') :
    ExRel MeridianState (loadCast index limit lv st c k) (loadCast index limit lv st' c' k) := by
  obtain ⟨p, t, s, la, lo, da, md, co, sa⟩ := st
  obtain ⟨p', t', s', la', lo', da', md', co', sa'⟩ := st'
  obtain ⟨h1, h2⟩ := h
  obtain ⟨hc1, hc2⟩ := hc
  have hcl : castLevels limit c' = castLevels limit c := by rw [hc1]; rfl
  have hla : c'.lat = c.lat := by rw [hc1]
  have hda : c'.date = c.date := by rw [hc1]
  simp only [RegionState.mk.injEq] at h1
  obtain ⟨rfl, rfl, rfl, rfl, -, rfl, rfl, rfl, rfl⟩ := h1
  unfold loadCast
  by_cases hk : (argwhere (fun (j : ℕ) => decide (j = k)) index).length > 0
  · rw [if_pos hk, if_pos hk]
    by_cases hl : lv ≤ 1
    · rw [if_pos hl, if_pos hl]; rfl
    rw [if_neg hl, if_neg hl, hcl]
    refine ExRel.bind (R := (· = ·)) (exRel_eq.2 rfl) ?_
    rintro ⟨a1, a2, a3⟩ _ rfl
    dsimp only
    refine ExRel.bind (R := (· = ·)) (exRel_eq.2 rfl) ?_
    rintro gp _ rfl
    refine ExRel.bind (R := (· = ·)) (exRel_eq.2 rfl) ?_
    rintro gt _ rfl
    refine ExRel.bind (R := (· = ·)) (exRel_eq.2 rfl) ?_
    rintro gs _ rfl
    refine ⟨?_, List.rel_append h2 (.cons hc2 .nil)⟩
    simp only [hla, hda]
  · rw [if_neg hk, if_neg hk]
    exact ⟨rfl, h2⟩

/-- C159. It does not matter whether longitudes in the reference files are written from -360 to 0 or from 0 to 360: with files in which any casts have their longitude written in the other way
every run does the same (same exceptions, same states of the directory, same saved numbers). -/
theorem mapping_meridians (R : FloatRun) (disk' : Disk ℝ) (hw : WellFormedDisk R.env.disk) (hw' : WellFormedDisk disk') (h : FilesRelated SameButMeridian R.env.disk disk') (fs : Fs ℝ) :
    updateMapping (R.withReference disk').args fs = updateMapping R.args fs := by
  have hs : ∀ c c', SameButMeridian c c' → c.source = c'.source := fun c c' hc => by rw [hc.1]
  refine mapping_of_files R disk' ?_ ?_ fs
  · refine hist_related R.env.name hs hw hw' h (fun c c' hc => by rw [hc.1]) (fun c c' hc => by rw [hc.1]) ?_
    intro l l' hl
    refine sameMeridian_wrap ?_
    rw [List.forall₂_map_left_iff, List.forall₂_map_right_iff]
    exact hl.imp fun a b hab => hab.2
  · intro f _ _ boxes idx
    have := regionFold_rel (S := MeridianState) idx (maxPressure f.pres R.env.cfg.pDelta) (fun st st' n hst => ⟨by rw [hst.1], hst.2⟩) (fun st st' hst => by rw [hst.1])
      (fun lv st st' c c' k => loadCast_meridian idx _ lv st st' c c' k) (loads_related R.env.name hs hw hw' h boxes) ⟨[], [], [], [], [], [], 0, 0, 0⟩ ⟨[], [], [], [], [], [], 0, 0, 0⟩ ⟨rfl, .nil⟩
    unfold regionData regionFrom
    dsimp only
    rw [this.1]
    dsimp only
    rw [← sameMeridian_wrap this.2]

theorem castLevels_upTo (m P : ℝ) (hm : m ≤ P) (c c' : RefCast ℝ) (n n' : ℕ) (hc : c.pres.length = n ∧ c.sal.length = n ∧ c.ptmp.length = n)
    (hc' : c'.pres.length = n' ∧ c'.sal.length = n' ∧ c'.ptmp.length = n') (h : levelsUpTo P c = levelsUpTo P c') : castLevels (some m) c = castLevels (some m) c' := by
  have key : ∀ c : RefCast ℝ, usableLevels (some m) c = (levelsUpTo P c).filter fun l => l.1.any fun p => decide (p ≤ m) := by
    intro c
    unfold usableLevels levelsUpTo
    rw [List.filter_filter]
    refine List.filter_congr ?_
    rintro ⟨p, t, s⟩ -
    rw [← Bool.decide_coe (_ && _), decide_eq_decide]
    unfold UsableLevel
    cases p with
    | none => simp
    | some p =>
      simp only [Option.some.injEq, exists_eq_left', forall_eq', Option.any_some, Bool.and_eq_true, decide_eq_true_eq]
      exact ⟨fun h => ⟨h, h.trans hm⟩, fun h => h.1⟩
  rw [castLevels_ok (some m) c n hc.1 hc.2.1 hc.2.2, castLevels_ok (some m) c' n' hc'.1 hc'.2.1 hc'.2.2, key, key, h]

/-- C160. Reference data below the deepest pressure of the float plus `MAP_P_DELTA` have no influence: with files in which the casts have the same positions, dates, sources and levels up to a
pressure that is at least this deep, every run does the same (same exceptions, same states of the directory, same saved numbers). -/
theorem mapping_shallow (R : FloatRun) (disk' : Disk ℝ) (hw : WellFormedDisk R.env.disk) (hw' : WellFormedDisk disk') (P : ℝ)
    (hP : ∀ f ∈ R.source, ∀ p, some p ∈ f.pres → p + R.env.cfg.pDelta ≤ P) (h : FilesRelated (SameUpTo P) R.env.disk disk') (fs : Fs ℝ) :
    updateMapping (R.withReference disk').args fs = updateMapping R.args fs := by
  let Q : RefCast ℝ → RefCast ℝ → Prop := fun c c' => SameUpTo P c c' ∧ ∃ n n', (c.pres.length = n ∧ c.sal.length = n ∧ c.ptmp.length = n) ∧
    (c'.pres.length = n' ∧ c'.sal.length = n' ∧ c'.ptmp.length = n')
  have hQ : FilesRelated Q R.env.disk disk' := by
    intro t n
    rcases h t n with h | ⟨F, F', h1, h2, h3⟩
    · exact .inl h
    · refine .inr ⟨F, F', h1, h2, ?_⟩
      rw [List.forall₂_iff_get] at h3 ⊢
      exact ⟨h3.1, fun i hi hi' => ⟨h3.2 i hi hi', _, _, (hw t n F h1).2 _ (List.get_mem _ _), (hw' t n F' h2).2 _ (List.get_mem _ _)⟩⟩
  have hs : ∀ c c', Q c c' → c.source = c'.source := fun c c' hc => hc.1.2.2.2.1
  refine mapping_of_files R disk' ?_ ?_ fs
  · refine hist_related R.env.name hs hw hw' hQ (fun c c' hc => hc.1.1) (fun c c' hc => hc.1.2.2.1) ?_
    intro l l' hl
    rw [far_map_eq (f := fun c : RefCast ℝ => c.long) (g := fun c : RefCast ℝ => c.long) (fun c c' hc => hc.1.2.1) hl]
  · intro f hf hu boxes idx
    obtain ⟨m, hm, hmP⟩ : ∃ m, maxPressure f.pres R.env.cfg.pDelta = some m ∧ m ≤ P := by
      unfold usable at hu
      simp only [Bool.and_eq_true, List.any_eq_true] at hu
      obtain ⟨-, i, hi, -⟩ := hu
      obtain ⟨a, ha, hs⟩ := (argwhere_mem _ _ _).1 hi
      unfold maxPressure
      cases hx : nanmax f.pres with
      | none =>
        obtain rfl := nanmax_none hx a (List.mem_of_getElem? ha)
        cases hs
      | some x => exact ⟨_, rfl, hP f hf x (nanmax_some hx).1⟩
    have := regionFold_rel (S := (· = ·)) (Q := Q) idx (some m) (fun st st' n hst => by rw [hst]) (fun st st' hst => by rw [hst])
      (fun lv st st' c c' k hst hc => by
        subst hst
        obtain ⟨⟨e1, e2, e3, -, e5⟩, n, n', l1, l2⟩ := hc
        refine exRel_eq.2 ?_
        unfold loadCast
        rw [castLevels_upTo m P hmP c c' n n' l1 l2 e5, e1, e2, e3])
      (loads_related R.env.name hs hw hw' hQ boxes) ⟨[], [], [], [], [], [], 0, 0, 0⟩ _ rfl
    unfold regionData regionFrom
    rw [hm, this]

/-- The cast with its longitude written as a negative number. -/
noncomputable def asWest (c : RefCast ℝ) : RefCast ℝ := { c with long := c.long.map (· - 360) }

/-- The files with all longitudes written as negative numbers. -/
noncomputable def westDisk : Disk ℝ := fun t n => (wDisk 91 108 170 186 t n).map fun F => ⟨F.casts.map asWest, F.levels⟩

theorem westDisk_wellFormed : WellFormedDisk westDisk := by
  intro t n F h
  obtain ⟨G, hG, rfl⟩ := Option.map_eq_some_iff.1 h
  obtain ⟨h1, h2⟩ := wDisk_wellFormed 91 108 170 186 t n G hG
  refine ⟨h1, ?_⟩
  intro c hc
  obtain ⟨c, hc', rfl⟩ := List.mem_map.1 hc
  exact h2 c hc'

/-- A run that saves its numbers, with longitudes of reference casts from -269 to -252. -/
example : (updateMapping ((wRun (wEnv 91 108 170 186) [wLost, wFloat 105] [1, 2]).withReference westDisk).args (fun _ => none)).1 = none := by
  rw [mapping_meridians (wRun (wEnv 91 108 170 186) [wLost, wFloat 105] [1, 2]) westDisk (wDisk_wellFormed 91 108 170 186) westDisk_wellFormed]
  · exact world_runs 91 108 108 105 170 186 10 world_open [wLost, wFloat 105] [1, 2] rfl (by simp) (by simp) (fun _ => none) rfl
  · intro t n
    change (wDisk 91 108 170 186 t n = none ∧ _) ∨ ∃ F F', wDisk 91 108 170 186 t n = some F ∧ _
    unfold westDisk
    have key : ∀ x y s : ℝ, 0 ≤ x → x < 360 → SameButMeridian (wCast x y s) (asWest (wCast x y s)) := fun x y s h1 h2 =>
      ⟨rfl, .inr ⟨x - 360, by linarith, by linarith, .inr ⟨by simp [wCast], rfl⟩⟩⟩
    cases hF : wDisk 91 108 170 186 t n with
    | none => exact .inl ⟨rfl, rfl⟩
    | some F =>
      refine .inr ⟨F, _, rfl, rfl, ?_⟩
      dsimp only
      rw [List.forall₂_map_right_iff, List.forall₂_same]
      intro c hc
      unfold wDisk at hF
      split_ifs at hF
      · obtain rfl := Option.some.inj hF
        simp only [wSix, List.mem_cons, List.not_mem_nil, or_false] at hc
        rcases hc with rfl | rfl | rfl | rfl | rfl | rfl <;> exact key _ _ _ (by norm_num) (by norm_num)
      · obtain rfl := Option.some.inj hF
        simp only [wTwo, List.mem_cons, List.not_mem_nil, or_false] at hc
        rcases hc with rfl | rfl <;> exact key _ _ _ (by norm_num) (by norm_num)

/-- The cast with one more level, at 2000 dbar. -/
noncomputable def withDeep (c : RefCast ℝ) : RefCast ℝ := { c with pres := c.pres ++ [some 2000], sal := c.sal ++ [some 1], ptmp := c.ptmp ++ [some 77] }

/-- The files with one more level in each cast. -/
noncomputable def deepDisk : Disk ℝ := fun t n => (wDisk 91 108 170 186 t n).map fun F => ⟨F.casts.map withDeep, F.levels + 1⟩

theorem deepDisk_wellFormed : WellFormedDisk deepDisk := by
  intro t n F h
  obtain ⟨G, hG, rfl⟩ := Option.map_eq_some_iff.1 h
  obtain ⟨h1, h2⟩ := wDisk_wellFormed 91 108 170 186 t n G hG
  refine ⟨Nat.le_succ_of_le h1, ?_⟩
  intro c hc
  obtain ⟨c, hc', rfl⟩ := List.mem_map.1 hc
  obtain ⟨e1, e2, e3⟩ := h2 c hc'
  simp [withDeep, e1, e2, e3]

/-- A run that saves its numbers, of a float down to 1000 dbar, with strange data at 2000 dbar in all reference casts. -/
example : (updateMapping ((wRun (wEnv 91 108 170 186) [wLost, wFloat 105] [1, 2]).withReference deepDisk).args (fun _ => none)).1 = none := by
  rw [mapping_shallow (wRun (wEnv 91 108 170 186) [wLost, wFloat 105] [1, 2]) deepDisk (wDisk_wellFormed 91 108 170 186) deepDisk_wellFormed 1250]
  · exact world_runs 91 108 108 105 170 186 10 world_open [wLost, wFloat 105] [1, 2] rfl (by simp) (by simp) (fun _ => none) rfl
  · intro f hf p hp
    have hf : f = wLost ∨ f = wFloat 105 := by simpa [wRun] using hf
    have hp : p = 500 ∨ p = 1000 := by
      rcases hf with rfl | rfl <;> simpa [wLost, wFloat] using hp
    rcases hp with rfl | rfl <;> norm_num [wRun, wEnv, wConfig]
  · intro t n
    change (wDisk 91 108 170 186 t n = none ∧ _) ∨ ∃ F F', wDisk 91 108 170 186 t n = some F ∧ _
    unfold deepDisk
    have key : ∀ x y s : ℝ, SameUpTo 1250 (wCast x y s) (withDeep (wCast x y s)) := fun x y s => by
      refine ⟨rfl, rfl, rfl, rfl, ?_⟩
      norm_num [levelsUpTo, levelsOf, wCast, withDeep, List.filter]
    cases hF : wDisk 91 108 170 186 t n with
    | none => exact .inl ⟨rfl, rfl⟩
    | some F =>
      refine .inr ⟨F, _, rfl, rfl, ?_⟩
      dsimp only
      rw [List.forall₂_map_right_iff, List.forall₂_same]
      intro c hc
      unfold wDisk at hF
      split_ifs at hF
      · obtain rfl := Option.some.inj hF
        simp only [wSix, List.mem_cons, List.not_mem_nil, or_false] at hc
        rcases hc with rfl | rfl | rfl | rfl | rfl | rfl <;> exact key _ _ _
      · obtain rfl := Option.some.inj hF
        simp only [wTwo, List.mem_cons, List.not_mem_nil, or_false] at hc
        rcases hc with rfl | rfl <;> exact key _ _ _

end Verif.Props
