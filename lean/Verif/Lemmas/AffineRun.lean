import Verif.Lemmas.Affine
import Verif.Spec.Units

/-!
# Lemmas: runs whose reference salinities are measured in another unit or with an offset, from the files to the saved file
-/

set_option linter.unusedSectionVars false

namespace Verif.Lemmas.Affine

open Verif.Np Verif.Helper Verif.Region Verif.Profile Verif.Update Verif.Spec Verif.Level Verif.Saf Verif.Utilities Verif.Lemmas.Shift

/-! ### Reading -/

def resalLoaded (φ : ℝ → ℝ) (L : Loaded ℝ) : Loaded ℝ := ⟨L.casts.map (resal φ), L.levels, L.scalar⟩

theorem getData_resal (φ : ℝ → ℝ) (d : Disk ℝ) (name : List Char) (b : WmoBox) (t : ℕ) :
    getData (resalDisk φ d) name b t = (getData d name b t).map (Option.map (resalLoaded φ)) := by
  unfold getData resalDisk
  cases b.number with
  | none => rfl
  | some n =>
    dsimp only
    by_cases h1 : b.flag t = 1
    · rw [if_pos h1, if_pos h1]
      cases d t n with
      | none => rfl
      | some F =>
        simp only [Option.map_some]
        split_ifs
        · simp [readCtd, resalLoaded, Except.map]
        · unfold readBottle
          simp only [List.length_map]
          split_ifs <;> rfl
        · unfold readArgo
          simp only [List.length_map]
          split_ifs
          · rfl
          · rfl
          · rw [argwhere_comp, npDelete_comp]
            have : (fun a => hasName name (resal φ a)) = (hasName name : RefCast ℝ → Bool) := rfl
            rw [this]
            cases npDelete F.casts (argwhere (hasName name) F.casts) <;> rfl
    · rw [if_neg h1, if_neg h1]; rfl

theorem loads_resal (φ : ℝ → ℝ) (d : Disk ℝ) (name : List Char) (boxes : List WmoBox) :
    (visits boxes).map (fun v => getData (resalDisk φ d) name v.1 v.2) =
      ((visits boxes).map (fun v => getData d name v.1 v.2)).map fun x => x.map (Option.map (resalLoaded φ)) := by
  rw [List.map_map]
  exact List.map_congr_left fun v _ => getData_resal φ d name v.1 v.2

theorem histLocations_resal (φ : ℝ → ℝ) (d : Disk ℝ) (name : List Char) (boxes : List WmoBox) :
    histLocations (resalDisk φ d) name boxes = histLocations d name boxes := by
  unfold histLocations histFrom
  rw [loads_resal]
  generalize (visits boxes).map (fun v => getData d name v.1 v.2) = loads
  have h : ∀ st : Locations ℝ, (loads.map fun x => x.map (Option.map (resalLoaded φ))).foldl histStep st = loads.foldl histStep st := by
    intro st
    rw [List.foldl_map]
    congr 1
    funext st x
    cases x with
    | error e => rfl
    | ok o =>
      cases o with
      | none => rfl
      | some L =>
        simp only [Except.map, Option.map_some, histStep, resalLoaded, List.map_map]
        rfl
  rw [h]

/-- A matrix in another unit. -/
def resalGrid (φ : ℝ → ℝ) (g : List (List (Option ℝ))) : List (List (Option ℝ)) := g.map (List.map (Option.map φ))

def resalState (φ : ℝ → ℝ) (st : RegionState ℝ) : RegionState ℝ := { st with sal := resalGrid φ st.sal }

theorem castLevels_resal (φ : ℝ → ℝ) (limit : Option ℝ) (c : RefCast ℝ) :
    castLevels limit (resal φ c) = (castLevels limit c).map fun x => (x.1, x.2.1, x.2.2.map (Option.map φ)) := by
  unfold castLevels resal
  dsimp only
  rw [gatherMap_rel]
  cases gather c.pres (argwhere Option.isSome c.pres) with
  | error e => rfl
  | ok p =>
    cases gather c.sal (argwhere Option.isSome c.pres) with
    | error e => rfl
    | ok s =>
      cases gather c.ptmp (argwhere Option.isSome c.pres) with
      | error e => rfl
      | ok t =>
        simp only [Except.map, bind, Except.bind]
        cases npDelete p (argwhere (tooDeep limit) p) with
        | error e => rfl
        | ok p' =>
          dsimp only
          rw [npDelete_comp]
          cases npDelete s (argwhere (tooDeep limit) p) with
          | error e => rfl
          | ok s' => cases npDelete t (argwhere (tooDeep limit) p) <;> rfl

theorem reshape_map {α β : Type} (g : α → β) (l : List α) (r c : ℕ) : reshape (l.map g) r c = (reshape l r c).map (List.map (List.map g)) := by
  unfold reshape
  rw [List.length_map]
  split_ifs
  · simp only [Except.map, List.map_map, Function.comp_def, List.map_take, List.map_drop]
  · rfl

theorem addRow_map (φ : ℝ → ℝ) (isNew : Bool) (g : List (List (Option ℝ))) (row : List (Option ℝ)) (cols rows : ℕ) :
    addRow isNew (resalGrid φ g) (row.map (Option.map φ)) cols rows = (addRow isNew g row cols rows).map (resalGrid φ) := by
  unfold addRow
  split_ifs
  · rfl
  · have : (resalGrid φ g).flatten ++ row.map (Option.map φ) = (g.flatten ++ row).map (Option.map φ) := by
      rw [List.map_append, List.map_flatten]; rfl
    rw [this, reshape_map]
    rfl

theorem widen_map (φ : ℝ → ℝ) (g : List (List (Option ℝ))) (a b : ℕ) : widen (resalGrid φ g) a b = resalGrid φ (widen g a b) := by
  unfold widen resalGrid
  simp only [List.map_map]
  congr 1
  funext l
  simp

theorem exok_bind {α β : Type} (a : α) (f : α → Except PyErr β) : (Except.ok a >>= f) = f a := rfl

theorem exmap_then {α β γ : Type} (g : α → β) (x : Except PyErr α) (f : β → Except PyErr γ) : (x.map g >>= f) = x >>= fun a => f (g a) := by
  cases x <;> rfl

theorem loadCast_resal (φ : ℝ → ℝ) (index : List ℕ) (limit : Option ℝ) (levels : ℕ) (st : RegionState ℝ) (c : RefCast ℝ) (k : ℕ) :
    loadCast index limit levels (resalState φ st) (resal φ c) k = (loadCast index limit levels st c k).map (resalState φ) := by
  unfold loadCast
  split_ifs
  · rfl
  · rw [castLevels_resal]
    cases castLevels limit c with
    | error e => rfl
    | ok x =>
      obtain ⟨p, t, s⟩ := x
      rw [show Except.map (fun x : List (Option ℝ) × List (Option ℝ) × List (Option ℝ) => (x.1, x.2.1, x.2.2.map (Option.map φ))) (.ok (p, t, s)) = .ok (p, t, s.map (Option.map φ)) from rfl,
        exok_bind, exok_bind]
      dsimp only
      have hpad : ∀ pad : List (Option ℝ), (∀ x ∈ pad, x = none) → s.map (Option.map φ) ++ pad = (s ++ pad).map (Option.map φ) := by
        intro pad hp
        rw [List.map_append]
        congr 1
        conv_lhs => rw [← List.map_id pad]
        exact List.map_congr_left fun x hx => by rw [hp x hx]; rfl
      have hgs : ∀ grow : Bool, (if grow = true then widen (resalState φ st).sal (resalState φ st).maxDepth p.length else (resalState φ st).sal) =
          resalGrid φ (if grow = true then widen st.sal st.maxDepth p.length else st.sal) := by
        intro grow
        cases grow
        · rfl
        · exact widen_map φ _ _ _
      rw [hgs, hpad _ (by intro x hx; split_ifs at hx <;> simp at hx; exact hx.2)]
      simp only [resalState, addRow_map, exmap_bind, exmap_then, exmap_pure]
      rfl
  · rfl

theorem loadCasts_resal (φ : ℝ → ℝ) (index : List ℕ) (limit : Option ℝ) (levels : ℕ) (cs : List (RefCast ℝ)) (st : RegionState ℝ) (k : ℕ) :
    loadCasts index limit levels (resalState φ st) (cs.map (resal φ)) k = resalState φ (loadCasts index limit levels st cs k) := by
  induction cs generalizing st k with
  | nil => rfl
  | cons c cs ih =>
    simp only [List.map_cons, loadCasts, loadCast_resal]
    cases loadCast index limit levels st c k with
    | error e => rfl
    | ok st' => exact ih st' (k + 1)

theorem regionFold_resal (φ : ℝ → ℝ) (index : List ℕ) (limit : Option ℝ) (loads : List (Except PyErr (Option (Loaded ℝ)))) (st : RegionState ℝ) :
    (loads.map fun x => x.map (Option.map (resalLoaded φ))).foldl (regionStep index limit) (resalState φ st) = resalState φ (loads.foldl (regionStep index limit) st) := by
  induction loads generalizing st with
  | nil => rfl
  | cons x loads ih =>
    rw [List.map_cons, List.foldl_cons, List.foldl_cons, ← ih]
    congr 1
    cases x with
    | error e => rfl
    | ok o =>
      cases o with
      | none => rfl
      | some L =>
        simp only [Except.map, Option.map_some, regionStep, resalLoaded]
        cases L.scalar with
        | true => rfl
        | false =>
          simp only [List.length_map]
          exact loadCasts_resal φ index limit L.levels L.casts { st with start := st.start + L.casts.length } st.start

def resalRegion (φ : ℝ → ℝ) (r : RegionData ℝ) : RegionData ℝ := { r with sal := resalGrid φ r.sal }

theorem all_resal (φ : ℝ → ℝ) (g : List (List (Option ℝ))) (j : ℕ) : (((resalGrid φ g)[j]?).getD []).all Option.isNone = ((g[j]?).getD []).all Option.isNone := by
  unfold resalGrid
  rw [List.getElem?_map]
  cases g[j]? with
  | none => rfl
  | some l =>
    simp only [Option.map_some, Option.getD_some, List.all_map]
    congr 1
    funext x
    cases x <;> rfl

theorem dropFold_resal (φ : ℝ → ℝ) (l : List ℕ) (r : RegionData ℝ) (k : ℕ) :
    l.foldl dropStep (resalRegion φ r, k) = (resalRegion φ (l.foldl dropStep (r, k)).1, (l.foldl dropStep (r, k)).2) := by
  induction l generalizing r k with
  | nil => rfl
  | cons a l ih =>
    rw [List.foldl_cons, List.foldl_cons]
    have : dropStep (resalRegion φ r, k) a = (resalRegion φ (dropStep (r, k) a).1, (dropStep (r, k) a).2) := by
      have e : ∀ r : RegionData ℝ, dropStep (r, k) a = if (((r.sal[a - k]?).getD []).all Option.isNone || ((r.pres[a - k]?).getD []).all Option.isNone) = true then
          (⟨r.sal.eraseIdx (a - k), r.ptmp.eraseIdx (a - k), r.pres.eraseIdx (a - k), r.lat.eraseIdx (a - k), r.long.eraseIdx (a - k), r.dates.eraseIdx (a - k)⟩, k + 1)
          else (r, k) := fun _ => rfl
      rw [e, e, show (resalRegion φ r).sal = resalGrid φ r.sal from rfl, all_resal, show (resalRegion φ r).pres = r.pres from rfl]
      split_ifs
      · simp only [resalRegion, resalGrid, List.eraseIdx_map]
      · rfl
    rw [this]
    exact ih _ _

theorem syncNan_resal (φ : ℝ → ℝ) (s p t : Option ℝ) : syncNan (s.map φ) p t = ((syncNan s p t).1.map φ, (syncNan s p t).2) := by
  cases s <;> cases p <;> cases t <;> rfl

theorem syncRow_resal (φ : ℝ → ℝ) (s p t : List (Option ℝ)) : syncRow (s.map (Option.map φ)) p t = (syncRow s p t).map fun x => (x.1.map φ, x.2) := by
  unfold syncRow
  rw [List.zipWith_map_left, List.map_zipWith]
  congr 1
  funext a b
  exact syncNan_resal φ a b.1 b.2

theorem regionData_resal (φ : ℝ → ℝ) (d : Disk ℝ) (name : List Char) (boxes : List WmoBox) (index : List ℕ) (pres : List (Option ℝ)) (delta : ℝ) :
    regionData (resalDisk φ d) name boxes index pres delta = (regionData d name boxes index pres delta).map (resalRegion φ) := by
  unfold regionData regionFrom
  rw [loads_resal]
  have h1 := regionFold_resal φ index (maxPressure pres delta) ((visits boxes).map fun v => getData d name v.1 v.2) ⟨[], [], [], [], [], [], 0, 0, 0⟩
  have h0 : resalState φ ⟨[], [], [], [], [], [], 0, 0, 0⟩ = ⟨[], [], [], [], [], [], 0, 0, 0⟩ := rfl
  rw [h0] at h1
  rw [h1]
  generalize List.foldl (regionStep index (maxPressure pres delta)) _ ((visits boxes).map fun v => getData d name v.1 v.2) = st at *
  dsimp only [resalState]
  split_ifs
  · rfl
  · rw [changeDates_eq]
    simp only [bind, Except.bind, pure, Except.pure, Except.map]
    have hrows : List.zipWith (fun (s : List (Option ℝ)) (pt : List (Option ℝ) × List (Option ℝ)) => syncRow s pt.1 pt.2) (resalGrid φ st.sal) (List.zip st.pres st.ptmp) =
        (List.zipWith (fun (s : List (Option ℝ)) (pt : List (Option ℝ) × List (Option ℝ)) => syncRow s pt.1 pt.2) st.sal (List.zip st.pres st.ptmp)).map
          (List.map fun x => (x.1.map φ, x.2)) := by
      unfold resalGrid
      rw [List.zipWith_map_left, List.map_zipWith]
      congr 1
      funext a b
      exact syncRow_resal φ a b.1 b.2
    rw [hrows]
    have hout : ∀ rows : List (List (Option ℝ × Option ℝ × Option ℝ)),
        (⟨(rows.map (List.map fun x => (x.1.map φ, x.2))).map (fun r => r.map (·.1)), (rows.map (List.map fun x => (x.1.map φ, x.2))).map (fun r => r.map (·.2.2)),
          (rows.map (List.map fun x => (x.1.map φ, x.2))).map (fun r => r.map (·.2.1)), st.lat, wrapLongitude st.long, st.dates.map dateValue⟩ : RegionData ℝ) =
        resalRegion φ ⟨rows.map (fun r => r.map (·.1)), rows.map (fun r => r.map (·.2.2)), rows.map (fun r => r.map (·.2.1)), st.lat, wrapLongitude st.long, st.dates.map dateValue⟩ := by
      intro rows
      simp [resalRegion, resalGrid, List.map_map, Function.comp_def]
    rw [hout, dropFold_resal]
    simp only [List.length_map]

/-! ### Interpolation -/

/-- An array in another unit. -/
def gridMap (φ : ℝ → ℝ) (g : Interp.Grid ℝ) : Interp.Grid ℝ := ⟨g.rows, g.cols, fun r c => (g.at_ r c).map φ⟩

theorem toGrid_resal (φ : ℝ → ℝ) (cols : List (List (Option ℝ))) : toGrid (resalGrid φ cols) = gridMap φ (toGrid cols) := by
  unfold toGrid gridMap resalGrid
  congr 1
  · cases cols <;> simp
  · simp
  · funext r c
    simp only [List.getElem?_map]
    cases cols[c]? with
    | none => rfl
    | some l =>
      simp only [Option.map_some, Option.getD_some, List.getElem?_map]
      cases l[r]? <;> rfl

theorem goodRows_resal (φ : ℝ → ℝ) (s t p : Interp.Grid ℝ) : Interp.goodRows (gridMap φ s) t p = Interp.goodRows s t p := by
  funext c
  unfold Interp.goodRows
  have : ∀ r, Interp.finite ((gridMap φ s).at_ r c) (t.at_ r c) (p.at_ r c) = Interp.finite (s.at_ r c) (t.at_ r c) (p.at_ r c) := by
    intro r
    simp [Interp.finite, gridMap]
  simp only [this]
  rfl

theorem cleaned_resal (φ : ℝ → ℝ) (s t p : Interp.Grid ℝ) :
    Interp.cleaned (gridMap φ s) t p = (Interp.cleaned s t p).map (Option.map fun x => (gridMap φ x.1, x.2)) := by
  unfold Interp.cleaned
  have h : Interp.columnCounts (gridMap φ s) t p = Interp.columnCounts s t p := by
    unfold Interp.columnCounts
    rw [goodRows_resal]
    rfl
  rw [h, goodRows_resal]
  cases (Interp.columnCounts s t p).max? with
  | none => rfl
  | some m =>
    dsimp only
    split_ifs
    · simp only [Except.map, Option.map_some, Except.ok.injEq, Option.some.injEq, Prod.mk.injEq, and_true]
      unfold Interp.compact gridMap
      congr 1
      funext r c
      dsimp only
      cases (Interp.goodRows s t p c)[r]? <;> rfl
    · rfl

section Interp
variable (a b : ℝ)

theorem interpolate_affine (w : Option ℝ) (g : Interp.Grid ℝ) (r c : ℕ) :
    Interp.interpolate w (gridMap (fun s => a * s + b) g) r c = (Interp.interpolate w g r c).map fun s => a * s + b := by
  unfold Interp.interpolate Interp.diff gridMap
  dsimp only
  cases g.at_ r c with
  | none => rfl
  | some x =>
    cases w with
    | none => rfl
    | some w =>
      cases g.at_ (r + 1) c with
      | none => rfl
      | some y =>
        simp only [Option.map_some, Option.some.injEq]
        ring

/-- The state of the loop in another unit. -/
def stateMap (s : Interp.State ℝ) : Interp.State ℝ := ⟨s.hold, fun i c => (s.sal i c).map fun v => a * v + b, s.pres⟩

theorem step_affine (sal theta pres : Interp.Grid ℝ) (i : ℕ) (v fp : ℝ) (s : Interp.State ℝ) (hs : s.hold = Interp.blank) :
    Interp.step (gridMap (fun s => a * s + b) sal) theta pres i v fp (stateMap a b s) = (Interp.step sal theta pres i v fp s).map (stateMap a b) := by
  unfold Interp.step
  dsimp only [stateMap]
  rw [hs]
  split_ifs
  · rfl
  · rw [exmap_bind]
    congr 1
    funext picks
    simp only [Except.map]
    congr 1
    have hsc : Interp.scatter (fun i c => (s.sal i c).map fun v => a * v + b)
        (Interp.put (Interp.put (Interp.put Interp.blank (Interp.changes theta v) fun r c => Interp.interpolate (Interp.weight theta v r c) pres r c) (Interp.changes theta v) fun _ _ => none)
          (Interp.changes theta v) fun r c => Interp.interpolate (Interp.weight theta v r c) (gridMap (fun s => a * s + b) sal) r c) i picks =
        fun i' c => (Interp.scatter s.sal (Interp.put (Interp.put (Interp.put Interp.blank (Interp.changes theta v) fun r c => Interp.interpolate (Interp.weight theta v r c) pres r c)
          (Interp.changes theta v) fun _ _ => none) (Interp.changes theta v) fun r c => Interp.interpolate (Interp.weight theta v r c) sal r c) i picks i' c).map fun v => a * v + b := by
      funext i' c
      unfold Interp.scatter
      split_ifs
      · cases picks.find? fun q => q.1 == c with
        | none => rfl
        | some q =>
          simp only [Interp.put]
          split_ifs
          · exact interpolate_affine a b _ _ _ _
          · rfl
      · rfl
    simp only [stateMap]
    congr 1
    funext r c
    simp only [Interp.put]
    split_ifs <;> rfl

theorem step_blank (sal theta pres : Interp.Grid ℝ) (i : ℕ) (v fp : ℝ) (s s' : Interp.State ℝ) (hs : s.hold = Interp.blank)
    (h : Interp.step sal theta pres i v fp s = .ok s') : s'.hold = Interp.blank := by
  unfold Interp.step at h
  dsimp only at h
  rw [hs] at h
  split_ifs at h
  · exact absurd h (by simp [bind, Except.bind])
  · simp only [bind, Except.bind] at h
    split at h
    · exact absurd h (by simp)
    · simp only [Except.ok.injEq] at h
      rw [← h]
      funext r c
      simp only [Interp.put, Interp.blank]
      split_ifs <;> rfl

theorem loop_affine (sal theta pres : Interp.Grid ℝ) (l : List (Interp.FloatLevel ℝ)) (i : ℕ) (s : Interp.State ℝ) (hs : s.hold = Interp.blank) :
    Interp.loop (gridMap (fun s => a * s + b) sal) theta pres i l (stateMap a b s) = (Interp.loop sal theta pres i l s).map (stateMap a b) := by
  induction l generalizing i s with
  | nil => rfl
  | cons f l ih =>
    unfold Interp.loop
    cases f.sal with
    | none => exact ih _ _ hs
    | some x =>
      cases f.theta with
      | none => exact ih _ _ hs
      | some v =>
        cases f.pres with
        | none => exact ih _ _ hs
        | some fp =>
          dsimp only
          rw [step_affine a b sal theta pres i v fp s hs]
          cases h : Interp.step sal theta pres i v fp s with
          | error e => rfl
          | ok s' => exact ih _ _ (step_blank sal theta pres i v fp s s' hs h)

theorem interp_affine (sal theta pres : Interp.Grid ℝ) (l : List (Interp.FloatLevel ℝ)) :
    Interp.interpClimatology (gridMap (fun s => a * s + b) sal) theta pres l =
      (Interp.interpClimatology sal theta pres l).map fun x => (fun i c => (x.1 i c).map fun s => a * s + b, x.2) := by
  unfold Interp.interpClimatology
  have h1 : (gridMap (fun s => a * s + b) sal).rows = sal.rows := rfl
  have h2 : (gridMap (fun s => a * s + b) sal).cols = sal.cols := rfl
  rw [h1, h2]
  split_ifs
  · rw [cleaned_resal]
    cases Interp.cleaned sal theta pres with
    | error e => rfl
    | ok o =>
      cases o with
      | none => rfl
      | some x =>
        obtain ⟨s', t', p'⟩ := x
        simp only [Except.map, Option.map_some, bind, Except.bind]
        have := loop_affine a b s' t' p' l 0 ⟨Interp.blank, Interp.blank, Interp.blank⟩ rfl
        have h0 : stateMap a b ⟨Interp.blank, Interp.blank, Interp.blank⟩ = ⟨Interp.blank, Interp.blank, Interp.blank⟩ := rfl
        rw [h0] at this
        rw [this]
        cases Interp.loop s' t' p' 0 l ⟨Interp.blank, Interp.blank, Interp.blank⟩ <;> rfl
  · rfl

end Interp

/-! ### One profile -/

section Profile
variable (a b : ℝ) (ha : a ≠ 0) (E : Env) (hs : E.useSaf ≠ 1)

/-- The environment with the salinities in another unit. -/
def unitEnv : Env := { E with disk := resalDisk (fun s => a * s + b) E.disk }

include hs in
theorem chosenCasts_affine (f : FloatProfile) (lat long z : ℝ) :
    chosenCasts (unitEnv a b E) f lat long z = (chosenCasts E f lat long z).map fun g => ⟨resalRegion (fun s => a * s + b) g.data, g.z⟩ := by
  unfold chosenCasts
  have hsaf : ∀ g : SafGrid ℝ, ∀ fl, applySaf E.interp E.temperature E.saf (decide (E.useSaf = 1)) g fl = .ok g := by
    intro g fl; rw [decide_eq_false hs]; rfl
  simp only [show (unitEnv a b E).disk = resalDisk (fun s => a * s + b) E.disk from rfl, show (unitEnv a b E).interp = E.interp from rfl,
    show (unitEnv a b E).temperature = E.temperature from rfl, show (unitEnv a b E).saf = E.saf from rfl, show (unitEnv a b E).useSaf = E.useSaf from rfl,
    show (unitEnv a b E).name = E.name from rfl, show (unitEnv a b E).cfg = E.cfg from rfl, show (unitEnv a b E).argsort = E.argsort from rfl,
    show (unitEnv a b E).rand = E.rand from rfl, histLocations_resal, regionData_resal, hsaf, exmap_bind, exmap_then]
  rfl

include hs in
theorem prepare_affine (f : FloatProfile) (lat long : ℝ) :
    prepare (unitEnv a b E) f lat long = (prepare E f lat long).map fun p => { p with interpSal := resalGrid (fun s => a * s + b) p.interpSal } := by
  unfold prepare
  rw [show floatDepth (unitEnv a b E) lat long = floatDepth E lat long from rfl]
  cases floatDepth E lat long with
  | error e => rfl
  | ok z =>
    rw [exok_bind, exok_bind, chosenCasts_affine a b E hs]
    cases chosenCasts E f lat long z with
    | error e => rfl
    | ok g =>
      simp only [Except.map, bind, Except.bind]
      rw [show (resalRegion (fun s => a * s + b) g.data).sal = resalGrid (fun s => a * s + b) g.data.sal from rfl, toGrid_resal,
        show (resalRegion (fun s => a * s + b) g.data).ptmp = g.data.ptmp from rfl, show (resalRegion (fun s => a * s + b) g.data).pres = g.data.pres from rfl, interp_affine]
      cases Interp.interpClimatology (toGrid g.data.sal) (toGrid g.data.ptmp) (toGrid g.data.pres) (floatLevels f) with
      | error e => rfl
      | ok x =>
        simp [Except.map, pure, Except.pure, resalGrid, resalRegion, rowsOf]

theorem item_map {α β : Type} (g : α → β) (l : List α) (n : ℕ) : item (l.map g) n = (item l n).map g := by
  unfold item
  rw [List.getElem?_map]
  cases l[n]? <;> rfl

theorem gatherKnown_map {α β : Type} (g : α → β) (l : List (Option α)) (idx : List ℕ) : gatherKnown (l.map (Option.map g)) idx = (gatherKnown l idx).map g := by
  unfold gatherKnown
  rw [List.map_filterMap]
  congr 1
  funext i
  rw [List.getElem?_map]
  cases l[i]? with
  | none => rfl
  | some o => cases o <;> rfl

theorem argwhere_isSome_map {α β : Type} (g : α → β) (l : List (Option α)) : argwhere Option.isSome (l.map (Option.map g)) = argwhere Option.isSome l := by
  rw [argwhere_comp]
  congr 1
  funext o
  cases o <;> rfl

theorem processProfileHist_affine (g : GridData ℝ) (pres : List (Option ℝ)) (S P : List (List (Option ℝ))) (n : ℕ) (delta : ℝ) :
    processProfileHist g pres (resalGrid (fun s => a * s + b) S) P n delta = (processProfileHist g pres S P n delta).map (Verif.Props.rescale a b) := by
  unfold processProfileHist
  unfold resalGrid
  simp only [item_map, exmap_then, exmap_bind, argwhere_isSome_map, gatherKnown_map, gatherMap_rel]
  rfl

include ha in
theorem mapLevel_affine (c : MapConfig) (p : FloatPos) (g : GridData ℝ) (sal pres : List (Option ℝ)) (S P : List (List (Option ℝ))) (n : ℕ) :
    mapLevel c p g sal pres (resalGrid (fun s => a * s + b) S) P n = (mapLevel c p g sal pres S P n).map (Option.map fun x => (Verif.Props.rescale a b x.1, scaleResult a b x.2)) := by
  unfold mapLevel
  cases item sal n with
  | error e => rfl
  | ok s =>
    cases item pres n with
    | error e => rfl
    | ok q =>
      simp only [exok_bind]
      cases s with
      | none => rfl
      | some s =>
        cases q with
        | none => rfl
        | some q =>
          dsimp only
          split_ifs
          · rw [processProfileHist_affine]
            cases processProfileHist g pres S P n c.pDelta with
            | error e => rfl
            | ok h =>
              simp only [Except.map, exok_bind]
              rw [show (Verif.Props.rescale a b h).sal.length = h.sal.length by simp [Verif.Props.rescale]]
              split_ifs
              · rw [mapCasts_affine a b ha]
                cases mapCasts c p h <;> rfl
              · rfl
          · rfl

/-- The unit of each matrix. -/
noncomputable def unitOf : Mat → ℝ → ℝ
  | .ptmp => id
  | .mappedSal => fun v => a * v + b
  | .mapErrors => (|a| * ·)
  | .noise => (a ^ 2 * ·)
  | .signal => (a ^ 2 * ·)

/-- What a level stores, in another unit. -/
noncomputable def scaleOut (o : LevelOut ℝ) : LevelOut ℝ := ⟨fun m => (o.values m).map (unitOf a b m), Verif.Props.rescale a b o.points⟩

include ha in
theorem levelOf_affine (f : FloatProfile) (p : Prepared) (n : ℕ) :
    levelOf (unitEnv a b E) f { p with interpSal := resalGrid (fun s => a * s + b) p.interpSal } n = (levelOf E f p n).map (Option.map (scaleOut a b)) := by
  unfold levelOf
  rw [show (unitEnv a b E).cfg = E.cfg from rfl, mapLevel_affine a b ha]
  cases mapLevel E.cfg p.pos p.grid f.sal f.pres p.interpSal p.interpPres n with
  | error e => rfl
  | ok o =>
    cases o with
    | none => rfl
    | some x =>
      obtain ⟨h, r⟩ := x
      simp only [Except.map, Option.map_some, exok_bind]
      cases item f.ptmp n with
      | error e => rfl
      | ok t =>
        simp only [exok_bind, pure, Except.pure, Option.map_some, scaleOut, Except.ok.injEq, Option.some.injEq]
        congr 1
        funext m
        cases m <;> simp [unitOf, scaleResult]

include ha hs in
theorem profileOf_affine (f : FloatProfile) :
    profileOf (unitEnv a b E) f = (profileOf E f).map (Option.map fun F n => (F n).map (Option.map (scaleOut a b))) := by
  unfold profileOf
  split_ifs
  · cases f.lat with
    | none => rfl
    | some lat =>
      cases f.long with
      | none => rfl
      | some long =>
        dsimp only
        rw [prepare_affine a b E hs]
        cases prepare E f lat long with
        | error e => rfl
        | ok p =>
          simp only [Except.map, bind, Except.bind, pure, Except.pure, Option.map_some, Except.ok.injEq, Option.some.injEq]
          funext n
          exact levelOf_affine a b ha E f p n
  · rfl

end Profile

/-! ### The run -/

section Store
variable (g : Mat → ℝ → ℝ)

/-- Matrices in other units. -/
def unitMats (mats : Mat → List (List (Option ℝ))) : Mat → List (List (Option ℝ)) := fun m => (mats m).map (List.map (Option.map (g m)))

/-- The mapped data in other units. -/
def unitData (d : Update.Mapped ℝ) : Update.Mapped ℝ := { d with mats := unitMats g d.mats }

theorem setEntry_unit (φ : ℝ → ℝ) (cols : List (List (Option ℝ))) (n k : ℕ) (v : Option ℝ) :
    setEntry (cols.map (List.map (Option.map φ))) n k (v.map φ) = (setEntry cols n k v).map (List.map (List.map (Option.map φ))) := by
  unfold setEntry
  rw [List.getElem?_map]
  cases cols[k]? with
  | none => rfl
  | some c =>
    simp only [Option.map_some, List.length_map]
    split_ifs
    · simp [Except.map, List.map_set]
    · rfl

/-- The level's result in other units. -/
def UnitOut (o o' : LevelOut ℝ) : Prop := (∀ m, o'.values m = (o.values m).map (g m)) ∧ o'.points.long = o.points.long ∧ o'.points.lat = o.points.lat

theorem storeLevel_unit (cfg : Setting → ℝ) (k n : ℕ) (d : Update.Mapped ℝ) (o o' : LevelOut ℝ) (h : UnitOut g o o') :
    storeLevel cfg k n (unitData g d) o' = (storeLevel cfg k n d o).map (unitData g) := by
  have hsel : ∀ no sel, selectedHistoricalPoints no sel o'.points = selectedHistoricalPoints no sel o.points := by
    intro no sel
    unfold selectedHistoricalPoints
    rw [h.2.1, h.2.2]
  unfold storeLevel
  simp only [h.1, hsel]
  simp only [unitData, unitMats, setEntry_unit, exmap_then, exmap_bind, exmap_pure]
  congr 1; funext m1
  congr 1; funext m2
  congr 1; funext m3
  congr 1; funext m4
  congr 1; funext m5
  congr 1; funext no
  congr 1; funext sel
  congr 2
  funext m
  cases m <;> rfl

theorem levelLoop_unit (cfg : Setting → ℝ) (k : ℕ) (f f' : ℕ → Except PyErr (Option (LevelOut ℝ)))
    (hf : ∀ n, ∃ tr : LevelOut ℝ → LevelOut ℝ, (∀ o, UnitOut g o (tr o)) ∧ f' n = (f n).map (Option.map tr)) (ns : List ℕ) (d : Update.Mapped ℝ) :
    levelLoop cfg k f' ns (unitData g d) = (levelLoop cfg k f ns d).map (unitData g) := by
  induction ns generalizing d with
  | nil => rfl
  | cons n ns ih =>
    simp only [levelLoop]
    obtain ⟨tr, h1, h2⟩ := hf n
    rw [h2]
    cases f n with
    | error e => rfl
    | ok o =>
      cases o with
      | none => exact ih d
      | some o =>
        simp only [Except.map, Option.map_some, exok_bind]
        rw [storeLevel_unit g cfg k n d o (tr o) (h1 o)]
        cases storeLevel cfg k n d o with
        | error e => rfl
        | ok d' => exact ih d'

theorem laVariables_unit (levels k : ℕ) (d : Update.Mapped ℝ) : laVariables levels k (unitData g d) = (laVariables levels k d).map (unitData g) := by
  unfold laVariables
  rw [show (unitData g d).rows = d.rows from rfl, show ((unitData g d).mats .ptmp).length = (d.mats .ptmp).length by simp [unitData, unitMats]]
  split_ifs
  · simp only [Except.map, unitData, Except.ok.injEq, Update.Mapped.mk.injEq, true_and, and_true]
    funext m
    simp [unitMats, List.map_set]
  · simp only [Except.map, unitData, Except.ok.injEq, Update.Mapped.mk.injEq, true_and, and_true]
    funext m
    simp [unitMats]
  · rfl

theorem processProfile_unit (cfg : Setting → ℝ) (P P' : Update.Profile ℝ) (tr : LevelOut ℝ → LevelOut ℝ) (htr : ∀ o, UnitOut g o (tr o))
    (hP : ∀ i, P' i = (P i).map (Option.map fun f n => (f n).map (Option.map tr))) (no : List ℝ) (levels : ℕ) (d : Update.Mapped ℝ) (k i : ℕ) :
    processProfile cfg P' no levels (unitData g d) k i = (processProfile cfg P no levels d k i).map (unitData g) := by
  unfold processProfile
  cases item no i with
  | error e => rfl
  | ok v =>
    rw [exok_bind, exok_bind, show (unitData g d).profileNo = d.profileNo from rfl]
    cases npInsert d.profileNo k v with
    | error e => rfl
    | ok nos =>
      rw [exok_bind, exok_bind, show (unitData g d).lists = d.lists from rfl]
      cases d.lists with
      | false => rfl
      | true =>
        simp only [if_true]
        have hl := laVariables_unit g levels k { d with profileNo := nos, settings := fun s => d.settings s ++ [none], lists := true }
        unfold unitData at hl ⊢
        dsimp only at hl ⊢
        rw [hl]
        generalize laVariables levels k _ = x
        cases x with
        | error e => rfl
        | ok d' =>
          simp only [Except.map, exok_bind]
          rw [hP i]
          cases P i with
          | error e => rfl
          | ok o =>
            cases o with
            | none => rfl
            | some f =>
              exact levelLoop_unit g cfg k f _ (fun n => ⟨tr, htr, rfl⟩) (List.range levels) d'

theorem profileLoop_unit (cfg : Setting → ℝ) (P P' : Update.Profile ℝ) (tr : LevelOut ℝ → LevelOut ℝ) (htr : ∀ o, UnitOut g o (tr o))
    (hP : ∀ i, P' i = (P i).map (Option.map fun f n => (f n).map (Option.map tr))) (no : List ℝ) (levels : ℕ) (is : List ℕ) (k : ℕ) (d : Update.Mapped ℝ) :
    profileLoop cfg P' no levels is k (unitData g d) = ((profileLoop cfg P no levels is k d).1, (profileLoop cfg P no levels is k d).2.map (unitData g)) := by
  induction is generalizing k d with
  | nil => rfl
  | cons i is ih =>
    simp only [profileLoop]
    rw [processProfile_unit g cfg P P' tr htr hP]
    cases processProfile cfg P no levels d k i with
    | error e => rfl
    | ok d' =>
      simp only [Except.map]
      rw [ih]
      cases (profileLoop cfg P no levels is (k + 1) d').2 <;> rfl

end Store

/-- Loaded data: new profiles are an error before anything is computed. -/
theorem profileLoop_loaded (cfg : Setting → ℝ) (P P' : Update.Profile ℝ) (no : List ℝ) (levels : ℕ) (is : List ℕ) (k : ℕ) (d : Update.Mapped ℝ) (hd : d.lists = false) :
    profileLoop cfg P' no levels is k d = profileLoop cfg P no levels is k d := by
  cases is with
  | nil => rfl
  | cons i is =>
    have : ∀ Q : Update.Profile ℝ, ∃ e, processProfile cfg Q no levels d k i = .error e ∧ processProfile cfg P no levels d k i = .error e := by
      intro Q
      unfold processProfile
      rw [hd]
      cases item no i with
      | error e => exact ⟨e, rfl, rfl⟩
      | ok v =>
        rw [exok_bind, exok_bind]
        cases npInsert d.profileNo k v with
        | error e => exact ⟨e, rfl, rfl⟩
        | ok nos => exact ⟨.attributeError, rfl, rfl⟩
    obtain ⟨e, h1, h2⟩ := this P'
    simp only [profileLoop, h1, h2]

theorem gatherAll_rel {ι α β : Type} [DecidableEq ι] (R : ι → α → β → Prop) (keys : List ι) (f : ι → List α) (f' : ι → List β)
    (h : ∀ k, List.Forall₂ (R k) (f k) (f' k)) (idx : List ℕ) : ExRel (fun F F' => ∀ k, List.Forall₂ (R k) (F k) (F' k)) (gatherAll keys f idx) (gatherAll keys f' idx) := by
  unfold gatherAll
  have e : (keys.all fun k => idx.all fun i => decide (i < (f' k).length)) = (keys.all fun k => idx.all fun i => decide (i < (f k).length)) := by
    simp only [fun k => (h k).length_eq]
  rw [e]
  split_ifs with hc
  · intro k
    dsimp only
    split_ifs with hk
    · have hf : ∀ i ∈ idx, i < (f k).length := by
        intro i hi
        have := List.all_eq_true.1 (List.all_eq_true.1 hc k hk) i hi
        simpa using this
      clear hc
      induction idx with
      | nil => exact .nil
      | cons i idx ih =>
        have h1 := hf i (by simp)
        have h2 : i < (f' k).length := (h k).length_eq ▸ h1
        rw [List.filterMap_cons, List.filterMap_cons, List.getElem?_eq_getElem h1, List.getElem?_eq_getElem h2]
        refine .cons ?_ (ih (by simp only [fun k => (h k).length_eq]) fun j hj => hf j (by simp [hj]))
        have := h k
        rw [List.forall₂_iff_get] at this
        exact this.2 i h1 h2
    · exact h k
  · rfl

/-- How an entry of a saved matrix goes over. -/
noncomputable def EntryRel (a b : ℝ) (m : Mat) (v w : Option ℝ) : Prop :=
  ∃ r : Option ℝ, v = (if m = .mappedSal then checkSal r else r) ∧ w = if m = .mappedSal then checkSal (r.map (unitOf a b m)) else r.map (unitOf a b m)

theorem mats0_rel (a b : ℝ) (mats : Mat → List (List (Option ℝ))) (m : Mat) :
    List.Forall₂ (List.Forall₂ (EntryRel a b m)) (if m = .mappedSal then (mats m).map (fun c => c.map checkSal) else mats m)
      (if m = .mappedSal then (unitMats (unitOf a b) mats m).map (fun c => c.map checkSal) else unitMats (unitOf a b) mats m) := by
  unfold unitMats
  by_cases hm : m = .mappedSal
  · rw [if_pos hm, if_pos hm, List.map_map, List.forall₂_map_left_iff, List.forall₂_map_right_iff, List.forall₂_same]
    intro c _
    simp only [Function.comp, List.map_map]
    rw [List.forall₂_map_left_iff, List.forall₂_map_right_iff, List.forall₂_same]
    intro r _
    exact ⟨r, by rw [if_pos hm], by rw [if_pos hm]; rfl⟩
  · rw [if_neg hm, if_neg hm, List.forall₂_map_right_iff, List.forall₂_same]
    intro c _
    rw [List.forall₂_map_right_iff, List.forall₂_same]
    intro r _
    exact ⟨r, by rw [if_neg hm], by rw [if_neg hm]⟩

theorem forall₂_eq_map {α β : Type} {g : α → β} {l : List α} {l' : List β} (h : List.Forall₂ (fun a b => b = g a) l l') : l' = l.map g := by
  induction h with
  | nil => rfl
  | cons hab _ ih => rw [List.map_cons, hab, ih]

theorem matRel_plain (a b : ℝ) (m : Mat) (hm : m ≠ .mappedSal) (A B : List (List (Option ℝ))) (h : List.Forall₂ (List.Forall₂ (EntryRel a b m)) A B) :
    B = A.map (List.map (Option.map (unitOf a b m))) := by
  apply forall₂_eq_map
  refine h.imp fun c c' hc => forall₂_eq_map (hc.imp ?_)
  rintro v w ⟨r, h1, h2⟩
  rw [if_neg hm] at h1 h2
  rw [h2, h1]

theorem entry_sal (a b : ℝ) (ha : a ≠ 0) (v w : Option ℝ) (h : EntryRel a b .mappedSal v w) :
    (∀ x, v = some x → w = if 30 ≤ a * x + b ∧ a * x + b ≤ 40 then some (a * x + b) else none) ∧
    (∀ y, w = some y → v = if 30 ≤ (y - b) / a ∧ (y - b) / a ≤ 40 then some ((y - b) / a) else none) := by
  obtain ⟨r, h1, h2⟩ := h
  rw [if_pos rfl] at h1 h2
  have key : ∀ x : ℝ, checkSal (some x) = if 30 ≤ x ∧ x ≤ 40 then some x else none := by
    intro x
    unfold checkSal
    dsimp only
    by_cases hx : 30 ≤ x ∧ x ≤ 40
    · rw [if_pos hx, if_neg (by push Not; exact hx)]
    · rw [if_neg hx, if_pos (by rw [not_and_or, not_le, not_le] at hx; exact hx)]
  have back : ∀ (o : Option ℝ) (x : ℝ), checkSal o = some x → o = some x := by
    intro o x hx
    cases o with
    | none => exact absurd hx (by simp [checkSal])
    | some y =>
      rw [key] at hx
      split_ifs at hx
      exact hx
  constructor
  · intro x hx
    rw [hx] at h1
    have hr := back r x h1.symm
    rw [h2, hr, ← key]
    rfl
  · intro y hy
    rw [hy] at h2
    have hr := back _ y h2.symm
    cases r with
    | none => exact absurd hr (by simp)
    | some x =>
      have hxy : a * x + b = y := by simpa [unitOf] using hr
      have : (y - b) / a = x := by rw [← hxy]; field_simp; ring
      rw [this, h1, key]

theorem sortAndCollect_unit (a b : ℝ) (ha : a ≠ 0) (argsort : List (Option ℝ) → List ℕ) (d : Update.Mapped ℝ) :
    ExRel (SameInUnits a b) (sortAndCollect argsort d) (sortAndCollect argsort (unitData (unitOf a b) d)) := by
  unfold sortAndCollect
  refine ExRel.bind (gatherAll_rel (fun m => List.Forall₂ (EntryRel a b m)) Mat.all _ _ (mats0_rel a b d.mats) (argsort (d.profileNo.map some))) fun m1 m1' h1 => ?_
  have hm2 : ExRel (fun F F' => ∀ k, List.Forall₂ (List.Forall₂ (EntryRel a b k)) (F k) (F' k))
      (if d.rows * d.profileNo.length > 1 then gatherAll Mat.all m1 (argsort (d.profileNo.map some)) else .ok m1)
      (if d.rows * d.profileNo.length > 1 then gatherAll Mat.all m1' (argsort (d.profileNo.map some)) else .ok m1') := by
    split_ifs
    · exact gatherAll_rel (fun m => List.Forall₂ (EntryRel a b m)) Mat.all _ _ h1 _
    · exact h1
  refine ExRel.bind hm2 fun m2 m2' h2 => ?_
  refine ExRel.bind (R := (· = ·)) (exRel_eq.2 rfl) fun nos nos' h3 => ?_
  subst h3
  refine ExRel.bind (R := (· = ·)) (exRel_eq.2 rfl) fun st st' h4 => ?_
  subst h4
  change ExRel _ (if d.selected.length > 0 then _ else _) (if d.selected.length > 0 then _ else _)
  split_ifs
  · refine ⟨rfl, rfl, rfl, rfl, rfl, ?_, ?_, ?_, ?_, ?_⟩
    · have := matRel_plain a b .ptmp (by simp) _ _ (h2 .ptmp)
      simpa [unitOf] using this
    · exact matRel_plain a b .mapErrors (by simp) _ _ (h2 .mapErrors)
    · exact matRel_plain a b .noise (by simp) _ _ (h2 .noise)
    · exact matRel_plain a b .signal (by simp) _ _ (h2 .signal)
    · exact (h2 .mappedSal).imp fun c c' hc => hc.imp fun v w hvw => entry_sal a b ha v w hvw
  · rfl

/-- A state of the directory and the same state in other units. -/
def StateRel (a b : ℝ) (path : String) (fs : Fs ℝ) (s s' : Fs ℝ) : Prop :=
  s' = s ∨ ∃ file file', s = Function.update fs path (some (.whole file)) ∧ s' = Function.update fs path (some (.whole file')) ∧ SameInUnits a b file file'

theorem updateMapping_unit (a b : ℝ) (ha : a ≠ 0) (A : RunArgs ℝ) (P' : Update.Profile ℝ) (tr : LevelOut ℝ → LevelOut ℝ) (htr : ∀ o, UnitOut (unitOf a b) o (tr o))
    (hP : ∀ i, P' i = (A.P i).map (Option.map fun f n => (f n).map (Option.map tr))) (fs : Fs ℝ) :
    (updateMapping { A with P := P' } fs).1 = (updateMapping A fs).1 ∧
      ((fs A.loadPath ≠ none → updateMapping { A with P := P' } fs = updateMapping A fs) ∧
        List.Forall₂ (StateRel a b A.savePath fs) (updateMapping A fs).2 (updateMapping { A with P := P' } fs).2) := by
  have same : ∀ l : List (Fs ℝ), List.Forall₂ (StateRel a b A.savePath fs) l l := fun l => List.forall₂_same.2 fun s _ => .inl rfl
  by_cases hl : fs A.loadPath = none
  · refine ⟨?_, fun h => absurd hl h, ?_⟩ <;>
    · unfold updateMapping
      dsimp only
      rw [hl]
      dsimp only [loadVariables]
      have hp := profileLoop_unit (unitOf a b) A.cfg A.P P' tr htr hP A.no A.levels (missingProfiles ([] : List ℝ) A.no) 0 ⟨[], A.levels, fun _ => [], fun _ => [], [], 0, true⟩
      have h0 : unitData (unitOf a b) ⟨[], A.levels, fun _ => [], fun _ => [], [], 0, true⟩ = ⟨[], A.levels, fun _ => [], fun _ => [], [], 0, true⟩ := rfl
      rw [h0] at hp
      rw [hp]
      rcases profileLoop A.cfg A.P A.no A.levels (missingProfiles ([] : List ℝ) A.no) 0 ⟨[], A.levels, fun _ => [], fun _ => [], [], 0, true⟩ with ⟨k, e | d⟩
      · first | rfl | exact same _
      · simp only [Except.map]
        have hs := sortAndCollect_unit a b ha A.argsort d
        cases h1 : sortAndCollect A.argsort d with
        | error e =>
          cases h2 : sortAndCollect A.argsort (unitData (unitOf a b) d) with
          | error e' => rw [h1, h2] at hs; have he : e = e' := hs; subst he; first | rfl | exact same _
          | ok f' => rw [h1, h2] at hs; exact hs.elim
        | ok f =>
          cases h2 : sortAndCollect A.argsort (unitData (unitOf a b) d) with
          | error e' => rw [h1, h2] at hs; exact hs.elim
          | ok f' =>
            rw [h1, h2] at hs
            all_goals first
            | rfl
            | exact List.rel_append (same _) (.cons (.inl rfl) (.cons (.inr ⟨f, f', rfl, rfl, hs⟩) .nil))
  · have key : updateMapping { A with P := P' } fs = updateMapping A fs := by
      unfold updateMapping
      dsimp only
      cases h : fs A.loadPath with
      | none => exact absurd h hl
      | some F =>
        cases F with
        | torn => rfl
        | whole f =>
          dsimp only [loadVariables]
          rw [profileLoop_loaded A.cfg A.P P']
          rfl
    exact ⟨by rw [key], fun _ => key, by rw [key]; exact same _⟩

end Verif.Lemmas.Affine
