import Verif.Spec.SavedFront
import Verif.Props.Saved
import Mathlib.Data.List.OfFn

/-!
# The saved values when the Subantarctic Front is respected (C157)
-/

set_option linter.unusedSectionVars false

namespace Verif.Props

open Verif.Np Verif.Utilities Verif.Helper Verif.Region Verif.Profile Verif.Spec Verif.Spec.Profile Verif.Topo Verif.Finders Verif.Saf Verif.Level Verif.Update
open Verif.Lemmas.Profile Verif.Spec.Saf

/-! ## The side of the float -/

theorem floatClass_floatSide (interp : Saf.Interp ℝ) (hI : IsInterp interp) (p : SafProfiles ℝ) (f : SafFloat ℝ) (ha : Ascending (floatProfile f)) (k : ℤ)
    (hk : FloatSide interp p f k) : floatClass interp p f = .ok k := by
  classical
  rcases hk with ⟨hc, rfl⟩ | ⟨hc, T, hT, h⟩
  · rw [floatClass_side interp hI p f ha 0 (.inr ⟨hc, rfl⟩), if_neg (fun h => hc h.2)]
  · rw [floatClass_side interp hI p f ha (sideOf T) (.inl ⟨hc, T, hT, rfl⟩)]
    rcases h with ⟨h5, rfl⟩ | ⟨h3, rfl⟩ | ⟨h3, h5, he⟩
    · have : sideOf T = 1 := by unfold sideOf; rw [if_pos h5]
      rw [this, if_neg (fun h => absurd h.1 (by decide))]
    · have : sideOf T = -1 := by unfold sideOf; rw [if_neg (by linarith), if_pos h3]
      rw [this, if_neg (fun h => absurd h.1 (by decide))]
    · have : sideOf T = 0 := by unfold sideOf; rw [if_neg (by linarith), if_neg (by linarith)]
      rw [this, if_pos ⟨rfl, hc⟩]
      obtain ⟨e1, e2, e3⟩ := envelopeClass_eq interp p f
      congr 1
      rcases he with ⟨rfl, hs⟩ | ⟨rfl, hs⟩ | ⟨rfl, hs⟩
      · exact e1.2 hs
      · exact e2.2 hs
      · rcases e3 with e | e | e
        · obtain ⟨s1, s2, s3⟩ := e1.1 e
          rcases hs with hs | hs
          · exact absurd s1 hs
          · exact absurd (hs.1 s2) s3
        · exact e
        · obtain ⟨s1, s2, s3⟩ := e2.1 e
          rcases hs with hs | hs
          · exact absurd s1 hs
          · exact absurd (hs.2 s2) s3

/-! ## The sides of the casts -/

theorem gridClasses_data (interp : Saf.Interp ℝ) (temperature : Temperature ℝ) (g g' : SafGrid ℝ) (k : ℤ) (h : g.data = g'.data) :
    gridClasses interp temperature g k = gridClasses interp temperature g' k := by
  unfold gridClasses
  rw [h]

/-- A level as a row. -/
def rowOf (T : ℝ → ℝ → ℝ → ℝ) (l : CastLevel ℝ) : Option (Row ℝ) :=
  match l with
  | (some p, some t, some s) => some ⟨p, s, t, T s p t⟩
  | _ => none

theorem rowOf_complete (T : ℝ → ℝ → ℝ → ℝ) (l : CastLevel ℝ) : rowOf T (completeOrBlank l) = rowOf T l := by
  obtain ⟨_ | p, _ | t, _ | s⟩ := l <;> rfl

theorem warmLevels_rows (T : ℝ → ℝ → ℝ → ℝ) (ls : List (CastLevel ℝ)) : profile (ls.map (rowOf T)) = warmLevels T ls := by
  unfold profile warmLevels
  rw [List.filterMap_map]
  congr 1
  funext l
  obtain ⟨_ | p, _ | t, _ | s⟩ := l <;> rfl

theorem warmLevels_pressures (T : ℝ → ℝ → ℝ → ℝ) (ls : List (CastLevel ℝ)) : (warmLevels T ls).map (·.1) = completePressures ls := by
  unfold completePressures warmLevels
  rw [List.map_filterMap]
  congr 1
  funext l
  obtain ⟨_ | p, _ | t, _ | s⟩ := l <;> rfl

theorem warmLevels_blank (T : ℝ → ℝ → ℝ → ℝ) (ls : List (CastLevel ℝ)) (n : ℕ) :
    warmLevels T (ls.map completeOrBlank ++ List.replicate n (none, none, none)) = warmLevels T ls := by
  rw [← warmLevels_rows, ← warmLevels_rows, List.map_append, List.map_map]
  have h1 : rowOf T ∘ completeOrBlank = rowOf T := funext (rowOf_complete T)
  rw [h1]
  unfold profile
  rw [List.filterMap_append]
  have : ((List.replicate n ((none, none, none) : CastLevel ℝ)).map (rowOf T)).filterMap (fun r => r.map fun r => (r.pres, r.tmp)) = [] := by
    rw [List.map_replicate]
    induction n with
    | zero => rfl
    | succ n ih => rw [List.replicate_succ, List.filterMap_cons]; simpa [rowOf] using ih
  rw [this, List.append_nil]

theorem columnOf_looked (T : ℝ → ℝ → ℝ → ℝ) (limit : Option ℝ) (depth : ℕ) (c : RefCast ℝ) :
    profile ((columnOf limit depth c).map (rowOf T)) = warmLevels T (usableLevels limit c) ∧
    profile ((columnOf limit depth c).map (rowOf T)).dropLast = warmLevels T (lookedAt limit depth c) := by
  constructor
  · rw [warmLevels_rows]
    exact warmLevels_blank _ _ _
  · rw [← List.map_dropLast, warmLevels_rows]
    unfold columnOf lookedAt
    by_cases h : (usableLevels limit c).length < depth
    · rw [if_pos h]
      obtain ⟨m, hm⟩ : ∃ m, depth - (usableLevels limit c).length = m + 1 := ⟨depth - (usableLevels limit c).length - 1, by omega⟩
      rw [hm, List.replicate_succ', ← List.append_assoc, List.dropLast_concat]
      exact warmLevels_blank _ _ _
    · rw [if_neg h]
      have : depth - (usableLevels limit c).length = 0 := by omega
      rw [this, List.replicate_zero, List.append_nil, ← List.map_dropLast]
      have := warmLevels_blank T (usableLevels limit c).dropLast 0
      rwa [List.replicate_zero, List.append_nil] at this

/-- A cast with its sides is read from its column. -/
theorem columns_sides (interp : Saf.Interp ℝ) (hI : IsInterp interp) (temperature : Temperature ℝ) (T : ℝ → ℝ → ℝ → ℝ → ℝ → ℝ)
    (hT : LevelByLevel temperature T) (limit : Option ℝ) (index : List ℕ) (casts : List (RefCast ℝ)) (all : List ℕ) (d : RegionData ℝ) (bz : List ℝ)
    (h : Columns limit index casts all d) :
    ∀ k : ℤ, k ≠ 0 → (∀ n ∈ all, ∀ c, casts[n]? = some c → (completePressures (usableLevels limit c)).Pairwise (· < ·)) →
      ∀ side : ℕ → ℤ, (∀ (j n : ℕ) (c : RefCast ℝ) (y x : ℝ), all[j]? = some n → casts[n]? = some c → c.lat = some y → c.long = some x →
        SideIs (warmLevels (fun s p t => T s p t (amongChosen casts index x) y) (lookedAt limit (depthOf limit (chosen index casts)) c)) (side j)) →
      gridClasses interp temperature ⟨d, bz⟩ k = .ok ((List.range all.length).map side) := by
  have hex : ∀ j : Fin all.length, ∃ (c : RefCast ℝ) (y x x' : ℝ) (m : ℤ),
      casts[all[j]]? = some c ∧ c.lat = some y ∧ c.long = some x ∧ d.lat[(j : ℕ)]? = some (some y) ∧ d.long[(j : ℕ)]? = some (some x') ∧ x' = x + 360 * m :=
    fun j => h.place j _ (List.getElem?_eq_getElem j.2)
  choose c y x x' m h1 h2 h3 h4 h5 h6 using hex
  have h7 : ∀ j : Fin all.length, x' j = amongChosen casts index (x j) := by
    intro j
    have hs := congrArg (fun l => l[(j : ℕ)]?) h.side
    have e1 := h1 j
    have ej : all[(j : ℕ)]? = some (all[j]) := List.getElem?_eq_getElem j.2
    simp only [List.getElem?_map, h5 j, ej, e1, Option.map_some, h3 j, Option.some.injEq] at hs
    exact hs
  intro k hk0 hasc side hside
  set depth := depthOf limit (chosen index casts) with hdepth
  let Tj : Fin all.length → ℝ → ℝ → ℝ → ℝ := fun j s p t => T s p t (x' j) (y j)
  let cs : List (SafCast ℝ) := List.ofFn fun j : Fin all.length =>
    ⟨(columnOf limit depth (c j)).map (rowOf (Tj j)), some (y j), some (x' j), d.dates.getD j 0, (j : ℕ)⟩
  have hcol : ∀ {α : Type} (l : List (List α)) (g : CastLevel ℝ → α), l.map some = all.map (fun (k : ℕ) => (casts[k]?).map fun c => (columnOf limit depth c).map g) →
      l = List.ofFn fun j : Fin all.length => (columnOf limit depth (c j)).map g := by
    intro α l g e
    have hl : l.length = all.length := by simpa using congrArg List.length e
    apply List.ext_getElem
    · simp [hl]
    · intro i i1 i2
      have hi : i < all.length := by omega
      have := congrArg (fun l => l[i]?) e
      simp only [List.getElem?_map, List.getElem?_eq_getElem i1, List.getElem?_eq_getElem hi, Option.map_some] at this
      have e1 := h1 ⟨i, hi⟩
      simp only [Fin.getElem_fin] at e1
      rw [e1] at this
      simpa using this
  have hrow : ∀ (U : ℝ → ℝ → ℝ → ℝ) (limit : Option ℝ) (depth : ℕ) (c : RefCast ℝ), (columnOf limit depth c).map (·.1) = ((columnOf limit depth c).map (rowOf U)).map (fun r => r.map (·.pres)) ∧
      (columnOf limit depth c).map (·.2.1) = ((columnOf limit depth c).map (rowOf U)).map (fun r => r.map (·.ptmp)) ∧
      (columnOf limit depth c).map (·.2.2) = ((columnOf limit depth c).map (rowOf U)).map (fun r => r.map (·.sal)) := by
    intro U limit depth c
    have hcb : ∀ l ∈ columnOf limit depth c, l = completeOrBlank l := by
      intro l hl
      unfold columnOf at hl
      rcases List.mem_append.1 hl with hl | hl
      · obtain ⟨l', -, rfl⟩ := List.mem_map.1 hl
        obtain ⟨_ | p, _ | t, _ | s⟩ := l' <;> rfl
      · rw [(List.mem_replicate.1 hl).2]; rfl
    refine ⟨?_, ?_, ?_⟩
    all_goals
      rw [List.map_map]
      refine List.map_congr_left fun l hl => ?_
      rw [hcb l hl]
      obtain ⟨_ | p, _ | t, _ | s⟩ := l <;> rfl
  have hdata : (⟨d, bz⟩ : SafGrid ℝ).data = (gridOf cs).data := by
    obtain ⟨sal, ptmp, pres, lat, long, dates⟩ := d
    unfold gridOf
    simp only [cs, List.map_ofFn, Function.comp_def]
    have g1 := hcol sal _ h.sal
    have g2 := hcol ptmp _ h.ptmp
    have g3 := hcol pres _ h.pres
    have hd : dates.length = all.length := by simpa using congrArg List.length h.dates
    have hla : lat.length = all.length := h.latLen
    have hlo : long.length = all.length := h.longLen
    congr 1
    · rw [g1]; exact congrArg _ (funext fun j => (hrow (Tj j) _ _ _).2.2)
    · rw [g2]; exact congrArg _ (funext fun j => (hrow (Tj j) _ _ _).2.1)
    · rw [g3]; exact congrArg _ (funext fun j => (hrow (Tj j) _ _ _).1)
    · apply List.ext_getElem
      · simp [hla]
      · intro i i1 i2
        have := h4 ⟨i, by omega⟩
        dsimp only at this
        rw [List.getElem?_eq_getElem i1] at this
        simpa using this
    · apply List.ext_getElem
      · simp [hlo]
      · intro i i1 i2
        have := h5 ⟨i, by omega⟩
        dsimp only at this
        rw [List.getElem?_eq_getElem i1] at this
        simpa using this
    · apply List.ext_getElem
      · simp [hd]
      · intro i i1 i2
        simp [i1]
  have hmem : ∀ a ∈ cs, ∃ j : Fin all.length, a = ⟨(columnOf limit depth (c j)).map (rowOf (Tj j)), some (y j), some (x' j), d.dates.getD j 0, (j : ℕ)⟩ := by
    intro a ha
    obtain ⟨j, hj⟩ := (List.mem_ofFn' _ _).1 ha
    exact ⟨j, hj.symm⟩
  rw [gridClasses_data interp temperature _ _ k hdata,
    gridClasses_side interp hI temperature cs ?_ ?_ (fun a => side ⌊a.z⌋₊) ?_ k hk0]
  · congr 1
    apply List.ext_getElem
    · simp [cs]
    · intro i i1 i2
      simp [cs]
  · intro a ha
    obtain ⟨j, rfl⟩ := hmem a ha
    unfold TemperatureOf
    dsimp only
    have := hT (((columnOf limit depth (c j)).map (rowOf (Tj j))).map (Option.map fun r => (r.sal, r.pres, r.ptmp))) (x' j) (y j)
    simp only [List.map_map, Function.comp_def, Option.map_map] at this ⊢
    rw [this]
    refine List.map_congr_left fun l _ => ?_
    obtain ⟨_ | p, _ | t, _ | s⟩ := l <;> rfl
  · intro a ha
    obtain ⟨j, rfl⟩ := hmem a ha
    unfold Ascending
    rw [(columnOf_looked _ _ _ _).1, warmLevels_pressures]
    exact hasc _ (List.getElem_mem j.2) _ (h1 j)
  · intro a ha
    obtain ⟨j, rfl⟩ := hmem a ha
    dsimp only
    rw [(columnOf_looked _ _ _ _).2, Nat.floor_natCast]
    have := hside j _ (c j) (y j) (x j) (List.getElem?_eq_getElem j.2) (h1 j) (h2 j) (h3 j)
    rw [← h7 j] at this
    exact this

theorem argwhere_range (side : ℕ → ℤ) (k : ℤ) (n : ℕ) :
    argwhere (fun c => decide (c = k)) ((List.range n).map side) = (List.range n).filter fun j => decide (side j = k) := by
  have h1 := argwhere_sorted (fun c => decide (c = k)) ((List.range n).map side)
  have h2 : ((List.range n).filter fun j => decide (side j = k)).Pairwise (· < ·) := List.pairwise_lt_range.filter _
  refine List.Perm.eq_of_pairwise (le := (· < ·)) (fun a b _ _ hab hba => absurd hab (not_lt.2 hba.le)) h1 h2 ?_
  rw [List.perm_ext_iff_of_nodup (h1.imp fun h => ne_of_lt h) (h2.imp fun h => ne_of_lt h)]
  intro i
  rw [argwhere_mem, List.mem_filter, List.mem_range]
  by_cases hi : i < n
  · simp [hi]
  · simp [hi]

/-- C157. What a successful run saves, with or without the Subantarctic Front. As C133; but of the chosen casts with data only those at the positions `sel`
are used. These are all of them unless the front is to be respected and the float lies south of 30 degrees South and on one side of the front. Then they are
those on the side of the float if there are at least six, and all of them if there are fewer. -/
theorem saved_value_front (R : FloatRun) (fs : Fs ℝ) (hi : IsInterp2d R.env.interp2) (hI : IsInterp R.env.interp) (T : ℝ → ℝ → ℝ → ℝ → ℝ → ℝ)
    (hT : LevelByLevel R.env.temperature T) (hf : R.env.topo.length = 2160 * 4320) (hw : WellFormedDisk R.env.disk)
    (hsort : IsArgsort R.env.argsort) (hrand : ValidRand R.env.rand) (hcfg : ProperConfig R.env.cfg) (hmax : 1 ≤ R.env.maxCasts)
    (hno : R.no.Pairwise (· < ·)) (hlen : R.no.length = R.source.length) (hload : fs R.loadPath = none) (hrun : (updateMapping R.args fs).1 = none) :
    ∃ file : MapFile ℝ, finalFs R.args fs = Function.update fs R.savePath (some (.whole file)) ∧ file.profileNo = R.no ∧
      ∀ (i : ℕ) (f : FloatProfile) (lat long : ℝ), R.source[i]? = some f → Placed f → f.lat = some lat → f.long = some long →
        (-90 ≤ lat ∧ lat ≤ 90) → (-180 ≤ long ∧ long ≤ 540) → f.ptmp.length = f.sal.length → f.pres.length = f.sal.length →
        (∀ c ∈ surrounding R.env long lat, ∀ y x : ℝ, c.lat = some y → c.long = some x → (-90 ≤ y ∧ y ≤ 90) ∧ -180 ≤ x ∧ x ≤ 360) →
        ∃ (index all sel kept deep : List ℕ) (here : FloatPos) (there : List FloatPos),
          all = keptNumbers (pressureLimit f.pres R.env.cfg.pDelta) index (surrounding R.env long lat) ∧
          SideRule R.env T ⟨lat, f.pres.zip (f.tmp.zip f.sal)⟩ (pressureLimit f.pres R.env.cfg.pDelta)
            (depthOf (pressureLimit f.pres R.env.cfg.pDelta) (chosen index (surrounding R.env long lat))) (surrounding R.env long lat) all sel
            (amongChosen (surrounding R.env long lat) index) ∧
          kept.map some = sel.map (fun i => all[i]?) ∧ deep.map some = sel.map (fun i => index[i]?) ∧
          Surroundings R.env f lat long (surrounding R.env long lat) index kept deep here there ∧
          ∀ (n : ℕ) (s q : ℝ), n < R.levels → f.sal[n]? = some (some s) → f.pres[n]? = some (some q) → R.env.cfg.pExclude ≤ q →
            ∃ used : List (ℕ × ℝ), used.Pairwise (fun a b => a.1 < b.1) ∧
              (∀ (k : ℕ) (s' : ℝ), (k, s') ∈ used ↔ ∃ (j : ℕ) (c : RefCast ℝ) (v : ℝ), kept[k]? = some j ∧ (surrounding R.env long lat)[j]? = some c ∧
                f.ptmp[n]? = some (some v) ∧ Meets (pressureLimit f.pres R.env.cfg.pDelta) c v q R.env.cfg.pDelta s') ∧
              (used.length ≤ 5 → ∀ m, storedAt file m i n = some none) ∧
              (5 < used.length → ∃ (samples : List Sample) (nv value err : ℝ),
                samples.map some = used.map (fun u => (there[u.1]?).map fun a => ⟨u.2, a⟩) ∧ IsNoiseVariance (sampleObs (inliers samples)) nv ∧ 0 < nv ∧
                TwoStage R.env.cfg here (inliers samples) nv value err ∧
                storedAt file .ptmp i n = f.ptmp[n]? ∧
                (30 ≤ value ∧ value ≤ 40 → storedAt file .mappedSal i n = some (some value)) ∧
                (¬ (30 ≤ value ∧ value ≤ 40) → storedAt file .mappedSal i n = some none) ∧
                storedAt file .mapErrors i n = some (some err) ∧ storedAt file .noise i n = some (some nv) ∧
                storedAt file .signal i n = some (some (populationVariance ((inliers samples).map Sample.sal)))) := by
  obtain ⟨file, h1, h2, h3⟩ := saved_any R fs hi hf hw hsort hrand hcfg hmax hno hlen hload hrun
  refine ⟨file, h1, h2, ?_⟩
  intro i f lat long hif hpl hla hlo hlat hlong hl1 hl2 hpos
  obtain ⟨index, all, sel, kept, deep, here, there, d, bz, e1, e2, e3, e4, e5, e6, e7, e8⟩ := h3 i f lat long hif hpl hla hlo hlat hlong hl1 hl2 hpos
  have hturn := columns_sides R.env.interp hI R.env.temperature T hT _ index _ all d bz e3
  refine ⟨index, all, sel, kept, deep, here, there, e1, ⟨e4.off, ?_, ?_⟩, ?_, ?_, e7, e8⟩
  · intro ha hk
    by_cases hon : R.env.useSaf = 1 ∧ lat < -30
    · obtain ⟨k', cl, w1, w2, w3⟩ := e4.on hon.1 hon.2
      rw [floatClass_floatSide _ hI _ _ ha 0 hk] at w1
      obtain rfl := Except.ok.inj w1
      have : cl = (List.range all.length).map fun _ => (0 : ℤ) := by
        unfold gridClasses at w2
        rw [if_neg (by simp)] at w2
        rw [← Except.ok.inj w2]
        dsimp only
        rw [e3.longLen]
        simp
      rw [w3, this, argwhere_range (fun _ => 0) 0]
      simp
    · exact e4.off hon
  · intro hu hl ha k hk0 hk hasc side hside
    obtain ⟨k', cl, w1, w2, w3⟩ := e4.on hu hl
    rw [floatClass_floatSide _ hI _ _ ha k hk] at w1
    obtain rfl := Except.ok.inj w1
    rw [hturn k hk0 hasc side hside] at w2
    obtain rfl := Except.ok.inj w2
    rw [argwhere_range side k] at w3
    exact ⟨fun h6 => by rw [w3, if_pos h6], fun h6 => by rw [w3, if_neg (by omega)]⟩
  · rw [e5, List.map_map]
    refine List.map_congr_left fun j hj => ?_
    have := e4.inside j hj
    simp [this]
  · rw [e6, List.map_map]
    refine List.map_congr_left fun j hj => ?_
    have := lt_of_lt_of_le (e4.inside j hj) e2
    simp [this]

end Verif.Props
