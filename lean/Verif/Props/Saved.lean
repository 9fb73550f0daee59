import Verif.Spec.Saved
import Verif.Props.DepthOwn
import Verif.Props.Saf
import Verif.Props.LevelMore
import Verif.Props.ProfileMore
import Verif.Props.Besthist

/-!
# C133: what a run saves
-/

set_option linter.unusedSectionVars false

namespace Verif.Props

open Verif.Np Verif.Utilities Verif.Helper Verif.Region Verif.Profile Verif.Spec Verif.Spec.Profile Verif.Topo Verif.Finders Verif.Saf Verif.Level Verif.Update
open Verif.Lemmas.Profile 
open Verif.Stats (Obs)

/-! ## The columns of the casts -/

theorem levels_of_column (l : List (CastLevel ℝ)) :
    levels (fun r => ((l.map (·.2.2))[r]?).join) (fun r => ((l.map (·.2.1))[r]?).join) (fun r => ((l.map (·.1))[r]?).join) l.length =
      l.filterMap completeLevel := by
  have e : levels (fun r => ((l.map (·.2.2))[r]?).join) (fun r => ((l.map (·.2.1))[r]?).join) (fun r => ((l.map (·.1))[r]?).join) l.length =
      (List.range l.length).filterMap fun r => (l[r]?).bind completeLevel := by
    unfold levels
    refine List.filterMap_congr ?_
    intro r hr
    rw [List.mem_range] at hr
    simp only [List.getElem?_map, List.getElem?_eq_getElem hr, Option.map_some, Option.join_some, Option.bind_some]
    generalize l[r] = a
    obtain ⟨p, t, s⟩ := a
    cases p <;> cases t <;> cases s <;> rfl
  rw [e]
  clear e
  induction l with
  | nil => rfl
  | cons a l ih =>
    rw [List.length_cons, List.range_succ_eq_map, List.filterMap_cons, List.filterMap_map, List.filterMap_cons]
    have : (fun r : ℕ => ((a :: l)[r]?).bind completeLevel) ∘ Nat.succ = fun r : ℕ => (l[r]?).bind completeLevel := by
      funext r
      simp
    simp only [List.getElem?_cons_zero, Option.bind_some]
    rw [← ih, ← this]

theorem column_complete (limit : Option ℝ) (depth : ℕ) (c : RefCast ℝ) : (columnOf limit depth c).filterMap completeLevel = completeLevels limit c := by
  unfold columnOf completeLevels
  rw [List.filterMap_append, List.filterMap_map]
  have h1 : (List.replicate (depth - (usableLevels limit c).length) ((none, none, none) : CastLevel ℝ)).filterMap completeLevel = [] := by
    rw [List.filterMap_eq_nil_iff]
    intro a ha
    rw [List.eq_of_mem_replicate ha]
    rfl
  rw [h1, List.append_nil]
  congr 1
  funext ⟨p, t, s⟩
  cases p <;> cases t <;> cases s <;> rfl

theorem columnOf_length (limit : Option ℝ) (depth : ℕ) (c : RefCast ℝ) (h : (usableLevels limit c).length ≤ depth) :
    (columnOf limit depth c).length = depth := by
  unfold columnOf
  simp
  omega

theorem station_column (limit : Option ℝ) (depth : ℕ) (cs : List (RefCast ℝ)) (h : ∀ c ∈ cs, (usableLevels limit c).length ≤ depth) :
    SameShape (toGrid (cs.map fun c => (columnOf limit depth c).map (·.2.2))) (toGrid (cs.map fun c => (columnOf limit depth c).map (·.2.1)))
      (toGrid (cs.map fun c => (columnOf limit depth c).map (·.1))) ∧
    ∀ (k : ℕ) (c : RefCast ℝ), cs[k]? = some c →
      station (toGrid (cs.map fun c => (columnOf limit depth c).map (·.2.2))) (toGrid (cs.map fun c => (columnOf limit depth c).map (·.2.1)))
        (toGrid (cs.map fun c => (columnOf limit depth c).map (·.1))) k = completeLevels limit c := by
  constructor
  · unfold SameShape toGrid
    cases cs <;> simp
  · intro k c hk
    have hrows : (toGrid (cs.map fun c => (columnOf limit depth c).map (·.2.2))).rows = (columnOf limit depth c).length := by
      cases cs with
      | nil => simp at hk
      | cons a cs =>
        change ((columnOf limit depth a).map (·.2.2)).length = _
        rw [List.length_map, columnOf_length _ _ _ (h a List.mem_cons_self), columnOf_length _ _ _ (h c (List.mem_of_getElem? hk))]
    unfold station
    rw [hrows, ← column_complete limit depth c, ← levels_of_column]
    have hat : ∀ (g : CastLevel ℝ → Option ℝ) (r : ℕ), (toGrid (cs.map fun c => (columnOf limit depth c).map g)).at_ r k =
        (((columnOf limit depth c).map g)[r]?).join := by
      intro g r
      unfold toGrid
      simp [hk]
    simp only [hat]

/-! ## Samples -/

theorem range_filter_get {α : Type} (l : List α) (p : α → Bool) (js : List ℕ) (hs : js.Pairwise (· < ·))
    (h : ∀ j, j ∈ js ↔ ∃ a, l[j]? = some a ∧ p a = true) : js.map (fun j => l[j]?) = (l.filter p).map some := by
  have hjs : js = (l.zipIdx.filter fun x => p x.1).map Prod.snd := by
    have hp : ((l.zipIdx.filter fun x => p x.1).map Prod.snd).Pairwise (· < ·) := by
      refine List.Pairwise.sublist (List.filter_sublist.map _) ?_
      rw [List.zipIdx_map_snd]
      exact List.pairwise_lt_range'
    refine List.Perm.eq_of_pairwise (fun i j _ _ h1 h2 => absurd h1 (by omega)) hs hp
      ((List.perm_ext_iff_of_nodup (hs.imp (fun h => Nat.ne_of_lt h)) (hp.imp (fun h => Nat.ne_of_lt h))).2 ?_)
    intro j
    rw [h, List.mem_map]
    constructor
    · rintro ⟨a, h1, h2⟩
      exact ⟨(a, j), List.mem_filter.2 ⟨by rw [List.mem_zipIdx_iff_getElem?]; exact h1, h2⟩, rfl⟩
    · rintro ⟨⟨a, j'⟩, h1, rfl⟩
      obtain ⟨h1, h2⟩ := List.mem_filter.1 h1
      rw [List.mem_zipIdx_iff_getElem?] at h1
      exact ⟨a, h1, h2⟩
  have e : l.filter p = (l.zipIdx.filter fun x => p x.1).map Prod.fst := by
    conv_lhs => rw [← List.zipIdx_map_fst 0 l]
    rw [List.filter_map]
    rfl
  rw [hjs, e, List.map_map, List.map_map]
  refine List.map_congr_left ?_
  rintro ⟨a, j⟩ hx
  have := (List.mem_filter.1 hx).1
  rw [List.mem_zipIdx_iff_getElem?] at this
  exact this

/-- The casts of a level as the arrays of the code. -/
structure Arrays (l : List Sample) (h : HistData ℝ) : Prop where
  sal : h.sal = l.map Sample.sal
  lat : h.lat = l.map fun a => a.pos.lat
  long : h.long = l.map fun a => a.pos.long
  dates : h.dates = l.map fun a => a.pos.date
  z : h.z = l.map fun a => a.pos.z

theorem arrays_inliers (l : List Sample) (h h' : HistData ℝ) (ha : Arrays l h) (hw : WithoutOutliers h h') : Arrays (inliers l) h' := by
  classical
  obtain ⟨js, h1, h2, h3⟩ := hw
  have key : js.map (fun j => l[j]?) = (inliers l).map some := by
    unfold inliers
    refine range_filter_get l _ js h1 ?_
    intro j
    rw [h2, ha.sal]
    simp only [decide_eq_true_eq, IsOutlier, List.getElem?_map, List.length_map]
    constructor
    · rintro ⟨g1, g2⟩
      refine ⟨l[j], List.getElem?_eq_getElem g1, ?_⟩
      by_contra hc
      exact g2 ⟨(l[j]).sal, by rw [List.getElem?_eq_getElem g1]; rfl, not_le.1 hc⟩
    · rintro ⟨a, g1, g2⟩
      refine ⟨(List.getElem?_eq_some_iff.1 g1).1, ?_⟩
      rintro ⟨s, g3, g4⟩
      rw [g1] at g3
      obtain rfl := Option.some.inj g3
      exact absurd g4 (not_lt.2 g2)
  have field : ∀ (g : Sample → ℝ) (a b : List ℝ), a = l.map g → b.map some = js.map (fun j => a[j]?) → b = (inliers l).map g := by
    intro g a b e1 e2
    have : b.map some = ((inliers l).map g).map some := by
      rw [e2, e1]
      have := congrArg (List.map (Option.map g)) key
      simpa [List.map_map, Function.comp_def] using this
    exact List.map_injective_iff.2 (Option.some_injective _) this
  exact ⟨field _ _ _ ha.sal h3.sal, field _ _ _ ha.lat h3.lat, field _ _ _ ha.long h3.long, field _ _ _ ha.dates h3.dates, field _ _ _ ha.z h3.z⟩

theorem arrays_obs (l : List Sample) (h : HistData ℝ) (ha : Arrays l h) : histObs h = sampleObs l := by
  unfold histObs sampleObs
  rw [ha.sal, ha.lat, ha.long, List.zip_map', List.zip_map', List.map_map]
  rfl

/-- C79, C82. What `mapCasts` gives for the samples `l`. -/
theorem samples_mapped (c : MapConfig) (hc : ProperConfig c) (f : FloatPos) (l : List Sample) (h : HistData ℝ) (ha : HistAligned l.length h)
    (hA : Arrays l h) (hn : 0 < l.length) (hz : ProperDepths c f h) :
    ∃ nv, IsNoiseVariance (sampleObs (inliers l)) nv ∧ 0 ≤ nv ∧ (nv = 0 → mapCasts c f h = .error .linAlgError) ∧
      (0 < nv → ∃ value err h', TwoStage c f (inliers l) nv value err ∧
        mapCasts c f h = .ok (h', ⟨some value, some err, some nv, populationVariance ((inliers l).map Sample.sal)⟩)) := by
  obtain ⟨h', m, sal, data, nv, hw, hm, e1, e2, e3, e4, e5, hnv, hnv0, h0, hp⟩ := level_mapping_spec c hc f l.length h ha hn hz
  have hA' := arrays_inliers l h h' hA hw
  rw [arrays_obs _ _ hA'] at hnv
  refine ⟨nv, hnv, hnv0, h0, fun hpos => ?_⟩
  obtain ⟨w1, W, res, w2, er1, er2, b1, b2, b3, b4, b5, b6, b7, b8, b9⟩ := hp hpos
  rw [hA'.sal] at e1 b1 b2 b6 b9
  rw [hA'.lat] at e2
  rw [hA'.long] at e3
  rw [hA'.dates] at e4
  rw [hA'.z] at e5
  generalize inliers l = k at *
  have hlen : k.length = m := by simpa using congrArg List.length e1
  subst hlen
  have field : ∀ (g : Sample → ℝ) (F : Fin k.length → ℝ), k.map g = List.ofFn F → ∀ i, F i = g (k.get i) := by
    intro g F e i
    have := congrArg (fun x => x[(i : ℕ)]?) e
    simp only [List.getElem?_map, List.getElem?_ofFn, dif_pos i.isLt, List.getElem?_eq_getElem i.isLt, Option.map_some, Option.some.injEq] at this
    exact this.symm
  have hs : sal = fun i => (k.get i).sal := funext (field _ _ e1)
  have hd : data = fun i => (k.get i).pos := by
    funext i
    have g1 := field _ _ e2 i
    have g2 := field _ _ e3 i
    have g3 := field _ _ e4 i
    have g4 := field _ _ e5 i
    cases hx : data i
    rw [hx] at g1 g2 g3 g4
    dsimp only at g1 g2 g3 g4
    rw [g1, g2, g3, g4]
  subst hs hd
  exact ⟨_, _, h', ⟨w1, W, res, w2, er1, er2, b1, b2, b3, b4, b5, b6, b7, b8, rfl, rfl⟩, b9⟩

/-! ## One profile -/

theorem rowsOf_row (n c : ℕ) (a : ℕ → ℕ → Option ℝ) (i : ℕ) (h : i < n) : (rowsOf n c a)[i]? = some ((List.range c).map fun j => a i j) := by
  unfold rowsOf
  simp [h]

theorem matchLongitude_turn (grid : List (Option ℝ)) (long : ℝ) : matchLongitude grid long = long ∨ matchLongitude grid long = long + 360 := by
  unfold matchLongitude
  split_ifs <;> simp

theorem wrapLongitude_unwrapped (xs : List ℝ) : wrapLongitude (xs.map some) = (unwrapped xs).map some := by
  have h1 : (xs.map some).map (Option.map fun x : ℝ => if x < 0 then x + 360 else x) = (xs.map eastward).map some := by
    simp only [List.map_map]; rfl
  have h2 : ((xs.map eastward).map some).any (fun o => o.any fun x : ℝ => decide (x ≥ 320)) = true ↔ ∃ x ∈ xs, 320 ≤ eastward x := by
    simp [List.any_eq_true]
  unfold wrapLongitude unwrapped
  rw [h1]
  dsimp only
  by_cases h : ∃ x ∈ xs, 320 ≤ eastward x
  · rw [if_pos (h2.2 h), if_pos h]
    simp only [List.map_map]
    refine List.map_congr_left fun x _ => ?_
    simp only [Function.comp, Option.map_some, add_comm]
  · rw [if_neg (fun h' => h (h2.1 h')), if_neg h]

theorem matchLongitude_beside (xs : List ℝ) (long : ℝ) : matchLongitude (xs.map some) long = besideCasts xs long := by
  obtain ⟨h1, h2⟩ := matchLongitude_spec (xs.map some) long
  simp only [List.mem_map, Option.some.injEq, exists_eq_right] at h1 h2
  unfold besideCasts
  split_ifs with h
  · exact h1 h.1 h.2.1 h.2.2
  · refine h2 ?_
    by_contra hh
    push Not at hh
    exact h ⟨hh.1, hh.2.1, hh.2.2⟩

theorem besthist_choice (A : BesthistArgs) (argsort : List (Option ℝ) → List ℕ) (hsort : IsArgsort argsort) (rand : ℕ → ℕ → List ℝ) (hrand : ValidRand rand)
    (casts : List Cast) (hmc : 1 ≤ A.maxCasts) (out : List ℕ) (hout : findBesthist A argsort rand casts = .ok out) : Choice A casts out := by
  have hz : A.mapPvUse = 1 → ∀ c ∈ casts, c.z ≠ some 0 := by
    intro hpv c hc h0
    rw [besthist_zero_depth_fails A argsort rand casts hpv c hc h0] at hout
    cases hout
  refine ⟨besthist_only_inside A argsort hsort rand hrand casts hmc out hout, ?_, ?_⟩
  · intro h
    have hne : casts ≠ [] := by
      rintro rfl
      simp [findBesthist] at hout
    obtain ⟨out', h1, h2, h3⟩ := besthist_few_returns_all A argsort rand casts hne hz h
    rw [hout] at h1
    obtain rfl := Except.ok.inj h1
    exact ⟨h2, fun n c hc hin => (h3 n).2 ⟨c, hc, hin⟩⟩
  · intro h3 hm
    obtain ⟨out', h1, h2, h4⟩ := besthist_many_exact_size A argsort hsort rand hrand casts hz h3 hm
    rw [hout] at h1
    obtain rfl := Except.ok.inj h1
    exact ⟨h4, h2⟩

theorem keptNumbers_le (limit : Option ℝ) (index : List ℕ) (casts : List (RefCast ℝ)) : (keptNumbers limit index casts).length ≤ index.length := by
  classical
  have hnd : (keptNumbers limit index casts).Nodup := (keptNumbers_sorted limit index casts).imp fun h => h.ne
  have hsub : keptNumbers limit index casts ⊆ index := by
    intro k hk
    have := (List.mem_filter.1 hk).2
    simp only [decide_eq_true_eq] at this
    exact this.1
  exact (hnd.subperm hsub).length_le

/-- What the levels of a profile give, for the columns `b` of the casts `kept` with the depths of the casts `deep`. -/
theorem columns_levels (E : Env) (hi : IsInterp2d E.interp2) (hf : E.topo.length = 2160 * 4320)
    (hsort : IsArgsort E.argsort) (hrand : ValidRand E.rand) (hcfg : ProperConfig E.cfg) (hmax : 1 ≤ E.maxCasts)
    (f : FloatProfile) (lat long : ℝ) (hlat : -90 ≤ lat ∧ lat ≤ 90) (hlong : -180 ≤ long ∧ long ≤ 540)
    (hl1 : f.ptmp.length = f.sal.length) (hl2 : f.pres.length = f.sal.length)
    (p : Prepared) (casts : List (RefCast ℝ)) (index : List ℕ) (z : ℝ) (zs : List ℝ) (d : RegionData ℝ) (bz : List ℝ) (b : SafGrid ℝ) (S P : ℕ → ℕ → Option ℝ)
    (hF : Found E f lat long casts index z zs d bz) (kept deep : List ℕ) (hcol : Columns (pressureLimit f.pres E.cfg.pDelta) index casts kept b.data)
    (hki : kept.length ≤ index.length) (hzlen : kept.length ≤ b.z.length) (hzmem : ∀ w ∈ b.z, w ∈ bz)
    (hdeep : ∀ k, k < kept.length → ∃ (n : ℕ) (c : RefCast ℝ) (y x w : ℝ), deep[k]? = some n ∧ casts[n]? = some c ∧ c.lat = some y ∧ c.long = some x ∧
      b.z[k]? = some w ∧ DepthAt E.topo (max y (-1079 / 12)) x w)
    (h7 : p.pos = ⟨lat, matchLongitude b.data.long long, f.date, z⟩) (hgrid : p.grid = ⟨b.data.long.filterMap id, b.data.lat.filterMap id, b.data.dates, b.z⟩)
    (h9 : Interp.interpClimatology (toGrid b.data.sal) (toGrid b.data.ptmp) (toGrid b.data.pres) (floatLevels f) = .ok (S, P))
    (h10 : p.interpSal = rowsOf f.sal.length b.data.sal.length S) (h11 : p.interpPres = rowsOf f.sal.length b.data.sal.length P) :
    ∃ (there : List FloatPos),
      Surroundings E f lat long casts index kept deep p.pos there ∧
      ∀ (n : ℕ) (s q : ℝ), f.sal[n]? = some (some s) → f.pres[n]? = some (some q) → E.cfg.pExclude ≤ q →
        ∃ used : List (ℕ × ℝ), used.Pairwise (fun a b => a.1 < b.1) ∧
          (∀ (k : ℕ) (s' : ℝ), (k, s') ∈ used ↔ ∃ (j : ℕ) (c : RefCast ℝ) (v : ℝ),
            kept[k]? = some j ∧ casts[j]? = some c ∧ f.ptmp[n]? = some (some v) ∧
            Meets (pressureLimit f.pres E.cfg.pDelta) c v q E.cfg.pDelta s') ∧
          (used.length ≤ 5 → levelOf E f p n = .ok none) ∧
          (5 < used.length → ∃ (samples : List Sample) (nv : ℝ),
            samples.map some = used.map (fun u => (there[u.1]?).map fun a => ⟨u.2, a⟩) ∧ IsNoiseVariance (sampleObs (inliers samples)) nv ∧
            (nv = 0 ∧ levelOf E f p n = .error .linAlgError ∨ 0 < nv ∧ ∃ (value err : ℝ) (o : LevelOut ℝ), TwoStage E.cfg p.pos (inliers samples) nv value err ∧
              levelOf E f p n = .ok (some o) ∧ some (o.values .ptmp) = f.ptmp[n]? ∧ o.values .mappedSal = some value ∧ o.values .mapErrors = some err ∧
              o.values .noise = some nv ∧ o.values .signal = some (populationVariance ((inliers samples).map Sample.sal)))) := by
  have h2 := hF.choice
  have h3 := hF.len
  have h6 := hF.all
  have h1 := hF.float
  have h8 : ∀ w ∈ p.grid.z, w ∈ zs := by rw [hgrid]; exact fun w hw => hF.zmem w (hzmem w hw)
  obtain ⟨h12, h13, h14⟩ := hcol.plain
  replace h12 : p.grid.lat.length = kept.length := by rw [hgrid]; exact h12
  replace h13 : p.grid.long.length = kept.length := by rw [hgrid]; exact h13
  have h15 : p.grid.dates.map some = kept.map (fun (n : ℕ) => (casts[n]?).map decimalDate) := by rw [hgrid]; exact hcol.dates
  have h16 := hcol.short
  have h17 := hcol.pres
  have h18 := hcol.ptmp
  have h19 := hcol.sal
  have hzl : kept.length ≤ p.grid.z.length := by rw [hgrid]; exact hzlen
  set depth := depthOf (pressureLimit f.pres E.cfg.pDelta) (chosen index casts) with hdepthdef
  set limit := pressureLimit f.pres E.cfg.pDelta with hlimit
  have hkl : ∀ n ∈ kept, n < casts.length := by
    intro n hn
    obtain ⟨k, hk⟩ := List.mem_iff_getElem?.1 hn
    obtain ⟨c, y, x, x', m, h1, -⟩ := h14 k n hk
    exact (List.getElem?_eq_some_iff.1 h1).1
  obtain ⟨cs, hcs⟩ := known_list kept (fun n => casts[n]?) (fun n hn => by rw [List.getElem?_eq_getElem (hkl n hn)]; simp)
  have hcslen : cs.length = kept.length := by simpa using (congrArg List.length hcs).symm
  have csAt : ∀ (k j : ℕ), kept[k]? = some j → casts[j]? = cs[k]? := by
    intro k j hk
    have := congrArg (fun l => l[k]?) hcs
    simp only [List.getElem?_map, hk, Option.map_some] at this
    cases hck : cs[k]? with
    | none => rw [hck] at this; simp at this
    | some c => rw [hck] at this; simpa using this
  have hmapcs : ∀ {β : Type} (g : RefCast ℝ → β) (l : List β), l.map some = kept.map (fun k => (casts[k]?).map g) → l = cs.map g := by
    intro β g l e
    have e2 : kept.map (fun k => (casts[k]?).map g) = (cs.map g).map some := by
      have := congrArg (List.map (Option.map g)) hcs
      simpa [List.map_map, Function.comp_def] using this
    exact List.map_injective_iff.2 (Option.some_injective _) (e.trans e2)
  have k1 := hmapcs _ _ h17
  have k2 := hmapcs _ _ h18
  have k3 := hmapcs _ _ h19
  have k4 := hmapcs _ _ h15
  have hdepth : ∀ c ∈ cs, (usableLevels limit c).length ≤ depth := by
    intro c hc
    obtain ⟨k, hk⟩ := List.mem_iff_getElem?.1 hc
    have hkk : k < kept.length := by rw [← hcslen]; exact (List.getElem?_eq_some_iff.1 hk).1
    exact h16 _ (List.getElem_mem hkk) c (by rw [csAt k _ (List.getElem?_eq_getElem hkk)]; exact hk)
  obtain ⟨hshape, hstation⟩ := station_column limit depth cs hdepth
  rw [← k1, ← k2, ← k3] at hshape hstation
  have hdl : b.data.sal.length = kept.length := by rw [k3, List.length_map, hcslen]
  have hdates : p.grid.dates.length = kept.length := by rw [k4, List.length_map, hcslen]
  -- the chosen casts
  have hchosen := besthist_only_inside _ _ hsort _ hrand _ (by exact hmax) _ h2
  have hcastAt : ∀ (n : ℕ) (c : Cast), (Verif.Profile.castsOf (casts.map (·.lat)) (wrapLongitude (casts.map (·.long))) (casts.map decimalDate) zs)[n]? = some c →
      ∃ (r : RefCast ℝ) (y x w : ℝ) (m : ℤ), casts[n]? = some r ∧ r.lat = some y ∧ r.long = some x ∧ zs[n]? = some w ∧
        DepthAt E.topo (max y (-1079 / 12)) x w ∧ c = ⟨some (x + 360 * m), some y, some (decimalDate r), some w⟩ := by
    intro n c hc
    unfold Verif.Profile.castsOf at hc
    rw [List.getElem?_map, Option.map_eq_some_iff] at hc
    obtain ⟨⟨a1, a2, a3, a4⟩, ha, rfl⟩ := hc
    simp only [List.getElem?_zip_eq_some, List.getElem?_map, Option.map_eq_some_iff] at ha
    obtain ⟨⟨r, hr, e1⟩, e2, ⟨r', hr', e3⟩, e4⟩ := ha
    rw [hr] at hr'
    obtain rfl := Option.some.inj hr'
    obtain ⟨y, x, w, m, g1, g2, g3, g4, g5⟩ := h6 n r hr
    rw [e2] at g5
    rw [e4] at g3
    refine ⟨r, y, x, w, m, hr, g1, g2, e4 ▸ g3, g4, ?_⟩
    dsimp only at e1 e3 ⊢
    rw [Option.some.inj g5, Option.some.inj g3, ← e1, g1, e3]
  have hz : E.cfg.usePv = 1 → index ≠ [] → z ≠ 0 ∧ ∀ w ∈ p.grid.z, w ≠ 0 := by
    intro hpv hne
    constructor
    · obtain ⟨n0, hn0⟩ := List.exists_mem_of_ne_nil _ hne
      obtain ⟨c, hc, hin⟩ := hchosen n0 hn0
      obtain ⟨x, y, -, -, hcond⟩ := hin
      rw [if_pos (show (besthistArgs E lat (matchLongitude (wrapLongitude (casts.map (·.long))) long) f.date z).mapPvUse = 1 from hpv)] at hcond
      obtain ⟨w, -, -, hz, -⟩ := hcond
      exact hz
    · intro w hw' h0
      subst h0
      obtain ⟨n, hn⟩ := List.mem_iff_getElem?.1 (h8 0 hw')
      have hnl : n < casts.length := by rw [← h3]; exact (List.getElem?_eq_some_iff.1 hn).1
      obtain ⟨y, x, w, m, g1, g2, g3, g4, g5⟩ := h6 n _ (List.getElem?_eq_getElem hnl)
      rw [besthist_zero_depth_fails _ E.argsort E.rand _ (by exact hpv) ⟨some (x + 360 * m), some y, some (decimalDate casts[n]), some 0⟩ ?_ rfl] at h2
      · cases h2
      · unfold Verif.Profile.castsOf
        rw [List.mem_map]
        refine ⟨(some y, some (x + 360 * m), decimalDate casts[n], 0), ?_, rfl⟩
        rw [List.mem_iff_getElem?]
        refine ⟨n, ?_⟩
        simp only [List.getElem?_zip_eq_some, List.getElem?_map, List.getElem?_eq_getElem hnl, Option.map_some, g1, g5, hn, and_self]
  let there : List FloatPos := (List.range kept.length).map fun k => ⟨p.grid.lat.getD k 0, p.grid.long.getD k 0, p.grid.dates.getD k 0, p.grid.z.getD k 0⟩
  have thereAt : ∀ k, k < kept.length → there[k]? = some ⟨p.grid.lat.getD k 0, p.grid.long.getD k 0, p.grid.dates.getD k 0, p.grid.z.getD k 0⟩ := by
    intro k hk
    simp [there, hk]
  have hzz : z = p.pos.z := by rw [h7]
  refine ⟨there, ⟨?_, ?_, ?_, ?_, ?_⟩, ?_⟩
  · obtain ⟨z', e1, e2⟩ := float_depth_right E hi hf lat long hlat.1 hlat.2 hlong.1 hlong.2
    rw [h1] at e1
    obtain rfl := Except.ok.inj e1
    rw [h7]
    refine ⟨rfl, ?_, rfl, e2⟩
    obtain ⟨-, lo, hlo⟩ := hcol.known
    have hgl : p.grid.long = lo := by rw [hgrid]; dsimp only; rw [hlo, List.filterMap_map]; simp
    have : there.map (·.long) = lo := by
      apply List.ext_getElem
      · simp [there, ← hgl, h13]
      · intro i i1 i2
        simp [there, hgl, i2]
    dsimp only
    rw [this, hlo, matchLongitude_beside]
  · obtain ⟨xs, hxs⟩ := known_list casts (·.long) (fun c hc => by
      obtain ⟨n, hn⟩ := List.mem_iff_getElem?.1 hc
      obtain ⟨y, x, w, m, -, g2, -⟩ := h6 n c hn
      rw [g2]; simp)
    refine ⟨xs, Verif.Profile.castsOf (casts.map (·.lat)) (wrapLongitude (casts.map (·.long))) (casts.map decimalDate) zs, hxs, ?_, ?_, ?_⟩
    · rw [hxs, wrapLongitude_unwrapped]
      have hul : (unwrapped xs).length = casts.length := by
        have := congrArg List.length hxs
        simp only [List.length_map] at this
        unfold unwrapped
        split_ifs <;> simp [this]
      simp [Verif.Profile.castsOf, hul, h3]
    · intro n c x hn hx
      obtain ⟨y, x', w, m, g1, g2, g3, g4, g5⟩ := h6 n c hn
      have hxx : x' = x := by
        have := congrArg (fun l => l[n]?) hxs
        simp only [List.getElem?_map, hn, hx, Option.map_some, g2] at this
        exact Option.some.inj (Option.some.inj this)
      subst hxx
      refine ⟨y, w, g1, g4, ?_⟩
      unfold Verif.Profile.castsOf
      rw [List.getElem?_map, Option.map_eq_some_iff]
      refine ⟨(some y, some (x' + 360 * m), decimalDate c, w), ?_, ?_⟩
      · simp only [List.getElem?_zip_eq_some, List.getElem?_map, hn, Option.map_some, g1, g5, g3, and_self]
      · rw [hxs, wrapLongitude_unwrapped, List.getElem?_map, Option.map_eq_some_iff] at g5
        obtain ⟨a, ha, hb⟩ := g5
        rw [ha, hb]
    · have := besthist_choice _ _ hsort _ hrand _ (by exact hmax) _ h2
      rw [hxs, wrapLongitude_unwrapped, matchLongitude_beside] at this
      rw [hxs, wrapLongitude_unwrapped, ← hzz]
      exact this
  · change ((List.range kept.length).map _).length = kept.length
    rw [List.length_map, List.length_range]
  · intro k n hk
    have hkk := (List.getElem?_eq_some_iff.1 hk).1
    obtain ⟨c, y, x, x', m, g1, g2, g3, g4, g5, g6⟩ := h14 k n hk
    refine ⟨c, y, x, _, g1, g2, g3, thereAt k hkk, ?_, ?_, ?_⟩
    · dsimp only; rw [List.getD_eq_getElem?_getD, hgrid, g4]; rfl
    · obtain ⟨-, lo, hlo⟩ := hcol.known
      have hgl : p.grid.long = lo := by rw [hgrid]; dsimp only; rw [hlo, List.filterMap_map]; simp
      have hs := congrArg (fun l => l[k]?) hcol.side
      simp only [hlo, List.getElem?_map, hk, g1, Option.map_some, g3] at hs
      cases hk' : lo[k]? with
      | none => rw [hk'] at hs; cases hs
      | some v =>
        rw [hk'] at hs
        simp only [Option.map_some, Option.some.injEq] at hs
        dsimp only
        rw [List.getD_eq_getElem?_getD, hgl, hk', hs]; rfl
    · dsimp only
      rw [List.getD_eq_getElem?_getD, k4, List.getElem?_map, ← csAt k n hk, g1]; rfl
  · intro k a ha
    have hkk : k < kept.length := by
      have := (List.getElem?_eq_some_iff.1 ha).1
      simpa [there] using this
    rw [thereAt k hkk] at ha
    obtain rfl := Option.some.inj ha
    obtain ⟨n, c, y, x, w, g0, g1, g2, g3, g4, g5⟩ := hdeep k hkk
    refine ⟨n, c, y, x, g0, g1, g2, g3, ?_⟩
    dsimp only
    rw [List.getD_eq_getElem?_getD, hgrid, g4]
    exact g5
  · intro n s q hsn hqn hex
    have hns : n < f.sal.length := (List.getElem?_eq_some_iff.1 hsn).1
    obtain ⟨t, ht⟩ : ∃ t, f.ptmp[n]? = some t := ⟨_, List.getElem?_eq_getElem (by omega)⟩
    have hfl : (floatLevels f)[n]? = some ⟨some s, t, some q⟩ := by
      unfold floatLevels
      rw [List.getElem?_map, Option.map_eq_some_iff]
      exact ⟨(some s, t, some q), by simp only [List.getElem?_zip_eq_some, hsn, ht, hqn, and_self], rfl⟩
    have hrow1 : p.interpSal[n]? = some ((List.range kept.length).map fun j => S n j) := by rw [h10, hdl]; exact rowsOf_row _ _ _ _ hns
    have hrow2 : p.interpPres[n]? = some ((List.range kept.length).map fun j => P n j) := by rw [h11, hdl]; exact rowsOf_row _ _ _ _ hns
    have hcell : ∀ (k : ℕ) (s' : ℝ), (k < kept.length ∧ ∃ q', S n k = some s' ∧ P n k = some q' ∧ |q' - q| < E.cfg.pDelta) ↔
        ∃ (j : ℕ) (c : RefCast ℝ) (v : ℝ), kept[k]? = some j ∧ casts[j]? = some c ∧ f.ptmp[n]? = some (some v) ∧ Meets limit c v q E.cfg.pDelta s' := by
      intro k s'
      constructor
      · rintro ⟨hk, q', e1, e2, e3⟩
        have hkc : k < cs.length := by omega
        obtain ⟨i1, i2⟩ := interp_spec _ _ _ hshape (floatLevels f) S P h9 n _ hfl k (by change k < b.data.sal.length; omega)
        rw [hstation k _ (List.getElem?_eq_getElem hkc)] at i2
        cases t with
        | none =>
          have := (i1 (Or.inr (Or.inl rfl))).1
          rw [e1] at this; cases this
        | some v =>
          refine ⟨_, cs[k], v, List.getElem?_eq_getElem hk, ?_, ht, ?_⟩
          · rw [csAt k _ (List.getElem?_eq_getElem hk)]; exact List.getElem?_eq_getElem hkc
          · rcases i2 s v q rfl with ⟨a, w, s1, p1, hn1, e4, e5⟩ | ⟨-, e4, -⟩
            · rw [e1] at e4
              rw [e2] at e5
              obtain rfl := Option.some.inj e4
              obtain rfl := Option.some.inj e5
              exact ⟨a, w, _, hn1, e3⟩
            · rw [e1] at e4; cases e4
      · rintro ⟨j, c, v, e1, e2, e3, a, w, p1, e4, e5⟩
        have hk := (List.getElem?_eq_some_iff.1 e1).1
        obtain ⟨i1, i2⟩ := interp_spec _ _ _ hshape (floatLevels f) S P h9 n _ hfl k (by change k < b.data.sal.length; omega)
        rw [csAt k j e1] at e2
        rw [hstation k _ e2] at i2
        rw [ht] at e3
        obtain rfl := Option.some.inj e3
        refine ⟨hk, ?_⟩
        rcases i2 s v q rfl with ⟨a', w', s1, p2, hn1, e6, e7⟩ | ⟨hno, -, -⟩
        · obtain ⟨rfl, rfl⟩ := nearest_unique _ _ _ _ _ _ _ _ _ _ _ e4 hn1
          exact ⟨p1, e6, e7, e5⟩
        · exact absurd ⟨a, w, _, _, e4.1⟩ hno
    have hcomp : ∀ j, ComparableCast ((List.range kept.length).map fun j => S n j) ((List.range kept.length).map fun j => P n j) q E.cfg.pDelta j ↔
        ∃ s', (j < kept.length ∧ ∃ q', S n j = some s' ∧ P n j = some q' ∧ |q' - q| < E.cfg.pDelta) := by
      intro j
      unfold ComparableCast
      constructor
      · rintro ⟨s', q', e1, e2, e3⟩
        have hj : j < kept.length := by simpa using (List.getElem?_eq_some_iff.1 e1).1
        simp only [List.getElem?_map, List.getElem?_range hj, Option.map_some, Option.some.injEq] at e1 e2
        exact ⟨s', hj, q', e1, e2, e3⟩
      · rintro ⟨s', hj, q', e1, e2, e3⟩
        refine ⟨s', q', ?_, ?_, e3⟩ <;> simp [List.getElem?_range hj, e1, e2]
    obtain ⟨h, js, j1, j2, j3, j4, j5, j6, j7, j8, j9, j10⟩ := level_mapped E.cfg p.pos p.grid f.sal f.pres p.interpSal p.interpPres n kept.length s q _ _
      hsn hqn hrow1 hrow2 (by simp) (by simp) h13 h12 hdates hzl hex
    have hjs : ∀ j ∈ js, j < kept.length ∧ ∃ s', S n j = some s' := by
      intro j hj
      obtain ⟨s', hk, q', e1, -⟩ := (hcomp j).1 ((j2 j).1 hj)
      exact ⟨hk, s', e1⟩
    refine ⟨js.map fun j => (j, (S n j).getD 0), ?_, ?_, ?_, ?_⟩
    · rw [List.pairwise_map]
      exact j1
    · intro k s'
      rw [← hcell, List.mem_map]
      constructor
      · rintro ⟨j, hj, e⟩
        simp only [Prod.mk.injEq] at e
        obtain ⟨rfl, e⟩ := e
        obtain ⟨s1, hk, q', e1, e2, e3⟩ := (hcomp j).1 ((j2 j).1 hj)
        rw [e1] at e
        exact ⟨hk, q', by rw [e1, ← e]; rfl, e2, e3⟩
      · intro hh
        obtain ⟨hk, q', e1, -⟩ := id hh
        exact ⟨k, (j2 k).2 ((hcomp k).2 ⟨s', hh⟩), by rw [e1]; rfl⟩
    · intro h5'
      rw [List.length_map] at h5'
      have hskip := (level_skipped_iff E.cfg p.pos p.grid f.sal f.pres p.interpSal p.interpPres n kept.length (some s) (some q) _ _
        hsn hqn hrow1 hrow2 (by simp) (by simp) h13 h12 hdates hzl).2
        (Or.inr (Or.inr (Or.inr ⟨q, js, rfl, j1.imp fun h => ne_of_lt h, j2, h5'⟩)))
      unfold levelOf
      rw [hskip]
      rfl
    · intro h5'
      rw [List.length_map] at h5'
      have hmap := j10 h5'
      let samples : List Sample := js.map fun j => ⟨(S n j).getD 0, p.grid.lat.getD j 0, p.grid.long.getD j 0, p.grid.dates.getD j 0, p.grid.z.getD j 0⟩
      have hsl : samples.length = js.length := by simp [samples]
      have hfield : ∀ (l a : List ℝ), l.map some = js.map (fun j => a[j]?) → l = js.map fun j => a.getD j 0 := by
        intro l a e
        refine List.map_injective_iff.2 (Option.some_injective _) (e.trans ?_)
        rw [List.map_map]
        refine List.map_congr_left fun j hj => ?_
        have : some (a[j]?) ∈ (js.map fun j => a[j]?).map some := by
          rw [List.map_map]; exact List.mem_map.2 ⟨j, hj, rfl⟩
        cases hx : a[j]? with
        | none =>
          exfalso
          have : none ∈ l.map some := by rw [e]; exact List.mem_map.2 ⟨j, hj, hx⟩
          simp at this
        | some x => simp [hx]
      have hA : Arrays samples h := by
        refine ⟨?_, ?_, ?_, ?_, ?_⟩
        · refine List.map_injective_iff.2 (Option.some_injective _) (j4.trans ?_)
          rw [List.map_map, List.map_map]
          refine List.map_congr_left fun j hj => ?_
          obtain ⟨hk, s', e⟩ := hjs j hj
          simp [List.getElem?_range hk, e]
        · rw [hfield _ _ j7, List.map_map]; rfl
        · rw [hfield _ _ j6, List.map_map]; rfl
        · rw [hfield _ _ j8, List.map_map]; rfl
        · rw [hfield _ _ j9, List.map_map]; rfl
      have hproper : ProperDepths E.cfg p.pos h := by
        intro hpv
        have hne : index ≠ [] := by
          intro h0
          obtain ⟨j, hj⟩ := List.exists_mem_of_ne_nil js (by rintro rfl; simp at h5')
          have hj1 := (hjs j hj).1
          have hj2 : kept.length ≤ index.length := hki
          rw [h0, List.length_nil] at hj2
          omega
        obtain ⟨z1, z2⟩ := hz hpv hne
        refine ⟨by rw [← hzz]; exact z1, ?_⟩
        intro w hw'
        have : some w ∈ h.z.map some := List.mem_map.2 ⟨w, hw', rfl⟩
        rw [j9] at this
        obtain ⟨j, -, hj⟩ := List.mem_map.1 this
        exact z2 w (List.mem_of_getElem? hj)
      obtain ⟨nv, m1, m2, m3, m4⟩ := samples_mapped E.cfg hcfg p.pos samples h (by rw [hsl]; exact j3) hA (by omega) hproper
      refine ⟨samples, nv, ?_, m1, ?_⟩
      · rw [List.map_map, List.map_map]
        refine List.map_congr_left fun j hj => ?_
        simp only [Function.comp, thereAt j (hjs j hj).1, Option.map_some]
      · rcases m2.eq_or_lt with m0 | m0
        · left
          refine ⟨m0.symm, ?_⟩
          unfold levelOf
          rw [hmap, m3 m0.symm]
          rfl
        · right
          obtain ⟨value, err, h', v1, v2⟩ := m4 m0
          unfold levelOf item
          rw [hmap, v2, ht]
          exact ⟨m0, value, err, _, v1, rfl, rfl, rfl, rfl, rfl, rfl⟩

/-! ## The frontal criterion -/

/-- Gathering some columns. -/
theorem Columns.select {limit : Option ℝ} {index : List ℕ} {casts : List (RefCast ℝ)} {kept : List ℕ} {d : RegionData ℝ} (h : Columns limit index casts kept d)
    (bz : List ℝ) (hz : kept.length ≤ bz.length) (sel : List ℕ) (hsel : ∀ i ∈ sel, i < kept.length) :
    ∃ b : SafGrid ℝ, selectCasts ⟨d, bz⟩ sel = .ok b ∧ Columns limit index casts (sel.map fun i => kept.getD i 0) b.data ∧ b.data.sal.length = sel.length ∧
      b.z = sel.map (fun i => bz.getD i 0) := by
  have len : ∀ {α : Type} (l : List α) (g : ℕ → Option α), l.map some = kept.map g → l.length = kept.length := by
    intro α l g e
    simpa using congrArg List.length e
  have key : ∀ {α : Type} (v : α) (l : List α), kept.length ≤ l.length → gather l sel = .ok (sel.map fun (i : ℕ) => l.getD i v) := by
    intro α v l hl
    haveI : Inhabited α := ⟨v⟩
    rw [gather_ok l sel (fun i hi => lt_of_lt_of_le (hsel i hi) hl)]
    congr 1
    refine List.map_congr_left fun i hi => ?_
    have := lt_of_lt_of_le (hsel i hi) hl
    simp [this]
  have pick : ∀ {α : Type} (v : α) (l : List α) (g : ℕ → Option α), l.map some = kept.map g →
      (sel.map fun (i : ℕ) => l.getD i v).map some = (sel.map fun i => kept.getD i 0).map g := by
    intro α v l g e
    rw [List.map_map, List.map_map]
    refine List.map_congr_left fun i hi => ?_
    have h1 := hsel i hi
    have h2 : i < l.length := by rw [len l g e]; exact h1
    have := congrArg (fun m => m[i]?) e
    simpa [h1, h2] using this
  refine ⟨⟨⟨sel.map fun i => d.sal.getD i [], sel.map fun i => d.ptmp.getD i [], sel.map fun i => d.pres.getD i [], sel.map fun i => d.lat.getD i none,
    sel.map fun i => d.long.getD i none, sel.map fun i => d.dates.getD i 0⟩, sel.map fun i => bz.getD i 0⟩, ?_, ?_, ?_, rfl⟩
  · unfold selectCasts
    rw [key [] d.sal (len _ _ h.sal).ge, key [] d.ptmp (len _ _ h.ptmp).ge, key [] d.pres (len _ _ h.pres).ge, key none d.lat h.latLen.ge,
      key none d.long h.longLen.ge, key 0 d.dates (len _ _ h.dates).ge, key 0 bz hz]
    rfl
  · refine ⟨pick _ _ _ h.pres, pick _ _ _ h.ptmp, pick _ _ _ h.sal, pick _ _ _ h.dates, ?_, by simp, by simp, pick _ _ _ h.side, ?_⟩
    · intro n hn
      obtain ⟨i, hi, rfl⟩ := List.mem_map.1 hn
      have h1 := hsel i hi
      rw [List.getD_eq_getElem?_getD, List.getElem?_eq_getElem h1]
      exact h.short _ (List.getElem_mem h1)
    · intro k n hk
      rw [List.getElem?_map, Option.map_eq_some_iff] at hk
      obtain ⟨i, hi, rfl⟩ := hk
      have h1 := hsel i (List.mem_of_getElem? hi)
      obtain ⟨c, y, x, x', m, e1, e2, e3, e4, e5, e6⟩ := h.place i (kept.getD i 0) (by simp [h1])
      refine ⟨c, y, x, x', m, e1, e2, e3, ?_, ?_, e6⟩
      · simp [hi, e4]
      · simp [hi, e5]
  · simp

/-- The casts at the positions `sel` are used: all of them without the frontal criterion and north of 30 degrees South, otherwise those of the float's class
if there are at least six, and all of them if not. -/
structure Selected (E : Env) (f : SafFloat ℝ) (d : RegionData ℝ) (bz : List ℝ) (n : ℕ) (sel : List ℕ) : Prop where
  ascending : sel.Pairwise (· < ·)
  inside : ∀ i ∈ sel, i < n
  off : ¬ (E.useSaf = 1 ∧ f.lat < -30) → sel = List.range n
  on : E.useSaf = 1 → f.lat < -30 → ∃ (k : ℤ) (cl : List ℤ), floatClass E.interp E.saf f = .ok k ∧ gridClasses E.interp E.temperature ⟨d, bz⟩ k = .ok cl ∧
    sel = if 6 ≤ (argwhere (fun c => decide (c = k)) cl).length then argwhere (fun c => decide (c = k)) cl else List.range n

/-- The result of the frontal criterion. -/
theorem applySaf_selects (E : Env) (f : SafFloat ℝ) {limit : Option ℝ} {index : List ℕ} {casts : List (RefCast ℝ)} {kept : List ℕ} {d : RegionData ℝ}
    (h : Columns limit index casts kept d) (bz : List ℝ) (hz : kept.length ≤ bz.length) (b : SafGrid ℝ)
    (hb : applySaf E.interp E.temperature E.saf (decide (E.useSaf = 1)) ⟨d, bz⟩ f = .ok b) :
    ∃ sel : List ℕ, Selected E f d bz kept.length sel ∧ Columns limit index casts (sel.map fun i => kept.getD i 0) b.data ∧
      (∀ (k i : ℕ), sel[k]? = some i → b.z[k]? = bz[i]?) ∧ sel.length ≤ b.z.length ∧ ∀ w ∈ b.z, w ∈ bz := by
  have hall : (List.range kept.length).map (fun i => kept.getD i 0) = kept := by
    apply List.ext_getElem
    · simp
    · intro i h1 h2
      simp [h2]
  have hwhole : Columns limit index casts ((List.range kept.length).map fun i => kept.getD i 0) d := by rw [hall]; exact h
  have hrange : ∀ (k i : ℕ), (List.range kept.length)[k]? = some i → bz[k]? = bz[i]? := by
    intro k i hk
    obtain ⟨h1, h2⟩ := List.getElem?_eq_some_iff.1 hk
    rw [List.getElem_range] at h2
    rw [h2]
  have sorted : (List.range kept.length).Pairwise (· < ·) := List.pairwise_lt_range
  have inside : ∀ i ∈ List.range kept.length, i < kept.length := fun i hi => List.mem_range.1 hi
  unfold applySaf at hb
  by_cases hu : E.useSaf = 1
  · rw [if_pos (by simpa using hu)] at hb
    by_cases hl : f.lat < -30
    · unfold frontalConstraint at hb
      rw [if_pos hl] at hb
      simp only [bind, Except.bind] at hb
      cases hc : floatClass E.interp E.saf f with
      | error e => rw [hc] at hb; cases hb
      | ok k =>
        rw [hc] at hb
        dsimp only at hb
        cases hg : gridClasses E.interp E.temperature ⟨d, bz⟩ k with
        | error e => rw [hg] at hb; cases hb
        | ok cl =>
          rw [hg] at hb
          dsimp only at hb
          have hcl : cl.length = kept.length := by rw [gridClasses_length _ _ _ _ _ hg]; exact h.longLen
          have hin : ∀ i ∈ argwhere (fun c => decide (c = k)) cl, i < kept.length := fun i hi => by rw [← hcl]; exact argwhere_lt _ _ _ hi
          obtain ⟨b2, e1, e2, e3, e4⟩ := h.select bz hz _ hin
          rw [e1] at hb
          dsimp only at hb
          split_ifs at hb with h6 h6'
          · obtain rfl := Except.ok.inj hb
            refine ⟨argwhere (fun c => decide (c = k)) cl, ⟨argwhere_sorted _ _, hin, fun hn => absurd ⟨hu, hl⟩ hn, fun _ _ => ⟨k, cl, hc, hg, ?_⟩⟩, e2, ?_, ?_, ?_⟩
            · rw [if_pos (by omega)]
            · intro j i hj
              have := lt_of_lt_of_le (hin i (List.mem_of_getElem? hj)) hz
              rw [e4, List.getElem?_map, hj]
              simp [this]
            · rw [e4, List.length_map]
            · intro w hw
              rw [e4] at hw
              obtain ⟨i, hi, rfl⟩ := List.mem_map.1 hw
              have := lt_of_lt_of_le (hin i hi) hz
              rw [List.getD_eq_getElem?_getD, List.getElem?_eq_getElem this]
              exact List.getElem_mem this
          · obtain rfl := Except.ok.inj hb
            refine ⟨List.range kept.length, ⟨sorted, inside, fun _ => rfl, fun _ _ => ⟨k, cl, hc, hg, ?_⟩⟩, hwhole, hrange, by simpa using hz, fun w hw => hw⟩
            rw [if_neg (by omega)]
    · unfold frontalConstraint at hb
      rw [if_neg hl] at hb
      simp only [bind, Except.bind] at hb
      have : b = ⟨d, bz⟩ := by
        split_ifs at hb
        · exact (Except.ok.inj hb).symm
        · exact (Except.ok.inj hb).symm
      subst this
      exact ⟨List.range kept.length, ⟨sorted, inside, fun _ => rfl, fun _ h2 => absurd h2 hl⟩, hwhole, hrange, by simpa using hz, fun w hw => hw⟩
  · rw [if_neg (by simpa using hu)] at hb
    obtain rfl := (Except.ok.inj hb).symm
    exact ⟨List.range kept.length, ⟨sorted, inside, fun _ => rfl, fun h1 _ => absurd h1 hu⟩, hwhole, hrange, by simpa using hz, fun w hw => hw⟩

/-! ## The saved file -/

/-- What the levels of a profile give, once its surroundings are known. -/
theorem prepared_levels (E : Env) (hi : IsInterp2d E.interp2) (hf : E.topo.length = 2160 * 4320) (hw : WellFormedDisk E.disk)
    (hsort : IsArgsort E.argsort) (hrand : ValidRand E.rand) (hcfg : ProperConfig E.cfg) (hmax : 1 ≤ E.maxCasts)
    (f : FloatProfile) (lat long : ℝ) (hlat : -90 ≤ lat ∧ lat ≤ 90) (hlong : -180 ≤ long ∧ long ≤ 540)
    (hl1 : f.ptmp.length = f.sal.length) (hl2 : f.pres.length = f.sal.length)
    (hpos : ∀ c ∈ surrounding E long lat, ∀ y x : ℝ, c.lat = some y → c.long = some x → (-90 ≤ y ∧ y ≤ 90) ∧ -180 ≤ x ∧ x ≤ 360)
    (p : Prepared) (hpr : prepare E f lat long = .ok p) :
    ∃ (index all sel kept deep : List ℕ) (there : List FloatPos) (d : RegionData ℝ) (bz : List ℝ),
      all = keptNumbers (pressureLimit f.pres E.cfg.pDelta) index (surrounding E long lat) ∧ all.length ≤ index.length ∧
      Columns (pressureLimit f.pres E.cfg.pDelta) index (surrounding E long lat) all d ∧
      Selected E ⟨lat, f.pres.zip (f.tmp.zip f.sal)⟩ d bz all.length sel ∧
      kept = sel.map (fun i => all.getD i 0) ∧ deep = sel.map (fun i => index.getD i 0) ∧
      Surroundings E f lat long (surrounding E long lat) index kept deep p.pos there ∧
      ∀ (n : ℕ) (s q : ℝ), f.sal[n]? = some (some s) → f.pres[n]? = some (some q) → E.cfg.pExclude ≤ q →
        ∃ used : List (ℕ × ℝ), used.Pairwise (fun a b => a.1 < b.1) ∧
          (∀ (k : ℕ) (s' : ℝ), (k, s') ∈ used ↔ ∃ (j : ℕ) (c : RefCast ℝ) (v : ℝ),
            kept[k]? = some j ∧ (surrounding E long lat)[j]? = some c ∧ f.ptmp[n]? = some (some v) ∧
            Meets (pressureLimit f.pres E.cfg.pDelta) c v q E.cfg.pDelta s') ∧
          (used.length ≤ 5 → levelOf E f p n = .ok none) ∧
          (5 < used.length → ∃ (samples : List Sample) (nv : ℝ),
            samples.map some = used.map (fun u => (there[u.1]?).map fun a => ⟨u.2, a⟩) ∧ IsNoiseVariance (sampleObs (inliers samples)) nv ∧
            (nv = 0 ∧ levelOf E f p n = .error .linAlgError ∨ 0 < nv ∧ ∃ (value err : ℝ) (o : LevelOut ℝ), TwoStage E.cfg p.pos (inliers samples) nv value err ∧
              levelOf E f p n = .ok (some o) ∧ some (o.values .ptmp) = f.ptmp[n]? ∧ o.values .mappedSal = some value ∧ o.values .mapErrors = some err ∧
              o.values .noise = some nv ∧ o.values .signal = some (populationVariance ((inliers samples).map Sample.sal)))) := by
  obtain ⟨index, z, zs, d, bz, b, S, P, hF, hb, g1, g2, g3, g4, g5⟩ := prepared_found E hi hf hw f lat long p hpr _ rfl hpos
  have hle := keptNumbers_le (pressureLimit f.pres E.cfg.pDelta) index (surrounding E long lat)
  obtain ⟨sel, hsel, hcol, hz1, hz2, hz3⟩ := applySaf_selects E _ hF.columns bz (by rw [hF.zlen]; exact hle) b hb
  have hsl : sel.length ≤ index.length := by
    have : sel.length ≤ (List.range (keptNumbers (pressureLimit f.pres E.cfg.pDelta) index (surrounding E long lat)).length).length :=
      ((show sel.Nodup from hsel.ascending.imp fun h => ne_of_lt h).subperm fun i hi => List.mem_range.2 (hsel.inside i hi)).length_le
    rw [List.length_range] at this
    omega
  obtain ⟨there, hsur, key⟩ := columns_levels E hi hf hsort hrand hcfg hmax f lat long hlat hlong hl1 hl2 p _ index z zs d bz b S P hF _
    (sel.map fun i => index.getD i 0) hcol (by simpa using hsl) (by simpa using hz2) hz3 (by
      intro k hk
      rw [List.length_map] at hk
      obtain ⟨i, hi⟩ : ∃ i, sel[k]? = some i := ⟨_, List.getElem?_eq_getElem hk⟩
      have h1 := hsel.inside i (List.mem_of_getElem? hi)
      have h2 : index[i]? = some (index.getD i 0) := by
        have : i < index.length := by omega
        simp [this]
      obtain ⟨c, y, x, w, e1, e2, e3, e4, e5⟩ := hF.zdepth i _ h2
      exact ⟨_, c, y, x, w, by rw [List.getElem?_map, hi]; rfl, e1, e2, e3, by rw [hz1 k i hi]; exact e4, e5⟩) g1 g2 g3 g4 g5
  exact ⟨index, _, sel, _, _, there, d, bz, rfl, hle, hF.columns, hsel, rfl, rfl, hsur, key⟩

/-- What a successful run saves, with and without the frontal criterion. -/
theorem saved_any (R : FloatRun) (fs : Fs ℝ) (hi : IsInterp2d R.env.interp2) (hf : R.env.topo.length = 2160 * 4320) (hw : WellFormedDisk R.env.disk)
    (hsort : IsArgsort R.env.argsort) (hrand : ValidRand R.env.rand) (hcfg : ProperConfig R.env.cfg) (hmax : 1 ≤ R.env.maxCasts)
    (hno : R.no.Pairwise (· < ·)) (hlen : R.no.length = R.source.length) (hload : fs R.loadPath = none) (hrun : (updateMapping R.args fs).1 = none) :
    ∃ file : MapFile ℝ, finalFs R.args fs = Function.update fs R.savePath (some (.whole file)) ∧ file.profileNo = R.no ∧
      ∀ (i : ℕ) (f : FloatProfile) (lat long : ℝ), R.source[i]? = some f → Placed f → f.lat = some lat → f.long = some long →
        (-90 ≤ lat ∧ lat ≤ 90) → (-180 ≤ long ∧ long ≤ 540) → f.ptmp.length = f.sal.length → f.pres.length = f.sal.length →
        (∀ c ∈ surrounding R.env long lat, ∀ y x : ℝ, c.lat = some y → c.long = some x → (-90 ≤ y ∧ y ≤ 90) ∧ -180 ≤ x ∧ x ≤ 360) →
        ∃ (index all sel kept deep : List ℕ) (here : FloatPos) (there : List FloatPos) (d : RegionData ℝ) (bz : List ℝ),
          all = keptNumbers (pressureLimit f.pres R.env.cfg.pDelta) index (surrounding R.env long lat) ∧ all.length ≤ index.length ∧
          Columns (pressureLimit f.pres R.env.cfg.pDelta) index (surrounding R.env long lat) all d ∧
          Selected R.env ⟨lat, f.pres.zip (f.tmp.zip f.sal)⟩ d bz all.length sel ∧
          kept = sel.map (fun i => all.getD i 0) ∧ deep = sel.map (fun i => index.getD i 0) ∧
          Surroundings R.env f lat long (surrounding R.env long lat) index kept deep here there ∧
          ∀ (n : ℕ) (s q : ℝ), n < R.levels → f.sal[n]? = some (some s) → f.pres[n]? = some (some q) → R.env.cfg.pExclude ≤ q →
            ∃ used : List (ℕ × ℝ), used.Pairwise (fun a b => a.1 < b.1) ∧
              (∀ (k : ℕ) (s' : ℝ), (k, s') ∈ used ↔ ∃ (j : ℕ) (c : RefCast ℝ) (v : ℝ), kept[k]? = some j ∧ (surrounding R.env long lat)[j]? = some c ∧
                f.ptmp[n]? = some (some v) ∧ Meets (pressureLimit f.pres R.env.cfg.pDelta) c v q R.env.cfg.pDelta s') ∧
              (used.length ≤ 5 → ∀ m, storedAt file m i n = some none) ∧
              (5 < used.length → ∃ (samples : List Sample) (nv value err : ℝ),
                samples.map some = used.map (fun u => (there[u.1]?).map fun a => ⟨u.2, a⟩) ∧ IsNoiseVariance (sampleObs (inliers samples)) nv ∧ 0 < nv ∧
                TwoStage R.env.cfg here (inliers samples) nv value err ∧
                storedAt file .ptmp i n = f.ptmp[n]? ∧
                (30 ≤ value ∧ value ≤ 40 → storedAt file .mappedSal i n = some (some value)) ∧
                (¬ (30 ≤ value ∧ value ≤ 40) → storedAt file .mappedSal i n = some none) ∧
                storedAt file .mapErrors i n = some (some err) ∧ storedAt file .noise i n = some (some nv) ∧
                storedAt file .signal i n = some (some (populationVariance ((inliers samples).map Sample.sal)))) := by
  obtain ⟨file, h1, h2, h3, -⟩ := fresh_run_saved R fs hsort hno hload hrun
  refine ⟨file, h1, h2, ?_⟩
  intro i f lat long hif hpl hla hlo hlat hlong hl1 hl2 hpos
  have hin : i < R.no.length := by rw [hlen]; exact (List.getElem?_eq_some_iff.1 hif).1
  obtain ⟨r, hr, hlev⟩ := fresh_ok_all R.args fs hload hrun i hin
  have hr' : profilesOf R.env R.source i = .ok r := hr
  unfold profilesOf item at hr'
  rw [hif] at hr'
  simp only [bind, Except.bind] at hr'
  unfold profileOf at hr'
  rw [if_pos ((usable_iff f).2 hpl), hla, hlo] at hr'
  simp only [bind, Except.bind] at hr'
  cases hpr : prepare R.env f lat long with
  | error e => rw [hpr] at hr'; cases hr'
  | ok p =>
    rw [hpr] at hr'
    obtain rfl := Except.ok.inj hr'
    have hout : ∀ n o, levelOf R.env f p n = .ok o → levelOut R.args.P i n = o := by
      intro n o ho
      unfold levelOut
      rw [hr]
      dsimp only
      rw [ho]
    have hstored : ∀ n, n < R.levels → ∀ m, storedAt file m i n = some ((levelOut R.args.P i n).bind fun o => plausible m (o.values m)) := by
      intro n hn m
      unfold storedAt
      rw [h3, List.getElem?_map, List.getElem?_range hin]
      exact profileColumn_get _ _ _ _ _ hn
    obtain ⟨index, all, sel, kept, deep, there, d, bz, c1, c2, c3, c4, c5, c6, hsur, key⟩ := prepared_levels R.env hi hf hw hsort hrand hcfg hmax f lat long hlat hlong hl1 hl2
      hpos p hpr
    refine ⟨index, all, sel, kept, deep, p.pos, there, d, bz, c1, c2, c3, c4, c5, c6, hsur, ?_⟩
    intro n s q hn hsn hqn hex
    obtain ⟨used, u1, u2, u3, u4⟩ := key n s q hsn hqn hex
    refine ⟨used, u1, u2, ?_, ?_⟩
    · intro h5 m
      rw [hstored n hn m, hout n _ (u3 h5)]
      rfl
    · intro h5
      obtain ⟨samples, nv, w1, w2, w3⟩ := u4 h5
      rcases w3 with ⟨-, he⟩ | ⟨w0, value, err, o, v1, v2, v3, v4, v5, v6, v7⟩
      · obtain ⟨q', hq'⟩ := hlev _ rfl n hn
        rw [he] at hq'
        cases hq'
      · have hst : ∀ m, storedAt file m i n = some (plausible m (o.values m)) := by
          intro m
          rw [hstored n hn m, hout n _ v2]
          rfl
        refine ⟨samples, nv, value, err, w1, w2, w0, v1, ?_, ?_, ?_, ?_, ?_, ?_⟩
        · rw [hst, ← v3]; rfl
        · intro hv
          rw [hst, v4]
          simp [plausible, hv]
        · intro hv
          rw [hst, v4]
          simp only [plausible, if_true, Option.filter_some, decide_eq_true_eq, hv, if_false]
        · rw [hst, v5]; rfl
        · rw [hst, v6]; rfl
        · rw [hst, v7]; rfl

/-- C133. What a successful run without a mapped file saves, in terms of the input files. Let profile `i` have a position and a pressure below its first
level. There is a choice of reference casts around the float (C10 to C12) such that for every level with salinity and pressure at or below the
exclusion pressure the following holds. The casts used are those of the choice with data that meet the temperature of the level within the pressure
window, each with its salinity there. If there are at most five, all five entries of the level are missing. Otherwise the entries are the temperature of
the level, the two-stage estimate of the salinity from these casts without the outliers if it lies between 30 and 40, its error, the noise variance and the
variance of these salinities. -/
theorem saved_value (R : FloatRun) (fs : Fs ℝ) (hi : IsInterp2d R.env.interp2) (hf : R.env.topo.length = 2160 * 4320) (hw : WellFormedDisk R.env.disk)
    (hs : R.env.useSaf ≠ 1) (hsort : IsArgsort R.env.argsort) (hrand : ValidRand R.env.rand) (hcfg : ProperConfig R.env.cfg) (hmax : 1 ≤ R.env.maxCasts)
    (hno : R.no.Pairwise (· < ·)) (hlen : R.no.length = R.source.length) (hload : fs R.loadPath = none) (hrun : (updateMapping R.args fs).1 = none) :
    ∃ file : MapFile ℝ, finalFs R.args fs = Function.update fs R.savePath (some (.whole file)) ∧ file.profileNo = R.no ∧
      ∀ (i : ℕ) (f : FloatProfile) (lat long : ℝ), R.source[i]? = some f → Placed f → f.lat = some lat → f.long = some long →
        (-90 ≤ lat ∧ lat ≤ 90) → (-180 ≤ long ∧ long ≤ 540) → f.ptmp.length = f.sal.length → f.pres.length = f.sal.length →
        (∀ c ∈ surrounding R.env long lat, ∀ y x : ℝ, c.lat = some y → c.long = some x → (-90 ≤ y ∧ y ≤ 90) ∧ -180 ≤ x ∧ x ≤ 360) →
        ∃ (index kept : List ℕ) (here : FloatPos) (there : List FloatPos),
          kept = keptNumbers (pressureLimit f.pres R.env.cfg.pDelta) index (surrounding R.env long lat) ∧
          Surroundings R.env f lat long (surrounding R.env long lat) index kept index here there ∧
          ∀ (n : ℕ) (s q : ℝ), n < R.levels → f.sal[n]? = some (some s) → f.pres[n]? = some (some q) → R.env.cfg.pExclude ≤ q →
            ∃ used : List (ℕ × ℝ), used.Pairwise (fun a b => a.1 < b.1) ∧
              (∀ (k : ℕ) (s' : ℝ), (k, s') ∈ used ↔ ∃ (j : ℕ) (c : RefCast ℝ) (v : ℝ), kept[k]? = some j ∧ (surrounding R.env long lat)[j]? = some c ∧
                f.ptmp[n]? = some (some v) ∧ Meets (pressureLimit f.pres R.env.cfg.pDelta) c v q R.env.cfg.pDelta s') ∧
              (used.length ≤ 5 → ∀ m, storedAt file m i n = some none) ∧
              (5 < used.length → ∃ (samples : List Sample) (nv value err : ℝ),
                samples.map some = used.map (fun u => (there[u.1]?).map fun a => ⟨u.2, a⟩) ∧ IsNoiseVariance (sampleObs (inliers samples)) nv ∧ 0 < nv ∧
                TwoStage R.env.cfg here (inliers samples) nv value err ∧
                storedAt file .ptmp i n = f.ptmp[n]? ∧
                (30 ≤ value ∧ value ≤ 40 → storedAt file .mappedSal i n = some (some value)) ∧
                (¬ (30 ≤ value ∧ value ≤ 40) → storedAt file .mappedSal i n = some none) ∧
                storedAt file .mapErrors i n = some (some err) ∧ storedAt file .noise i n = some (some nv) ∧
                storedAt file .signal i n = some (some (populationVariance ((inliers samples).map Sample.sal)))) := by
  obtain ⟨file, h1, h2, h3⟩ := saved_any R fs hi hf hw hsort hrand hcfg hmax hno hlen hload hrun
  refine ⟨file, h1, h2, ?_⟩
  intro i f lat long hif hpl hla hlo hlat hlong hl1 hl2 hpos
  obtain ⟨index, all, sel, kept, deep, here, there, d, bz, e1, e2, -, e3, e4, e5, e6, e7⟩ := h3 i f lat long hif hpl hla hlo hlat hlong hl1 hl2 hpos
  have e8 := e3.off (fun h => hs h.1)
  have e9 : kept = all := by
    rw [e4, e8]
    apply List.ext_getElem
    · simp
    · intro i h1 h2
      simp [h2]
  refine ⟨index, kept, here, there, by rw [e9, e1], ⟨e6.float, e6.chosen, e6.number, e6.place, ?_⟩, e7⟩
  intro k a ha
  obtain ⟨n, c, y, x, g1, g2⟩ := e6.depth k a ha
  refine ⟨n, c, y, x, ?_, g2⟩
  rw [e5, e8, List.getElem?_map, Option.map_eq_some_iff] at g1
  obtain ⟨j, hj, hn⟩ := g1
  obtain ⟨w1, w2⟩ := List.getElem?_eq_some_iff.1 hj
  rw [List.getElem_range] at w2
  rw [List.length_range] at w1
  have : j < index.length := by omega
  rw [w2, ← hn]
  simp [this]

end Verif.Props
