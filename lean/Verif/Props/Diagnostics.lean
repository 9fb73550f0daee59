import Verif.Spec.Diagnostics
import Verif.Lemmas.Plots
import Verif.Props.Plots
import Verif.Props.ThetasSalinity
import Verif.Props.SalVar

/-!
# C136-C138: the map, the error bars and the figures of `plot_diagnostics`
-/

set_option linter.unusedSectionVars false

namespace Verif.Props

open Verif.Np Verif.Spec Verif.Helper Verif.Plots Verif.Workflow Verif.Diagnostics Verif.Thetas

variable {K : Type} [Field K] [LinearOrder K] [IsStrictOrderedRing K] [FloorRing K]

/-! ## C136 the map -/

theorem framed_of (l : List K) (m a b : K) (ha : l.min? = some a) (hb : l.max? = some b) : Framed (a - m, b + m) m l := by
  rw [List.min?_eq_some_iff] at ha
  rw [List.max?_eq_some_iff] at hb
  refine ⟨⟨a, ha.1, rfl⟩, ⟨b, hb.1, rfl⟩, fun v hv => ⟨?_, ?_⟩⟩
  · have := ha.2 v hv
    simpa using this
  · have := hb.2 v hv
    simpa using this

theorem mapOf_ok (sel : List (Selected K)) (hs : sel ≠ []) (no : List K) (lat long : List (Option K)) (h1 : no.length = lat.length) (h2 : lat.length = long.length) :
    ∃ x0 x1 y0 y1, ((castsOf sel).map Prod.fst).min? = some x0 ∧ ((castsOf sel).map Prod.fst).max? = some x1 ∧ ((castsOf sel).map Prod.snd).min? = some y0 ∧
      ((castsOf sel).map Prod.snd).max? = some y1 ∧
      mapOf sel no lat long = .ok ⟨castsOf sel, (List.zipWith (fun (v : K) (p : Option K × Option K) => (⟨v, p.1, p.2.map wrap180⟩ : Place K)) no (lat.zip long)).map fun r => (r.long, r.lat),
        (x0 - 20, x1 + 20), (y0 - 15, y1 + 15),
        labelsOf (List.zipWith (fun (v : K) (p : Option K × Option K) => (⟨v, p.1, p.2.map wrap180⟩ : Place K)) no (lat.zip long))⟩ := by
  have hne : castsOf sel ≠ [] := by unfold castsOf; simpa using hs
  have e : ∀ l : List K, l ≠ [] → (∃ a, l.min? = some a) ∧ ∃ b, l.max? = some b := by
    intro l hl
    refine ⟨?_, ?_⟩
    · cases h : l.min? with
      | none => exact absurd (List.min?_eq_none_iff.1 h) hl
      | some a => exact ⟨a, rfl⟩
    · cases h : l.max? with
      | none => exact absurd (List.max?_eq_none_iff.1 h) hl
      | some a => exact ⟨a, rfl⟩
  obtain ⟨⟨x0, hx0⟩, x1, hx1⟩ := e ((castsOf sel).map Prod.fst) (by simpa using hne)
  obtain ⟨⟨y0, hy0⟩, y1, hy1⟩ := e ((castsOf sel).map Prod.snd) (by simpa using hne)
  refine ⟨x0, x1, y0, y1, hx0, hx1, hy0, hy1, ?_⟩
  unfold mapOf placesOf
  simp only [hx0, hx1, hy0, hy1, h1, h2, and_self, if_true, bind, Except.bind, pure, Except.pure]

/-- C136. The map is drawn exactly if there are reference casts and the source has a latitude, a longitude and a number for every profile. -/
theorem map_drawn_iff (sel : List (Selected K)) (no : List K) (lat long : List (Option K)) :
    (∃ M, mapOf sel no lat long = .ok M) ↔ sel ≠ [] ∧ no.length = lat.length ∧ lat.length = long.length := by
  constructor
  · rintro ⟨M, hM⟩
    constructor
    · rintro rfl
      simp [mapOf, castsOf] at hM
    · by_contra hc
      unfold mapOf placesOf at hM
      simp only [if_neg hc] at hM
      split at hM <;> simp [bind, Except.bind] at hM
  · rintro ⟨h1, h2, h3⟩
    obtain ⟨x0, x1, y0, y1, -, -, -, -, h⟩ := mapOf_ok sel h1 no lat long h2 h3
    exact ⟨_, h⟩

/-- C136. All reference casts are drawn where they were taken, at least 20 degrees of longitude and 15 of latitude inside of the frame, which is as small as it can
be; the profiles of the float are drawn at their positions. -/
theorem map_shows_casts (sel : List (Selected K)) (no : List K) (lat long : List (Option K)) (M : Map K) (h : mapOf sel no lat long = .ok M)
    (hl : ∀ s ∈ sel, FileLongitude s.long) (hf : ∀ x, some x ∈ long → FileLongitude x) :
    List.Forall₂ (fun (s : Selected K) (p : K × K) => DrawnAs s.long p.1 ∧ p.2 = s.lat) sel M.casts ∧
    Framed M.xlim 20 (M.casts.map Prod.fst) ∧ Framed M.ylim 15 (M.casts.map Prod.snd) ∧
    M.track.length = no.length ∧ ∀ (r : ℕ) (x y : Option K), M.track[r]? = some (x, y) →
      lat[r]? = some y ∧ ∃ x', long[r]? = some x' ∧ (x' = none → x = none) ∧ ∀ v, x' = some v → ∃ w, x = some w ∧ DrawnAs v w := by
  obtain ⟨h1, h2, h3⟩ := (map_drawn_iff sel no lat long).1 ⟨M, h⟩
  obtain ⟨x0, x1, y0, y1, hx0, hx1, hy0, hy1, hM⟩ := mapOf_ok sel h1 no lat long h2 h3
  rw [h] at hM
  obtain rfl := Except.ok.inj hM
  have hw : ∀ x : K, FileLongitude x → DrawnAs x (wrap180 x) := by
    intro x hx
    obtain ⟨a, b, c, -⟩ := drawn_longitude x hx
    exact ⟨c, a, b⟩
  refine ⟨?_, framed_of _ _ _ _ hx0 hx1, framed_of _ _ _ _ hy0 hy1, ?_, ?_⟩
  · unfold castsOf
    rw [List.forall₂_map_right_iff, List.forall₂_same]
    exact fun s hs => ⟨hw _ (hl s hs), rfl⟩
  · simp only [List.length_map, List.length_zipWith, List.length_zip]
    omega
  · intro r x y hr
    simp only [List.getElem?_map, List.getElem?_zipWith, List.zip, Option.map_eq_some_iff] at hr
    obtain ⟨p, hp, he⟩ := hr
    cases e1 : no[r]? with
    | none => rw [e1] at hp; simp at hp
    | some v =>
      cases e2 : lat[r]? with
      | none => rw [e1, e2] at hp; simp at hp
      | some a =>
        cases e3 : long[r]? with
        | none => rw [e1, e2, e3] at hp; simp at hp
        | some b =>
          rw [e1, e2, e3] at hp
          simp only [Option.some.injEq] at hp
          subst hp
          simp only [Prod.mk.injEq] at he
          obtain ⟨rfl, rfl⟩ := he
          refine ⟨rfl, b, rfl, ?_, ?_⟩
          · rintro rfl; rfl
          · rintro v' rfl
            exact ⟨_, rfl, hw _ (hf _ (List.mem_of_getElem? e3))⟩

/-- C136, labels. The rows named are the first, the last and every third one, with their own numbers, where the profile is drawn; the colours ascend to the end of the scale. -/
theorem map_labels (sel : List (Selected K)) (no : List K) (lat long : List (Option K)) (M : Map K) (h : mapOf sel no lat long = .ok M) (l : Label K) :
    l ∈ M.labels ↔ Named no.length l.row ∧ no[l.row]? = some l.text ∧ M.track[l.row]? = some (l.long, l.lat) ∧ l.colour * (no.length : K) = (l.row : K) + 1 := by
  obtain ⟨h1, h2, h3⟩ := (map_drawn_iff sel no lat long).1 ⟨M, h⟩
  obtain ⟨x0, x1, y0, y1, -, -, -, -, hM⟩ := mapOf_ok sel h1 no lat long h2 h3
  rw [h] at hM
  obtain rfl := Except.ok.inj hM
  set rows := List.zipWith (fun (v : K) (p : Option K × Option K) => (⟨v, p.1, p.2.map wrap180⟩ : Place K)) no (lat.zip long) with hrows
  have hlen : rows.length = no.length := by
    rw [hrows]
    simp only [List.length_zipWith, List.length_zip]
    omega
  have hnum : ∀ r : ℕ, no[r]? = (rows[r]?).map Place.number := by
    intro r
    by_cases hr : r < no.length
    · rw [hrows]
      simp only [List.getElem?_zipWith, List.zip]
      rw [List.getElem?_eq_getElem hr, List.getElem?_eq_getElem (by omega : r < lat.length), List.getElem?_eq_getElem (by omega : r < long.length)]
      rfl
    · rw [List.getElem?_eq_none (by omega), List.getElem?_eq_none (by omega)]
      rfl
  have hnamed : ∀ r, r < no.length → ((r = 0 ∨ r % 3 = 0 ∨ r = rows.length - 1) ↔ Named no.length r) := by
    intro r hr
    unfold Named
    rw [hlen]
    constructor
    · rintro (a | a | a)
      · exact .inl a
      · exact .inr (.inl (Nat.dvd_of_mod_eq_zero a))
      · exact .inr (.inr (by omega))
    · rintro (a | a | a)
      · exact .inl a
      · exact .inr (.inl (Nat.mod_eq_zero_of_dvd a))
      · exact .inr (.inr (by omega))
  change l ∈ labelsOf rows ↔ Named no.length l.row ∧ no[l.row]? = some l.text ∧ (rows.map fun r => (r.long, r.lat))[l.row]? = some (l.long, l.lat) ∧ _
  unfold labelsOf
  rw [List.mem_map]
  constructor
  · rintro ⟨⟨p, r⟩, hp, rfl⟩
    obtain ⟨hp, hd⟩ := List.mem_filter.1 hp
    have hp := List.mk_mem_zipIdx_iff_getElem?.1 hp
    simp only [decide_eq_true_eq] at hd
    have hr : r < no.length := by
      rw [← hlen]
      exact (List.getElem?_eq_some_iff.1 hp).1
    refine ⟨(hnamed r hr).1 hd, ?_, ?_, ?_⟩
    · rw [hnum, hp]; rfl
    · rw [List.getElem?_map, hp]; rfl
    · rw [hlen]
      exact div_mul_cancel₀ _ (by
        have : (0 : K) < (no.length : K) := by exact_mod_cast (by omega : 0 < no.length)
        exact this.ne')
  · rintro ⟨ha, hb, hc, hd⟩
    have hr : l.row < no.length := (List.getElem?_eq_some_iff.1 hb).1
    rw [hnum, Option.map_eq_some_iff] at hb
    obtain ⟨p, hp, hpn⟩ := hb
    rw [List.getElem?_map, hp] at hc
    simp only [Option.map_some, Option.some.injEq, Prod.mk.injEq] at hc
    refine ⟨(p, l.row), List.mem_filter.2 ⟨List.mk_mem_zipIdx_iff_getElem?.2 hp, ?_⟩, ?_⟩
    · simp only [decide_eq_true_eq]
      exact (hnamed _ hr).2 ha
    · have hn : (0 : K) < (no.length : K) := by exact_mod_cast (by omega : 0 < no.length)
      obtain ⟨r, t, x, y, c⟩ := l
      simp only at hp hpn hc hd ⊢
      rw [hpn, hc.1, hc.2, hlen]
      congr 1
      rw [div_eq_iff hn.ne', hd]

/-- C136. Among any three profiles in a row one is named. -/
theorem map_named_often (n r : ℕ) : Named n r ∨ Named n (r + 1) ∨ Named n (r + 2) := by
  unfold Named
  have : r % 3 = 0 ∨ (r + 1) % 3 = 0 ∨ (r + 2) % 3 = 0 := by omega
  rcases this with a | a | a
  · exact .inl (.inr (.inl (Nat.dvd_of_mod_eq_zero a)))
  · exact .inr (.inl (.inr (.inl (Nat.dvd_of_mod_eq_zero a))))
  · exact .inr (.inr (.inr (.inl (Nat.dvd_of_mod_eq_zero a))))

/-- C136, limits of the claim. A float just across the date line from its reference casts is not on the map: float at 181 degrees east, cast at 179. -/
theorem map_misses_float :
    ∃ M : Map ℚ, mapOf [⟨179, 10, 0⟩] [1] [some 10] [some 181] = .ok M ∧ ∃ x y, M.track = [(some x, some y)] ∧ ¬ OnMap M.xlim M.ylim x y := by
  refine ⟨⟨[(179, 10)], [(some (-179), some 10)], (159, 199), (-5, 25), labelsOf [⟨1, some 10, some (-179)⟩]⟩, ?_, -179, 10, rfl, ?_⟩
  · have e1 : wrap180 (179 : ℚ) = 179 := by unfold wrap180; norm_num
    have e2 : wrap180 (181 : ℚ) = -179 := by unfold wrap180; norm_num
    simp [mapOf, castsOf, placesOf, e1, e2, bind, Except.bind, pure, Except.pure]
    norm_num
  · unfold OnMap
    norm_num

/-! ## C137 the error bars -/

theorem thetaIndex_near (B : Bounds K) (prof : List (Level K)) (th : Option K) (i : ℕ) (h : thetaIndex th (prof.map (mask B)) = some i) :
    ∃ v t, th = some v ∧ NearestCell B prof v i t := by
  obtain ⟨v, lo, hi', t, l, e, h1, h2, h3, h4, hl, ht, hmin, hfirst⟩ := thetaIndex_some h
  have hti : SalVar.tempAt (prof.map (mask B)) i = some t := by
    unfold SalVar.tempAt; rw [hl]; exact ht
  refine ⟨v, t, e, (tempAt_mask B prof i t).1 hti, fun j u hj => ?_⟩
  obtain ⟨lj, a1, a2⟩ := Option.bind_eq_some_iff.1 ((tempAt_mask B prof j u).2 hj)
  exact ⟨hmin j lj u a1 a2, fun hji => hfirst j lj u hji a1 a2⟩

theorem select_length_le (n : ℕ) (v : List (Option K)) : (select n v).length ≤ n := by
  induction n generalizing v with
  | zero => simp [select]
  | succ n ih =>
    unfold select
    split
    · simp
    · simpa using ih _

open Classical in
theorem bars_levels (B : Bounds K) (prof : List (SalVar.Cell K)) (ths : List (Option K)) :
    ∃ bars, (ths.filterMap fun th => thetaIndex th ((prof.map SalVar.Cell.toLevel).map (mask B))).mapM (fun (j : ℕ) => do
        let c ← item prof j
        pure (⟨c.mapSal, c.mapPtmp, c.mapErr⟩ : Bar K)) = .ok bars ∧
      List.Forall₂ (BarFor B prof) ((ths.filterMap id).filter fun th => decide (TempsEnclose B (prof.map SalVar.Cell.toLevel) th)) bars := by
  induction ths with
  | nil => exact ⟨[], rfl, .nil⟩
  | cons th ths ih =>
    obtain ⟨bars, hb, hf⟩ := ih
    cases hi : thetaIndex th ((prof.map SalVar.Cell.toLevel).map (mask B)) with
    | none =>
      refine ⟨bars, ?_, ?_⟩
      · rw [List.filterMap_cons]; simp only [hi]; exact hb
      · cases th with
        | none => exact hf
        | some v =>
          have hn : ¬ TempsEnclose B (prof.map SalVar.Cell.toLevel) v := by
            intro he
            obtain ⟨i, hi'⟩ := (temps_enclose_iff B _ v).1 he
            rw [hi] at hi'; simp at hi'
          rw [List.filterMap_cons_some (by rfl : id (some v) = some v), List.filter_cons_of_neg (by simpa using hn)]
          exact hf
    | some i =>
      obtain ⟨v, t, rfl, hnear⟩ := thetaIndex_near B _ th i hi
      have hen : TempsEnclose B (prof.map SalVar.Cell.toLevel) v := (temps_enclose_iff B _ v).2 ⟨i, hi⟩
      obtain ⟨l, hl, hu, ht⟩ := hnear.1
      rw [List.getElem?_map, Option.map_eq_some_iff] at hl
      obtain ⟨x, hx, rfl⟩ := hl
      refine ⟨⟨x.mapSal, x.mapPtmp, x.mapErr⟩ :: bars, ?_, ?_⟩
      · rw [List.filterMap_cons]
        simp only [hi]
        rw [List.mapM_cons, hb]
        unfold item
        rw [hx]
        rfl
      · rw [List.filterMap_cons_some (by rfl : id (some v) = some v), List.filter_cons_of_pos (by simpa using hen)]
        exact .cons ⟨i, t, x, hnear, hx, hu.1, rfl, rfl, rfl⟩ hf

open Classical in
/-- C137. Once the ten theta levels are found the error bars of `theta_sal_plot` can always be drawn: for every profile one for each chosen temperature that its levels within
the limits enclose, at the mapped salinity and temperature of the level nearest to it, and no others. -/
theorem error_bars (B : Bounds K) (percent : K) (data : List (List (SalVar.Cell K))) (T : Thetas K)
    (h : find10thetas B percent (data.map fun prof => prof.map measuredLevel) = .ok T) :
    ∃ D, allBars T data = .ok D ∧ D.length = data.length ∧ ∀ (i : ℕ) (prof : List (SalVar.Cell K)), data[i]? = some prof → ∃ bars, D[i]? = some bars ∧
      List.Forall₂ (BarFor B prof) ((T.tLevels.filterMap id).filter fun th => decide (TempsEnclose B (prof.map measuredLevel) th)) bars ∧ bars.length ≤ 10 := by
  obtain ⟨pl, rows, h1, h2, h3, h4, h5, h6, h7⟩ := find10thetas_ok h
  have key : ∀ (i : ℕ) (prof : List (SalVar.Cell K)), data[i]? = some prof → ∃ bars, barsOf T.index i prof = .ok bars ∧
      List.Forall₂ (BarFor B prof) ((T.tLevels.filterMap id).filter fun th => decide (TempsEnclose B (prof.map SalVar.Cell.toLevel) th)) bars := by
    intro i prof hi
    obtain ⟨bars, hb, hf⟩ := bars_levels B prof T.tLevels
    refine ⟨bars, ?_, hf⟩
    rw [← hb]
    unfold barsOf
    congr 1
    rw [h7, h5, List.filterMap_map, List.filterMap_map]
    congr 1
    funext c
    simp only [Function.comp, List.getElem?_map, hi, Option.map_some, Option.join_some]
    rfl
  have hall : ∀ p ∈ data.zipIdx, ∃ bars, barsOf T.index p.2 p.1 = .ok bars := by
    rintro ⟨prof, i⟩ hp
    obtain ⟨bars, hb, -⟩ := key i prof (List.mk_mem_zipIdx_iff_getElem?.1 hp)
    exact ⟨bars, hb⟩
  have hD : ∃ D, allBars T data = .ok D := by
    unfold allBars
    cases hm : data.zipIdx.mapM (fun (p : List (SalVar.Cell K) × ℕ) => barsOf T.index p.2 p.1) with
    | ok D => exact ⟨D, rfl⟩
    | error e =>
      obtain ⟨p, hp, he⟩ := mapM_error hm
      obtain ⟨bars, hb⟩ := hall p hp
      rw [hb] at he; simp at he
  obtain ⟨D, hD⟩ := hD
  obtain ⟨hlen, hget⟩ := mapM_getElem hD
  refine ⟨D, hD, by simpa using hlen, fun i prof hi => ?_⟩
  obtain ⟨bars, hbi, hb⟩ := hget i (prof, i) (by rw [List.getElem?_zipIdx, hi]; simp)
  obtain ⟨bars', hb', hf⟩ := key i prof hi
  rw [hb] at hb'
  obtain rfl := Except.ok.inj hb'
  refine ⟨bars, hbi, hf, ?_⟩
  rw [← hf.length_eq]
  refine le_trans (List.length_filter_le _ _) (le_trans (List.length_filterMap_le _ _) ?_)
  rw [h5, List.length_map]
  exact select_length_le 10 _

/-! ## C138 the figures -/

theorem temps_of_thetas {B : Bounds K} {percent : K} {data : List (List (SalVar.Cell K))} {T : Thetas K}
    (h : find10thetas B percent (data.map fun prof => prof.map SalVar.Cell.toLevel) = .ok T) : (data.flatten.all fun c => c.ptmp.isNone) = false := by
  obtain ⟨pl, rows, h1, -⟩ := find10thetas_ok h
  by_contra hc
  have hc : (data.flatten.all fun c => c.ptmp.isNone) = true := by simpa using hc
  rw [List.all_eq_true] at hc
  unfold presLevels at h1
  cases e : nanmin ((((data.map fun prof => prof.map SalVar.Cell.toLevel).map fun prof => prof.map (mask B)).flatten).map Level.ptmp) with
  | none => rw [e] at h1; simp at h1
  | some lo =>
    have := (nanmin_some e).1
    obtain ⟨l, hl, hlo⟩ := List.mem_map.1 this
    obtain ⟨prof, hp, hl⟩ := List.mem_flatten.1 hl
    obtain ⟨prof', hp', rfl⟩ := List.mem_map.1 hp
    obtain ⟨prof'', hp'', rfl⟩ := List.mem_map.1 hp'
    obtain ⟨l', hl', rfl⟩ := List.mem_map.1 hl
    obtain ⟨c, hc', rfl⟩ := List.mem_map.1 hl'
    have h0 := hc c (List.mem_flatten.2 ⟨prof'', hp'', hc'⟩)
    have := ((mask_ptmp B (SalVar.Cell.toLevel c) lo).1 hlo).2
    rw [show (SalVar.Cell.toLevel c).ptmp = c.ptmp from rfl] at this
    rw [this] at h0
    simp at h0

/-- The figures of the salinities on theta levels: at most as many as asked for, all of them if there is no exception. -/
theorem variance_count (rows levels : ℕ) (B : Bounds K) (percent : K) (data : List (List (SalVar.Cell K))) :
    (SalVar.salVarPlot rows levels B percent data).1 ≤ levels ∧
      ((SalVar.salVarPlot rows levels B percent data).2 = none → (SalVar.salVarPlot rows levels B percent data).1 = levels) := by
  unfold SalVar.salVarPlot
  split
  · simp
  · split_ifs with h1 h2
    · simp [h1]
    · refine ⟨by simp only; omega, by simp⟩
    · simp

theorem curve_any (I : Input K) : (I.data.flatten.any fun c => c.calSal.isSome) = true ↔ ∃ prof ∈ I.data, ∃ x ∈ prof, x.calSal ≠ none := by
  rw [List.any_eq_true]
  constructor
  · rintro ⟨x, hx, hs⟩
    obtain ⟨prof, hp, hx⟩ := List.mem_flatten.1 hx
    refine ⟨prof, hp, x, hx, ?_⟩
    rintro hn
    rw [hn] at hs; simp at hs
  · rintro ⟨prof, hp, x, hx, hn⟩
    exact ⟨x, List.mem_flatten.2 ⟨prof, hp, hx⟩, Option.isSome_iff_ne_none.2 hn⟩

theorem curve_eq (I : Input K) : curveFigures I = ((if ∃ prof ∈ I.data, ∃ x ∈ prof, x.calSal ≠ none then [.curve] else []), none) := by
  unfold curveFigures
  by_cases h : ∃ prof ∈ I.data, ∃ x ∈ prof, x.calSal ≠ none
  · rw [if_pos ((curve_any I).2 h), if_pos h]
  · rw [if_neg h, if_neg fun hc => h ((curve_any I).1 hc)]

/-- The figures before those of the salinities on theta levels. -/
def firstFigures (I : Input K) : List Figure :=
  [.trajectory, .thetaSal false] ++ I.bounds.map (.anomaly false) ++
    (if ∃ prof ∈ I.data, ∃ x ∈ prof, x.calSal ≠ none then [.curve] else []) ++ [.thetaSal true]

theorem diagnostics_cases (I : Input K) :
    (∃ e, mapOf I.selected I.no I.lat I.long = .error e ∧ diagnostics I = ([], some e)) ∨
    ∃ M, mapOf I.selected I.no I.lat I.long = .ok M ∧
      ((∃ e, find10thetas I.limits I.percent (I.data.map fun prof => prof.map measuredLevel) = .error e ∧ diagnostics I = ([.trajectory], some e)) ∨
      ∃ T, find10thetas I.limits I.percent (I.data.map fun prof => prof.map measuredLevel) = .ok T ∧
        ((I.data.length < 2 ∧ I.bounds ≠ [] ∧ diagnostics I = ([.trajectory, .thetaSal false], some .typeError)) ∨
        (¬ (I.data.length < 2 ∧ I.bounds ≠ []) ∧
          diagnostics I = (match (SalVar.salVarPlot I.rows I.levels I.limits I.percent I.data).2 with
            | some e => (firstFigures I ++ (List.range (SalVar.salVarPlot I.rows I.levels I.limits I.percent I.data).1).map fun i => .variance (I.str (i + 1)), some e)
            | none => (completeFigures I, none))))) := by
  unfold diagnostics
  cases hM : mapOf I.selected I.no I.lat I.long with
  | error e => exact .inl ⟨e, rfl, rfl⟩
  | ok M =>
    refine .inr ⟨M, rfl, ?_⟩
    cases hT : find10thetas I.limits I.percent (I.data.map fun prof => prof.map SalVar.Cell.toLevel) with
    | error e => exact .inl ⟨e, hT, rfl⟩
    | ok T =>
      refine .inr ⟨T, hT, ?_⟩
      obtain ⟨D, hD, -⟩ := error_bars I.limits I.percent I.data T hT
      have ht := temps_of_thetas hT
      by_cases hs : I.data.length < 2 ∧ I.bounds ≠ []
      · refine .inl ⟨hs.1, hs.2, ?_⟩
        simp [saveIf, hD, andThen, anomalyFigures, ht, hs]
      · refine .inr ⟨hs, ?_⟩
        have ha : ∀ b, anomalyFigures I b = (I.bounds.map (.anomaly b), none) := by
          intro b
          unfold anomalyFigures
          rw [ht, if_neg (by simp), if_neg hs]
        simp only [ha, curve_eq, hD, saveIf, andThen, varianceFigures]
        cases hv : (SalVar.salVarPlot I.rows I.levels I.limits I.percent I.data).2 with
        | some e => simp [firstFigures, List.append_assoc]
        | none =>
          have := (variance_count I.rows I.levels I.limits I.percent I.data).2 hv
          simp [completeFigures, this, List.append_assoc]

theorem complete_split (I : Input K) : completeFigures I =
    firstFigures I ++ ((List.range I.levels).map fun i => .variance (I.str (i + 1))) ++ (I.bounds.map (.anomaly true) ++ [.profile]) := by
  unfold completeFigures firstFigures
  simp only [List.append_assoc]

/-- C138. The figures saved are those of a complete run up to some point, in the same order; all of them exactly if no exception ended the run. -/
theorem figures_in_order (I : Input K) :
    (diagnostics I).1 <+: completeFigures I ∧ ((diagnostics I).2 = none ↔ (diagnostics I).1 = completeFigures I) := by
  have hne : ∀ (l : List Figure), .profile ∉ l → l ≠ completeFigures I := by
    rintro l h rfl
    apply h
    rw [complete_split]
    simp
  have hp1 : [.trajectory] <+: completeFigures I := ⟨_, rfl⟩
  have hp2 : [.trajectory, .thetaSal false] <+: completeFigures I := ⟨_, by
    unfold completeFigures
    simp only [List.append_assoc]
    rfl⟩
  rcases diagnostics_cases I with ⟨e, -, h⟩ | ⟨M, -, ⟨e, -, h⟩ | ⟨T, -, ⟨-, -, h⟩ | ⟨-, h⟩⟩⟩
  · rw [h]
    exact ⟨List.nil_prefix, by simpa using hne [] (by simp)⟩
  · rw [h]
    exact ⟨hp1, by simpa using hne _ (by simp)⟩
  · rw [h]
    exact ⟨hp2, by simpa using hne _ (by simp)⟩
  · rw [h]
    cases hv : (SalVar.salVarPlot I.rows I.levels I.limits I.percent I.data).2 with
    | none => exact ⟨List.prefix_rfl, by simp⟩
    | some e =>
      refine ⟨?_, ?_⟩
      · rw [complete_split, List.append_assoc]
        refine (List.prefix_append_right_inj _).2 ?_
        obtain ⟨k, hk⟩ := Nat.exists_eq_add_of_le (variance_count I.rows I.levels I.limits I.percent I.data).1
        conv_rhs => rw [hk, List.range_add, List.map_append, List.append_assoc]
        exact ⟨_, rfl⟩
      · have := hne (firstFigures I ++ (List.range (SalVar.salVarPlot I.rows I.levels I.limits I.percent I.data).1).map fun i => .variance (I.str (i + 1))) (by
          unfold firstFigures
          split_ifs <;> simp)
        simpa using this

/-- C138. When all figures are saved. -/
theorem figures_complete_iff (I : Input K) :
    (diagnostics I).1 = completeFigures I ↔ (I.selected ≠ [] ∧ I.no.length = I.lat.length ∧ I.lat.length = I.long.length) ∧
      (∃ T, find10thetas I.limits I.percent (I.data.map fun prof => prof.map measuredLevel) = .ok T) ∧ (2 ≤ I.data.length ∨ I.bounds = []) ∧
      (SalVar.salVarPlot I.rows I.levels I.limits I.percent I.data).2 = none := by
  rw [← (figures_in_order I).2, ← map_drawn_iff]
  rcases diagnostics_cases I with ⟨e, h1, h⟩ | ⟨M, h1, ⟨e, h2, h⟩ | ⟨T, h2, ⟨h3, h4, h⟩ | ⟨h3, h⟩⟩⟩
  · rw [h, h1]; simp
  · rw [h, h2]; simp
  · rw [h]
    simp only [reduceCtorEq, false_iff, not_and]
    rintro - - (a | a)
    · omega
    · exact absurd a h4
  · rw [h, h1, h2]
    have h5 : 2 ≤ I.data.length ∨ I.bounds = [] := by
      by_cases hb : I.bounds = []
      · exact .inr hb
      · left
        by_contra hc
        exact h3 ⟨by omega, hb⟩
    cases hv : (SalVar.salVarPlot I.rows I.levels I.limits I.percent I.data).2 with
    | none => simp [h5]
    | some e => simp

/-- C138. If no theta levels can be found, only the map is saved. -/
theorem figures_without_levels (I : Input K) (M : Map K) (hM : mapOf I.selected I.no I.lat I.long = .ok M) (e : PyErr)
    (hT : find10thetas I.limits I.percent (I.data.map fun prof => prof.map measuredLevel) = .error e) : diagnostics I = ([.trajectory], some e) := by
  rcases diagnostics_cases I with ⟨e', h1, h⟩ | ⟨M', h1, ⟨e', h2, h⟩ | ⟨T, h2, -⟩⟩
  · rw [hM] at h1; simp at h1
  · rw [hT] at h2
    obtain rfl := Except.error.inj h2
    exact h
  · rw [hT] at h2; simp at h2

/-- C138. With a lower limit of pressure, at least as many profiles as levels and a mapped level above the limit in each profile, the figures of the calibrated anomaly and of the
chosen levels are never saved. -/
theorem figures_cut_by_limit (I : Input K) (hrows : ∀ prof ∈ I.data, prof.length = I.rows) (hlev : I.levels ≠ 0) (g : K) (hB : I.limits = ⟨none, none, none, some g⟩)
    (hmany : I.rows ≤ I.data.length) (hshallow : ∀ prof ∈ I.data, ∃ x ∈ prof, ∃ p, x.mapPtmp ≠ none ∧ x.pres = some p ∧ p < g) :
    (∃ e, (diagnostics I).2 = some e) ∧ .profile ∉ (diagnostics I).1 ∧ ∀ b, .anomaly true b ∉ (diagnostics I).1 := by
  obtain ⟨n, e, hsv, -⟩ := sal_var_never_completes I.rows I.levels I.limits I.percent I.data hrows hlev g hB hmany hshallow
  rcases diagnostics_cases I with ⟨e, -, h⟩ | ⟨M, -, ⟨e, -, h⟩ | ⟨T, -, ⟨-, -, h⟩ | ⟨-, h⟩⟩⟩
  · rw [h]; simp
  · rw [h]; simp
  · rw [h]; simp
  · rw [h, hsv]
    refine ⟨⟨e, rfl⟩, ?_, ?_⟩
    · simp only [firstFigures]
      split_ifs <;> simp
    · intro b
      simp only [firstFigures]
      split_ifs <;> simp

/-! ## Concrete data -/

/-- A float with the given profiles, a reference cast on either side of Greenwich, two figures of theta levels and one range of temperature. -/
def diInput (B : Bounds ℚ) (data : List (List (SalVar.Cell ℚ))) (no : List ℚ) (lat long : List (Option ℚ)) : Input ℚ :=
  ⟨[⟨359, 10, 0⟩, ⟨2, 12, 1⟩], no, lat, long, data, 3, B, 1 / 2, 2, [['a']], fun n => List.replicate n 'i'⟩

/-- The map of five profiles: the casts at -1 and 2 degrees, the labels on rows 0, 3 and 4. -/
example : (match mapOf (diInput ⟨none, none, none, none⟩ svData [7, 8, 9, 10, 11] [] []).selected ([7, 8, 9, 10, 11] : List ℚ) (List.replicate 5 (some 10)) (List.replicate 5 (some 358)) with
    | .ok M => decide (M.casts = [(-1, 10), (2, 12)] ∧ M.xlim = (-21, 22) ∧ M.ylim = (-5, 27) ∧ M.labels.map Label.row = [0, 3, 4] ∧ M.labels.map Label.text = [7, 10, 11] ∧
        M.track = List.replicate 5 (some (-2), some 10))
    | .error _ => false) = true := by decide +kernel

example : ∀ s ∈ (diInput ⟨none, none, none, none⟩ svData [] [] []).selected, FileLongitude s.long := by
  unfold FileLongitude diInput
  simp
  norm_num

/-- The error bars of two profiles: each has one at the middle level. -/
example : (match find10thetas (⟨none, none, none, none⟩ : Bounds ℚ) (1 / 2) (svData.map fun prof => prof.map SalVar.Cell.toLevel) with
    | .ok T => (match allBars T svData with
      | .ok D => decide (D.length = 2 ∧ ∀ bars ∈ D, ∃ b ∈ bars, b.theta = some 5 ∧ b.sal = some 36 ∧ b.err = some (1 / 10))
      | .error _ => false)
    | .error _ => false) = true := by decide +kernel

/-- Without limits all figures are saved. -/
example : diagnostics (diInput ⟨none, none, none, none⟩ svData [1, 2] [some 10, some 10] [some 1, some 1]) =
    ([.trajectory, .thetaSal false, .anomaly false ['a'], .curve, .thetaSal true, .variance ['i'], .variance ['i', 'i'], .anomaly true ['a'], .profile], none) := by
  decide +kernel

/-- With a lower limit of pressure the last three are missing. -/
example : diagnostics (diInput ⟨none, none, none, some 50⟩ [svProfile, svProfile, svProfile] [1, 2, 3] [some 10, some 10, some 10] [some 1, some 1, some 1]) =
    ([.trajectory, .thetaSal false, .anomaly false ['a'], .curve, .thetaSal true, .variance ['i']], some .valueError) := by
  decide +kernel

/-- The hypotheses of `figures_cut_by_limit` hold in this case. -/
example : (∀ prof ∈ [svProfile, svProfile, svProfile], prof.length = 3) ∧ (∀ prof ∈ [svProfile, svProfile, svProfile], ∃ x ∈ prof, ∃ p, x.mapPtmp ≠ none ∧ x.pres = some p ∧ p < (50 : ℚ)) := by
  refine ⟨by simp [svProfile], fun prof hp => ?_⟩
  simp only [List.mem_cons, List.not_mem_nil, or_false, or_self] at hp
  subst hp
  exact ⟨svCell 0 10 34, by simp [svProfile], 0, by simp [svCell], rfl, by norm_num⟩

/-- No levels are found without temperatures: only the map. -/
example : ∃ e, find10thetas (⟨none, none, none, none⟩ : Bounds ℚ) (1 / 2) ([[⟨some 0, some 34, none, none, none, none, none, none⟩]].map fun prof => prof.map SalVar.Cell.toLevel) = .error e :=
  ⟨_, rfl⟩

end Verif.Props
