import Verif.Spec.Delta
import Verif.Props.Ends

/-!
# C175: which levels are mapped, and what `MAP_P_DELTA` does to them
-/

set_option linter.unusedSectionVars false

namespace Verif.Props

open Verif.Np Verif.Helper Verif.Region Verif.Profile Verif.Update Verif.Spec Verif.Spec.Profile Verif.Level Verif.Finders
open Verif.Lemmas.Profile Verif.Utilities Verif.Saf Verif.Topo

/-! ## Casts -/

/-- If the temperature is met at all, there is a nearest place. -/
theorem nearest_exists {K : Type} [Field K] [LinearOrder K] [IsStrictOrderedRing K] (l : List (Spec.Level K)) (v fp : K)
    (h : ∃ k w s p, Crossing l v k w s p) : ∃ k w s p, Nearest l v fp k w s p := by
  classical
  have hb : ∀ k w s p, Crossing l v k w s p → k < l.length := by
    rintro k w s p ⟨a, b, ha, -⟩
    exact (List.getElem?_eq_some_iff.1 ha).1
  let S : Finset ℕ := (Finset.range l.length).filter fun k => ∃ w s p, Crossing l v k w s p
  have hS : ∀ k, k ∈ S ↔ ∃ w s p, Crossing l v k w s p := by
    intro k
    simp only [S, Finset.mem_filter, Finset.mem_range]
    exact ⟨fun h => h.2, fun ⟨w, s, p, h⟩ => ⟨hb k w s p h, w, s, p, h⟩⟩
  let F : ℕ → Lex (K × ℕ) := fun k => toLex (if h : ∃ w s p, Crossing l v k w s p then |h.choose_spec.choose_spec.choose - fp| else 0, k)
  have hF : ∀ k w s p, Crossing l v k w s p → F k = toLex (|p - fp|, k) := by
    intro k w s p hc
    have he : ∃ w s p, Crossing l v k w s p := ⟨w, s, p, hc⟩
    simp only [F, dif_pos he]
    rw [(crossing_unique l v k _ _ _ _ _ _ he.choose_spec.choose_spec.choose_spec hc).2]
  obtain ⟨k0, w0, s0, p0, h0⟩ := h
  obtain ⟨k, hk, hmin⟩ := Finset.exists_min_image S F ⟨k0, (hS k0).2 ⟨w0, s0, p0, h0⟩⟩
  obtain ⟨w, s, p, hc⟩ := (hS k).1 hk
  refine ⟨k, w, s, p, hc, ?_⟩
  intro k' w' s' p' hc'
  have := hmin k' ((hS k').2 ⟨w', s', p', hc'⟩)
  rw [hF k w s p hc, hF k' w' s' p' hc', Prod.Lex.toLex_le_toLex] at this
  rcases this with h | ⟨h1, h2⟩
  · exact ⟨le_of_lt h, fun _ => h⟩
  · exact ⟨le_of_eq h1, fun h => absurd h (not_lt.2 h2)⟩

/-- With a deeper limit the usable levels are continued downwards. -/
theorem filter_continued (l : List (CastLevel ℝ)) (m m' : Option ℝ) (hm : m = m' ∨ ∃ a b, m = some a ∧ m' = some b ∧ a ≤ b)
    (hl : (l.filterMap (·.1)).Pairwise (· ≤ ·)) :
    haveI := Classical.propDecidable
    l.filter (fun x => decide (UsableLevel m x)) <+: l.filter fun x => decide (UsableLevel m' x) := by
  classical
  rcases hm with rfl | ⟨a, b, rfl, rfl, hab⟩
  · exact List.prefix_rfl
  induction l with
  | nil => exact List.prefix_rfl
  | cons x t ih =>
    obtain ⟨p, r⟩ := x
    cases p with
    | none =>
      have h1 : ∀ m, ¬ UsableLevel m ((none, r) : CastLevel ℝ) := by
        rintro m ⟨p, hp, -⟩
        cases hp
      rw [List.filter_cons_of_neg (by simpa using h1 _), List.filter_cons_of_neg (by simpa using h1 _)]
      exact ih (by simpa using hl)
    | some p =>
      have hl' : (∀ q ∈ t.filterMap (·.1), p ≤ q) ∧ (t.filterMap (·.1)).Pairwise (· ≤ ·) := by
        simpa only [List.filterMap_cons_some (f := fun x : CastLevel ℝ => x.1) (a := (some p, r)) rfl, List.pairwise_cons] using hl
      have hu : ∀ c, UsableLevel (some c) ((some p, r) : CastLevel ℝ) ↔ p ≤ c := by
        intro c
        constructor
        · rintro ⟨q, hq, h⟩
          cases hq
          exact h c rfl
        · intro h
          exact ⟨p, rfl, fun m hm => by cases hm; exact h⟩
      by_cases h : p ≤ a
      · rw [List.filter_cons_of_pos (by simpa [hu] using h), List.filter_cons_of_pos (by simpa [hu] using h.trans hab)]
        exact List.cons_prefix_cons.2 ⟨rfl, ih hl'.2⟩
      · rw [List.filter_cons_of_neg (by simpa [hu] using h)]
        have : t.filter (fun x => decide (UsableLevel (some a) x)) = [] := by
          rw [List.filter_eq_nil_iff]
          intro y hy
          rw [decide_eq_true_eq]
          rintro ⟨q, hq, hle⟩
          exact h ((hl'.1 q (List.mem_filterMap.2 ⟨y, hy, hq⟩)).trans (hle a rfl))
        rw [this]
        exact List.nil_prefix

/-- A cast that is listed downwards and comparable to a level stays comparable if `MAP_P_DELTA` is raised. -/
theorem meets_raise (pres : List (Option ℝ)) (c : RefCast ℝ) (hc : Downwards c) (d d' v q : ℝ) (hd : d ≤ d')
    (h : ∃ s, Meets (pressureLimit pres d) c v q d s) : ∃ s, Meets (pressureLimit pres d') c v q d' s := by
  obtain ⟨s, k, w, p, hn, hp⟩ := h
  have hpre : completeLevels (pressureLimit pres d) c <+: completeLevels (pressureLimit pres d') c := by
    unfold completeLevels usableLevels
    refine List.IsPrefix.filterMap _ ?_
    convert filter_continued (levelsOf c) (pressureLimit pres d) (pressureLimit pres d') ?_ hc using 1
    unfold pressureLimit
    cases (pres.filterMap id).max? with
    | none => exact Or.inl rfl
    | some m => exact Or.inr ⟨_, _, rfl, rfl, by linarith⟩
  have hcross : Crossing (completeLevels (pressureLimit pres d') c) v k w s p := by
    obtain ⟨a, b, ha, hb, r⟩ := hn.1
    obtain ⟨t, ht⟩ := hpre
    rw [← ht]
    exact ⟨a, b, by rw [List.getElem?_append_left (List.getElem?_eq_some_iff.1 ha).1, ha],
      by rw [List.getElem?_append_left (List.getElem?_eq_some_iff.1 hb).1, hb], r⟩
  obtain ⟨k', w', s', p', hn'⟩ := nearest_exists _ v q ⟨k, w, s, p, hcross⟩
  exact ⟨s', k', w', p', hn', lt_of_le_of_lt (hn'.2 k w s p hcross).1 (hp.trans_le hd)⟩

theorem filterMap_length_mono {α β γ : Type} (l : List α) (f : α → Option β) (g : α → Option γ) (h : ∀ a ∈ l, (f a).isSome → (g a).isSome) :
    (l.filterMap f).length ≤ (l.filterMap g).length := by
  induction l with
  | nil => simp
  | cons a t ih =>
    have h1 := ih fun b hb => h b (List.mem_cons_of_mem a hb)
    have h2 := h a List.mem_cons_self
    cases hf : f a with
    | none =>
      rw [List.filterMap_cons_none hf]
      cases hg : g a with
      | none => rw [List.filterMap_cons_none hg]; exact h1
      | some y => rw [List.filterMap_cons_some hg, List.length_cons]; omega
    | some x =>
      rw [hf] at h2
      obtain ⟨y, hy⟩ := Option.isSome_iff_exists.1 (h2 rfl)
      rw [List.filterMap_cons_some hf, List.filterMap_cons_some hy, List.length_cons, List.length_cons]
      omega

/-- A level that can be mapped still can be if `MAP_P_DELTA` is raised. -/
theorem mappable_raise (R : FloatRun) (d' : ℝ) (st : Setting → ℝ) (hd : R.env.cfg.pDelta ≤ d') (f : FloatProfile) (lat long : ℝ)
    (hdown : ∀ c ∈ inReach R lat long, Downwards c) (n : ℕ) (q : ℝ) (h : Mappable R f lat long n q) : Mappable (withDelta R d' st) f lat long n q := by
  classical
  obtain ⟨h1, h2, h3, h4⟩ := h
  refine ⟨h1, h2, h3, lt_of_lt_of_le h4 ?_⟩
  change (samplesAt (pressureLimit f.pres R.env.cfg.pDelta) R.env.cfg.pDelta (inReach R lat long) (f.ptmp[n]?).join q).length ≤
    (samplesAt (pressureLimit f.pres d') d' (inReach R lat long) (f.ptmp[n]?).join q).length
  cases (f.ptmp[n]?).join with
  | none => exact le_rfl
  | some v =>
    refine filterMap_length_mono _ _ _ fun c hc h => ?_
    unfold sampleOf at h ⊢
    split at h
    · rename_i he
      rw [dif_pos (meets_raise f.pres c (hdown c hc) _ d' v q hd he)]
      rfl
    · cases h

/-! ## Runs -/

/-- C175. A run that ends normally saves a value (a signal variance) for exactly those levels that have a salinity and a pressure not less than `MAP_P_EXCLUDE`,
and to which more than five casts contribute. -/
theorem mapped_iff (R : FloatRun) (fs : Fs ℝ) (hi : IsInterp2d R.env.interp2) (hf : R.env.topo.length = 2160 * 4320) (hw : WellFormedDisk R.env.disk)
    (hs : R.env.useSaf ≠ 1) (hpv : R.env.cfg.usePv ≠ 1) (hsort : IsArgsort R.env.argsort) (hrand : ValidRand R.env.rand) (hcfg : ProperConfig R.env.cfg)
    (hmax : 1 ≤ R.env.maxCasts) (hno : R.no.Pairwise (· < ·)) (hlen : R.no.length = R.source.length) (hload : fs R.loadPath = none)
    (hshape : ∀ f ∈ R.source, f.sal.length = R.levels ∧ f.ptmp.length = R.levels ∧ f.pres.length = R.levels)
    (hwithin : ∀ f ∈ R.source, Placed f → ∀ lat long, f.lat = some lat → f.long = some long → Within R lat long)
    (h : (updateMapping R.args fs).1 = none) :
    ∃ file : MapFile ℝ, finalFs R.args fs = Function.update fs R.savePath (some (.whole file)) ∧
      ∀ (i : ℕ) (f : FloatProfile) (n : ℕ), R.source[i]? = some f → n < R.levels →
        ((∃ v, storedAt file .signal i n = some (some v)) ↔
          Placed f ∧ ∃ lat long q, f.lat = some lat ∧ f.long = some long ∧ Mappable R f lat long n q) := by
  obtain ⟨file, h1, -, h3, -⟩ := fresh_run_saved R fs hsort hno hload h
  refine ⟨file, h1, ?_⟩
  intro i f n hif hn
  have hmem := List.mem_of_getElem? hif
  obtain ⟨s1, s2, s3⟩ := hshape f hmem
  have hi' : i < R.no.length := by rw [hlen]; exact (List.getElem?_eq_some_iff.1 hif).1
  have hval : storedAt file .signal i n = some ((levelOut R.args.P i n).bind fun o => plausible .signal (o.values .signal)) := by
    unfold storedAt
    rw [h3, List.getElem?_map, List.getElem?_range hi']
    simp only [Option.map_some, Option.bind_some]
    unfold profileColumn
    rw [List.getElem?_map, List.getElem?_range hn]; rfl
  have hlevel := fun (lat long : ℝ) (hW : Within R lat long) (p : Prepared) (hp : prepare R.env f lat long = .ok p) =>
    level_ends R hi hf hw hs hpv hsort hrand hcfg hmax f lat long hW (by rw [s1, s2]) (by rw [s1, s3]) p hp n (by rw [s1]; exact hn)
  rw [hval]
  constructor
  · rintro ⟨v, hv⟩
    cases ho : levelOut R.args.P i n with
    | none => rw [ho] at hv; cases Option.some.inj hv
    | some o =>
      obtain ⟨f', lat, long, p, hf', hu, hla, hlo, hp, hl⟩ := levelOut_cases R.env R.source i n o ho
      rw [hif] at hf'
      obtain rfl := Option.some.inj hf'
      have hpl := (usable_iff f).1 hu
      refine ⟨hpl, lat, long, ?_⟩
      by_contra hno'
      rw [(hlevel lat long (hwithin f hmem hpl lat long hla hlo) p hp).1 fun q hq => hno' ⟨q, hla, hlo, hq⟩] at hl
      cases hl
  · rintro ⟨hpl, lat, long, q, hla, hlo, hq⟩
    have hends := fresh_ok_all R.args fs hload h i hi'
    obtain ⟨r, hr, hr2⟩ := hends
    have hP : R.args.P i = profileOf R.env f := by
      change profilesOf R.env R.source i = _
      unfold profilesOf item
      rw [hif]; rfl
    have hr' := hr
    rw [hP] at hr'
    unfold profileOf at hr'
    rw [if_pos ((usable_iff f).2 hpl), hla, hlo] at hr'
    simp only [bind, Except.bind] at hr'
    cases hp : prepare R.env f lat long with
    | error x => rw [hp] at hr'; cases hr'
    | ok p =>
      rw [hp] at hr'
      obtain rfl := Except.ok.inj hr'
      obtain ⟨o', ho'⟩ := hr2 _ rfl n hn
      obtain ⟨k1, k2, -⟩ := (hlevel lat long (hwithin f hmem hpl lat long hla hlo) p hp).2 q hq
      have hnz : ¬ IsNoiseVariance (sampleObs (inliers (contributions R f lat long n q))) 0 := by
        intro hz
        rw [k1 hz] at ho'
        cases ho'
      obtain ⟨o, ho⟩ := k2 hnz
      obtain ⟨-, r, -, -, -, -, -, -, -, -, -, -, -, -, hsig, -⟩ := levelOf_needs R.env f p n o ho
      refine ⟨r.signal, ?_⟩
      have : levelOut R.args.P i n = some o := by
        unfold levelOut
        rw [hr]
        dsimp only
        rw [ho]
      rw [this]
      simp only [Option.bind_some, plausible, hsig]
      rfl

/-- C175. Raising `MAP_P_DELTA` loses no level, if the casts are listed downwards and both runs end normally. -/
theorem raise_delta (R : FloatRun) (fs : Fs ℝ) (d' : ℝ) (st : Setting → ℝ) (hd : R.env.cfg.pDelta ≤ d') (hi : IsInterp2d R.env.interp2)
    (hf : R.env.topo.length = 2160 * 4320) (hw : WellFormedDisk R.env.disk)
    (hs : R.env.useSaf ≠ 1) (hpv : R.env.cfg.usePv ≠ 1) (hsort : IsArgsort R.env.argsort) (hrand : ValidRand R.env.rand) (hcfg : ProperConfig R.env.cfg)
    (hmax : 1 ≤ R.env.maxCasts) (hno : R.no.Pairwise (· < ·)) (hlen : R.no.length = R.source.length) (hload : fs R.loadPath = none)
    (hshape : ∀ f ∈ R.source, f.sal.length = R.levels ∧ f.ptmp.length = R.levels ∧ f.pres.length = R.levels)
    (hwithin : ∀ f ∈ R.source, Placed f → ∀ lat long, f.lat = some lat → f.long = some long →
      Within R lat long ∧ ∀ c ∈ inReach R lat long, Downwards c)
    (h : (updateMapping R.args fs).1 = none) (h' : (updateMapping (withDelta R d' st).args fs).1 = none) :
    ∃ file file' : MapFile ℝ, finalFs R.args fs = Function.update fs R.savePath (some (.whole file)) ∧
      finalFs (withDelta R d' st).args fs = Function.update fs R.savePath (some (.whole file')) ∧
      ∀ (i n : ℕ) (v : ℝ), i < R.source.length → n < R.levels → storedAt file .signal i n = some (some v) →
        ∃ v', storedAt file' .signal i n = some (some v') := by
  obtain ⟨file, a1, a2⟩ := mapped_iff R fs hi hf hw hs hpv hsort hrand hcfg hmax hno hlen hload hshape
    (fun f hm hp lat long hla hlo => (hwithin f hm hp lat long hla hlo).1) h
  obtain ⟨file', b1, b2⟩ := mapped_iff (withDelta R d' st) fs hi hf hw hs hpv hsort hrand ⟨hcfg.1, hcfg.2, hcfg.3, hcfg.4, hcfg.5⟩ hmax hno hlen hload hshape
    (fun f hm hp lat long hla hlo =>
      have hW := (hwithin f hm hp lat long hla hlo).1
      ⟨hW.1, hW.2, hW.3, hW.4⟩) h'
  refine ⟨file, file', a1, b1, ?_⟩
  intro i n v hi' hn hv
  have hif := List.getElem?_eq_getElem hi'
  obtain ⟨hpl, lat, long, q, hla, hlo, hq⟩ := (a2 i _ n hif hn).1 ⟨v, hv⟩
  exact (b2 i _ n hif hn).2 ⟨hpl, lat, long, q, hla, hlo,
    mappable_raise R d' st hd _ lat long (hwithin _ (List.getElem_mem hi') hpl lat long hla hlo).2 n q hq⟩

end Verif.Props
