import Verif.Spec.Reach
import Verif.Lemmas.Pairs
import Verif.Props.ProfileExamples

/-!
# C158: reference casts that are out of reach have no influence
-/

set_option linter.unusedSectionVars false

namespace Verif.Props

open Verif.Np Verif.Helper Verif.Region Verif.Profile Verif.Update Verif.Spec Verif.Spec.Profile Verif.Level Verif.Saf Verif.Utilities Verif.Finders Verif.Lemmas.Shift Verif.Lemmas.Pairs

theorem loadCasts_pair (index : List ℕ) (limit : Option ℝ) (levels : ℕ) (l l' : List (RefCast ℝ)) (hl : l.length = l'.length) (k : ℕ)
    (h : ∀ i, k + i ∈ index → l[i]? = l'[i]?) (st : RegionState ℝ) : loadCasts index limit levels st l k = loadCasts index limit levels st l' k := by
  induction l generalizing l' k st with
  | nil =>
    cases l' with
    | nil => rfl
    | cons => simp at hl
  | cons c l ih =>
    cases l' with
    | nil => simp at hl
    | cons c' l' =>
      have hs : ∀ i, k + 1 + i ∈ index → l[i]? = l'[i]? := fun i hi => by
        have := h (i + 1) (by rwa [show k + (i + 1) = k + 1 + i by omega])
        simpa using this
      have e : loadCast index limit levels st c k = loadCast index limit levels st c' k := by
        by_cases hk : k ∈ index
        · have := h 0 (by simpa using hk)
          simp at this
          rw [this]
        · rw [loadCast_skip limit index levels st c k hk, loadCast_skip limit index levels st c' k hk]
      simp only [loadCasts, e]
      cases loadCast index limit levels st c' k with
      | error => rfl
      | ok st' => exact ih l' (by simpa using hl) (k + 1) hs st'

theorem regionFold_pair {Q : RefCast ℝ → RefCast ℝ → Prop} (index : List ℕ) (limit : Option ℝ) {l l' : List (Except PyErr (Option (Loaded ℝ)))}
    (h : List.Forall₂ (LoadPair Q) l l') (st : RegionState ℝ)
    (hi : ∀ i, st.start + i ∈ index → (l.flatMap Region.castsOf)[i]? = (l'.flatMap Region.castsOf)[i]?) :
    l.foldl (regionStep index limit) st = l'.foldl (regionStep index limit) st := by
  induction h generalizing st with
  | nil => rfl
  | @cons x y l l' hxy hl ih =>
    rw [List.foldl_cons, List.foldl_cons]
    rw [List.flatMap_cons, List.flatMap_cons] at hi
    have hlen := (castsOf_pair hxy).length_eq
    have h1 : ∀ i, st.start + i ∈ index → (Region.castsOf x)[i]? = (Region.castsOf y)[i]? := by
      intro i hm
      have := hi i hm
      rcases lt_or_ge i (Region.castsOf x).length with hlt | hge
      · rwa [List.getElem?_append_left hlt, List.getElem?_append_left (hlen ▸ hlt)] at this
      · rw [List.getElem?_eq_none hge, List.getElem?_eq_none (hlen ▸ hge)]
    have h2 : ∀ i, st.start + (Region.castsOf x).length + i ∈ index → (l.flatMap Region.castsOf)[i]? = (l'.flatMap Region.castsOf)[i]? := by
      intro i hm
      have := hi ((Region.castsOf x).length + i) (by rwa [← Nat.add_assoc])
      rw [List.getElem?_append_right (by omega), List.getElem?_append_right (by omega)] at this
      rwa [show (Region.castsOf x).length + i - (Region.castsOf x).length = i by omega,
        show (Region.castsOf x).length + i - (Region.castsOf y).length = i by omega] at this
    have hst : regionStep index limit st x = regionStep index limit st y ∧ (regionStep index limit st x).start = st.start + (Region.castsOf x).length := by
      unfold LoadPair at hxy
      cases x <;> cases y
      · exact ⟨rfl, by simp [regionStep, Region.castsOf]⟩
      · exact hxy.elim
      · exact hxy.elim
      · rcases hxy with ⟨rfl, rfl⟩ | ⟨L, L', rfl, rfl, hv, hs, hc⟩
        · exact ⟨rfl, by simp [regionStep, Region.castsOf]⟩
        · unfold Region.castsOf at h1
          unfold regionStep Region.castsOf
          dsimp only at h1 ⊢
          rw [← hs] at h1 ⊢
          cases hsc : L.scalar with
          | true => simp
          | false =>
            simp only [hsc, Bool.false_eq_true, if_false] at h1 ⊢
            rw [← hc.length_eq]
            rw [loadCasts_levels index limit L'.levels L.levels hv.symm]
            exact ⟨loadCasts_pair index limit L.levels L.casts L'.casts hc.length_eq st.start h1 _, by rw [loadCasts_start]⟩
    rw [← hst.1]
    exact ih _ (by rw [hst.2]; exact h2)

theorem gather_mem {α : Type} {l m : List α} {idx : List ℕ} (h : gather l idx = .ok m) (a : α) (ha : a ∈ m) : a ∈ l := by
  obtain ⟨hl, hk⟩ := Verif.Piecewise.gather_inv h
  obtain ⟨k, hlt, rfl⟩ := List.mem_iff_getElem.1 ha
  obtain ⟨b, hb, hb'⟩ := hk k (idx[k]'(hl ▸ hlt)) (List.getElem?_eq_getElem _)
  rw [List.getElem?_eq_getElem hlt] at hb
  obtain rfl := Option.some.inj hb
  exact List.mem_of_getElem? hb'

theorem concat_gather_mem {idx js out : List ℕ} (h : (gather idx js >>= concat1) = .ok out) (i : ℕ) (hi : i ∈ out) : i ∈ idx := by
  obtain ⟨r, hr, h⟩ := reach_bind.1 h
  unfold concat1 at h
  split at h
  · cases h
  · obtain rfl := Except.ok.inj h
    exact gather_mem hr i hi

theorem selectBest_mem {A : BesthistArgs} {argsort : List (Option ℝ) → List ℕ} {hist : List Cast} {idx : List ℕ} {us : List ℝ} {out : List ℕ}
    (h : selectBest A argsort hist idx us = .ok out) (i : ℕ) (hi : i ∈ out) : i ∈ idx := by
  unfold selectBest at h
  dsimp only at h
  obtain ⟨_, -, h⟩ := reach_bind.1 h
  obtain ⟨_, -, h⟩ := reach_bind.1 h
  obtain ⟨_, -, h⟩ := reach_bind.1 h
  obtain ⟨_, -, h⟩ := reach_bind.1 h
  obtain ⟨_, -, h⟩ := reach_bind.1 h
  obtain ⟨a, ha, h⟩ := reach_bind.1 h
  obtain ⟨_, -, h⟩ := reach_bind.1 h
  obtain ⟨b, hb, h⟩ := reach_bind.1 h
  obtain ⟨_, -, h⟩ := reach_bind.1 h
  obtain ⟨_, -, h⟩ := reach_bind.1 h
  obtain ⟨_, -, h⟩ := reach_bind.1 h
  obtain ⟨c, hc, h⟩ := reach_bind.1 h
  obtain rfl := Except.ok.inj h
  rcases List.mem_append.1 hi with hi | hi
  · rcases List.mem_append.1 hi with hi | hi
    · exact concat_gather_mem ha i hi
    · exact concat_gather_mem hb i hi
  · exact concat_gather_mem hc i hi

theorem findBesthist_mem {A : BesthistArgs} {argsort : List (Option ℝ) → List ℕ} {rand : ℕ → ℕ → List ℝ} {casts : List Cast} {out : List ℕ}
    (h : findBesthist A argsort rand casts = .ok out) (i : ℕ) (hi : i ∈ out) : ∃ c, casts[i]? = some c ∧ inside A c = true := by
  have key : i ∈ indexEllipse A casts → ∃ c, casts[i]? = some c ∧ inside A c = true := by
    intro h
    unfold indexEllipse at h
    have := (argwhere_mem _ _ _).1 h
    obtain ⟨a, ha, hp⟩ := this
    exact ⟨a, ha, hp⟩
  refine key ?_
  unfold findBesthist at h
  split_ifs at h
  dsimp only at h
  obtain ⟨hist, -, h⟩ := reach_bind.1 h
  split_ifs at h
  · exact selectBest_mem h i hi
  · obtain rfl := Except.ok.inj h
    exact hi

/-- The relation between casts of the two sets of files. -/
def FarPair (E : Env) (lat long : ℝ) (c c' : RefCast ℝ) : Prop := c = c' ∨ SamePlace E.name c c' ∧ OutOfReach E.cfg lat long c

theorem farPair_lat {E : Env} {lat long : ℝ} {c c' : RefCast ℝ} (h : FarPair E lat long c c') : c.lat = c'.lat := by
  rcases h with rfl | h
  · rfl
  · exact h.1.1

theorem farPair_long {E : Env} {lat long : ℝ} {c c' : RefCast ℝ} (h : FarPair E lat long c c') : c.long = c'.long := by
  rcases h with rfl | h
  · rfl
  · exact h.1.2.1

theorem far_map_eq {α β γ : Type} {Q : α → β → Prop} {f : α → γ} {g : β → γ} (hf : ∀ a b, Q a b → f a = g b) {l : List α} {l' : List β} (h : List.Forall₂ Q l l') :
    l.map f = l'.map g := by
  induction h with
  | nil => rfl
  | cons hab _ ih => rw [List.map_cons, List.map_cons, hf _ _ hab, ih]

theorem matchLongitude_far (grid : List (Option ℝ)) (long : ℝ) : ∃ k : ℤ, matchLongitude grid long = long + 360 * k := by
  unfold matchLongitude
  split_ifs
  · exact ⟨1, by norm_num⟩
  · exact ⟨0, by norm_num⟩
  · exact ⟨0, by norm_num⟩

/-- A cast out of reach is not in the ellipse. -/
theorem outside_of_far (E : Env) (lat long date z : ℝ) (c : RefCast ℝ) (h : OutOfReach E.cfg lat long c) (k m : ℤ) (x : Option ℝ)
    (hx : (c.long = none ∧ x = none) ∨ ∃ v, c.long = some v ∧ x = some (v + 360 * m)) (t w : Option ℝ) :
    inside (besthistArgs E lat (long + 360 * k) date z) ⟨x, c.lat, t, w⟩ = false := by
  unfold inside ellipseOf
  rcases hx with ⟨-, rfl⟩ | ⟨v, hv, rfl⟩
  · rfl
  cases hy : c.lat with
  | none => rfl
  | some y =>
    simp only [bind, Option.bind]
    cases pvFloat (besthistArgs E lat (long + 360 * k) date z) with
    | none => rfl
    | some pf =>
      dsimp only
      cases pvHist (besthistArgs E lat (long + 360 * k) date z) ⟨some (v + 360 * m), some y, t, w⟩ with
      | none => rfl
      | some ph =>
        dsimp only
        rw [Option.any_some, decide_eq_false_iff_not, not_lt]
        unfold findEllipse
        rw [Real.one_le_sqrt]
        have := h v y hv hy (m - k)
        have e1 : ((v - long + 360 * ((m - k : ℤ) : ℝ)) / (3 * E.cfg.longLarge)) ^ 2 =
            (v + 360 * m - (besthistArgs E lat (long + 360 * k) date z).long) ^ 2 / ((besthistArgs E lat (long + 360 * k) date z).longLarge * 3) ^ 2 := by
          rw [div_pow]
          push_cast
          simp only [besthistArgs]
          congr 1
          · ring
          · ring
        have e2 : ((y - lat) / (3 * E.cfg.latLarge)) ^ 2 =
            (y - (besthistArgs E lat (long + 360 * k) date z).lat) ^ 2 / ((besthistArgs E lat (long + 360 * k) date z).latLarge * 3) ^ 2 := by
          rw [div_pow]
          simp only [besthistArgs]
          congr 1
          ring
        rw [e1, e2] at this
        exact le_add_of_le_of_nonneg this (sq_nonneg _)

/-- Casts of which the differing ones are not in the ellipse: the same choice. -/
theorem findBesthist_far (A : BesthistArgs) (argsort : List (Option ℝ) → List ℕ) (rand : ℕ → ℕ → List ℝ) (cs cs' : List Cast)
    (h : List.Forall₂ (fun c c' => c = c' ∨ c.z = c'.z ∧ inside A c = false ∧ inside A c' = false) cs cs') :
    findBesthist A argsort rand cs = findBesthist A argsort rand cs' := by
  have hidx : indexEllipse A cs = indexEllipse A cs' := by
    unfold indexEllipse argwhere
    refine (argwhereFrom_rel h ?_ 0).symm
    rintro a b (rfl | ⟨-, h1, h2⟩)
    · rfl
    · rw [h1, h2]
  have hz : zeroDepth A cs ↔ zeroDepth A cs' := by
    unfold zeroDepth
    have : cs.map (·.z) = cs'.map (·.z) := far_map_eq (by rintro a b (rfl | h); exacts [rfl, h.1]) h
    have e : ∀ l : List Cast, (∃ c ∈ l, c.z = some 0) ↔ some 0 ∈ l.map (·.z) := fun l => by simp
    rw [e, e, this]
  have hg : gather cs (indexEllipse A cs) = gather cs' (indexEllipse A cs) := by
    refine Verif.Piecewise.gather_congr _ _ _ ?_
    intro i hi
    unfold indexEllipse at hi
    obtain ⟨a, ha, hp⟩ := (argwhere_mem _ _ _).1 hi
    rw [List.forall₂_iff_get] at h
    obtain ⟨hlt, rfl⟩ := List.getElem?_eq_some_iff.1 ha
    rw [ha, List.getElem?_eq_getElem (h.1 ▸ hlt)]
    rcases h.2 i hlt (h.1 ▸ hlt) with e | ⟨-, e, -⟩
    · exact congrArg some e
    · exact absurd (e.symm.trans hp) (by simp)
  have hn : cs = [] ↔ cs' = [] := by
    rw [← List.length_eq_zero_iff, ← List.length_eq_zero_iff, h.length_eq]
  unfold findBesthist
  dsimp only
  rw [← hidx, ← hg]
  by_cases h1 : cs = []
  · rw [if_pos h1, if_pos (hn.1 h1)]
  · rw [if_neg h1, if_neg (fun h => h1 (hn.2 h))]
    by_cases h2 : zeroDepth A cs
    · rw [if_pos h2, if_pos (hz.1 h2)]
    · rw [if_neg h2, if_neg (fun h => h2 (hz.2 h))]

theorem chosenCasts_far (E : Env) (disk' : Disk ℝ) (f : FloatProfile) (lat long z : ℝ) (hf : f.lat = some lat) (hg : f.long = some long) (h : OnlyFarDiffers E disk' f) :
    chosenCasts { E with disk := disk' } f lat long z = chosenCasts E f lat long z := by
  unfold chosenCasts
  have hb : boxesAt { E with disk := disk' } long lat = boxesAt E long lat := rfl
  rw [hb]
  cases hbx : boxesAt E long lat with
  | error => rfl
  | ok boxes =>
    simp only [bind, Except.bind]
    have hpair : List.Forall₂ (LoadPair (FarPair E lat long)) ((visits boxes).map fun v => getData E.disk E.name v.1 v.2)
        ((visits boxes).map fun v => getData disk' E.name v.1 v.2) := by
      rw [List.forall₂_map_left_iff, List.forall₂_map_right_iff, List.forall₂_same]
      rintro ⟨b, t⟩ hv
      have hbm : b ∈ boxes := by
        unfold visits at hv
        obtain ⟨b', hb', hv⟩ := List.mem_flatMap.1 hv
        obtain ⟨t', -, hv⟩ := List.mem_map.1 hv
        cases hv
        exact hb'
      refine getData_pair _ E.name ?_ E.disk disk' b t ?_
      · rintro c c' (rfl | hc)
        · rfl
        · exact hc.1.2.2
      · intro n hn
        unfold boxesAt at hbx
        obtain ⟨rows, hr, hbx⟩ := reach_bind.1 hbx
        obtain rfl := Except.ok.inj hbx
        obtain ⟨r, hr', rfl⟩ := List.mem_map.1 hbm
        cases r with
        | none => cases hn
        | some b =>
          rcases h lat long hf hg t n ⟨rows, b, hr, hr', hn⟩ with h | ⟨F, F', h1, h2, h3⟩
          · exact .inl h
          · exact .inr ⟨F, F', h1, h2, .inl h3.1, h3.2⟩
    have hflat := flat_pair hpair
    have hreg : ∀ idx, (∀ i ∈ idx, (((visits boxes).map fun v => getData E.disk E.name v.1 v.2).flatMap Region.castsOf)[i]? =
        (((visits boxes).map fun v => getData disk' E.name v.1 v.2).flatMap Region.castsOf)[i]?) →
        regionData disk' E.name boxes idx f.pres E.cfg.pDelta = regionData E.disk E.name boxes idx f.pres E.cfg.pDelta := by
      intro idx hi
      unfold regionData regionFrom
      rw [regionFold_pair idx (maxPressure f.pres E.cfg.pDelta) hpair ⟨[], [], [], [], [], [], 0, 0, 0⟩ (fun i hm => hi i (by simpa using hm))]
    unfold histLocations histFrom
    dsimp only
    rw [hist_fold, hist_fold]
    dsimp only
    simp only [List.nil_append]
    have hlat := far_map_eq (f := fun c : RefCast ℝ => c.lat) (g := fun c : RefCast ℝ => c.lat) (fun _ _ => farPair_lat) hflat
    have hlong := far_map_eq (f := fun c : RefCast ℝ => c.long) (g := fun c : RefCast ℝ => c.long) (fun _ _ => farPair_long) hflat
    rw [← hlat, ← hlong]
    generalize hC : ((visits boxes).map fun v => getData E.disk E.name v.1 v.2).flatMap Region.castsOf = C at *
    generalize hC' : ((visits boxes).map fun v => getData disk' E.name v.1 v.2).flatMap Region.castsOf = C' at *
    split_ifs
    · rfl
    simp only [changeDates_eq, bind, Except.bind, pure, Except.pure]
    have hgd : ∀ a b, gridDepths { E with disk := disk' } a b = gridDepths E a b := fun _ _ => rfl
    simp only [hgd]
    cases hgz : gridDepths E (C.map fun c => c.lat) (wrapLongitude (C.map fun c => c.long)) with
    | error => rfl
    | ok gz =>
      dsimp only
      obtain ⟨k, hk⟩ := matchLongitude_far (wrapLongitude (C.map fun c => c.long)) long
      rw [hk]
      have hbest : List.Forall₂ (fun c c' => c = c' ∨ c.z = c'.z ∧ inside (besthistArgs E lat (long + 360 * k) f.date z) c = false ∧
          inside (besthistArgs E lat (long + 360 * k) f.date z) c' = false)
          (Profile.castsOf (C.map fun c => c.lat) (wrapLongitude (C.map fun c => c.long)) ((C.map fun c => c.date).map dateValue) gz)
          (Profile.castsOf (C.map fun c => c.lat) (wrapLongitude (C.map fun c => c.long)) ((C'.map fun c => c.date).map dateValue) gz) := by
        have hw := wrap_longitude_congruent (C.map fun c => c.long)
        have hl : (wrapLongitude (C.map fun c => c.long)).length = C.length := by rw [← hw.length_eq, List.length_map]
        rw [List.forall₂_iff_get] at hw hflat ⊢
        refine ⟨by simp [Profile.castsOf, hflat.1], ?_⟩
        intro i h1 h2
        simp only [Profile.castsOf, List.length_map, List.length_zip] at h1 h2
        have hi : i < C.length := by omega
        have hi' : i < C'.length := by omega
        have hq := hflat.2 i hi hi'
        have hwi := hw.2 i (by simpa using hi) (by omega)
        simp only [List.get_eq_getElem, List.getElem_map] at hq hwi
        simp only [List.get_eq_getElem, Profile.castsOf, List.getElem_map, List.getElem_zip]
        rcases hq with hq | hq
        · exact .inl (by rw [hq])
        · refine .inr ⟨trivial, ?_, ?_⟩
          · rcases hwi with hwi | ⟨x, n, hx, hx'⟩
            · exact outside_of_far E lat long f.date z C[i] hq.2 k 0 _ (.inl hwi) _ _
            · exact outside_of_far E lat long f.date z C[i] hq.2 k n _ (.inr ⟨x, hx, by rw [hx']; simp⟩) _ _
          · rcases hwi with hwi | ⟨x, n, hx, hx'⟩
            · exact outside_of_far E lat long f.date z C[i] hq.2 k 0 _ (.inl hwi) _ _
            · exact outside_of_far E lat long f.date z C[i] hq.2 k n _ (.inr ⟨x, hx, by rw [hx']; simp⟩) _ _
      have hba : ∀ a b c d, besthistArgs { E with disk := disk' } a b c d = besthistArgs E a b c d := fun _ _ _ _ => rfl
      rw [hba, ← findBesthist_far _ E.argsort E.rand _ _ hbest]
      cases hout : findBesthist (besthistArgs E lat (long + 360 * k) f.date z) E.argsort E.rand
        (Profile.castsOf (C.map fun c => c.lat) (wrapLongitude (C.map fun c => c.long)) ((C.map fun c => c.date).map dateValue) gz) with
      | error => rfl
      | ok idx =>
        dsimp only
        rw [hreg idx ?_]
        intro i hi
        obtain ⟨c, hc, hin⟩ := findBesthist_mem hout i hi
        have hw := wrap_longitude_congruent (C.map fun c => c.long)
        rw [List.forall₂_iff_get] at hflat hw
        obtain ⟨hlt, rfl⟩ := List.getElem?_eq_some_iff.1 hc
        have hlt' := hlt
        simp only [Profile.castsOf, List.length_map, List.length_zip] at hlt'
        have hiC : i < C.length := by omega
        have hq := hflat.2 i hiC (hflat.1 ▸ hiC)
        have hwi := hw.2 i (by simpa using hiC) (by omega)
        simp only [List.get_eq_getElem, List.getElem_map] at hq hwi
        rw [List.getElem?_eq_getElem hiC, List.getElem?_eq_getElem (hflat.1 ▸ hiC)]
        rcases hq with hq | hq
        · rw [hq]
        · exfalso
          simp only [Profile.castsOf, List.getElem_map, List.getElem_zip] at hin
          rcases hwi with hwi | ⟨x, n, hx, hx'⟩
          · rw [outside_of_far E lat long f.date z C[i] hq.2 k 0 _ (.inl hwi)] at hin
            cases hin
          · rw [outside_of_far E lat long f.date z C[i] hq.2 k n _ (.inr ⟨x, hx, by rw [hx']; simp⟩)] at hin
            cases hin

/-- C158. Reference casts that are out of reach have no influence on the mapping: for every run and all other reference files that differ only in boxes that are not among the
25 around any profile, and in the dates and profiles of casts outside the ellipse of three times the large scales around every profile, the run does the same (same exceptions, same
states of the directory, same saved numbers). -/
theorem mapping_local (R : FloatRun) (disk' : Disk ℝ) (h : ∀ f ∈ R.source, OnlyFarDiffers R.env disk' f) (fs : Fs ℝ) :
    updateMapping (R.withReference disk').args fs = updateMapping R.args fs := by
  have hP : profilesOf { R.env with disk := disk' } R.source = profilesOf R.env R.source := by
    funext i
    unfold profilesOf item
    cases hi : R.source[i]? with
    | none => rfl
    | some f =>
      simp only [bind, Except.bind]
      unfold profileOf
      split_ifs
      · cases hlat : f.lat with
        | none => rfl
        | some lat =>
          cases hlong : f.long with
          | none => rfl
          | some long =>
            have hp : prepare { R.env with disk := disk' } f lat long = prepare R.env f lat long := by
              unfold prepare
              have hd : floatDepth { R.env with disk := disk' } lat long = floatDepth R.env lat long := rfl
              simp only [hd, chosenCasts_far R.env disk' f lat long _ hlat hlong (h f (List.mem_of_getElem? hi))]
            dsimp only
            rw [hp]
            rfl
      · rfl
  unfold FloatRun.withReference FloatRun.args
  dsimp only
  rw [hP]

/-- A cast far in the north with another date and other data. -/
noncomputable def farCast : RefCast ℝ := ⟨some 28, some 108, "19991231000000".toList, [], [some 700, some 2000], [some 1, none], [some (-5), some 30]⟩

/-- Other reference files: other data in the north, and a file for the box 400 that is not around the float. -/
noncomputable def farDisk : Disk ℝ := fun t n =>
  if t = 1 ∧ n = 170 then some ⟨wSix 91, 2⟩ else if t = 1 ∧ n = 186 then some ⟨[farCast, farCast], 2⟩ else if n = 400 then some ⟨[farCast], 2⟩ else none

theorem farDisk_alike (f : FloatProfile) (hf : f = wLost ∨ f = wFloat 105) : OnlyFarDiffers (wEnv 91 108 170 186) farDisk f := by
  intro lat long hlat hlong t n hn
  rcases hf with rfl | rfl
  · simp [wLost] at hlat
  simp only [wFloat, Option.some.injEq] at hlat hlong
  subst hlat hlong
  have h400 : n ≠ 400 := by
    rintro rfl
    obtain ⟨rows, b, hr, hb, hn⟩ := hn
    have hB := wBoxes_eq 91 108 105 170 186 10 (by norm_num) (by norm_num) (by norm_num)
    unfold boxesAt at hB
    rw [hr] at hB
    have hm : b ∈ wBoxes 10 := by
      rw [← Except.ok.inj hB]
      exact List.mem_map.2 ⟨some b, hb, rfl⟩
    obtain ⟨r, hr, rfl⟩ := List.mem_map.1 hm
    have : (400 : ℕ) ∈ cells25 10 0 := by
      have e : r = 400 := by exact_mod_cast Option.some.inj hn
      rwa [e] at hr
    exact absurd this (by decide +kernel)
  change (wDisk 91 108 170 186 t n = none ∧ _) ∨ ∃ F F', wDisk 91 108 170 186 t n = some F ∧ _
  unfold wDisk farDisk
  split_ifs
  · exact .inr ⟨_, _, rfl, rfl, rfl, List.forall₂_same.2 fun _ _ => .inl rfl⟩
  · have key : SamePlace (wEnv 91 108 170 186).name (wCast 108 28 35) farCast ∧ OutOfReach (wEnv 91 108 170 186).cfg 5 105 (wCast 108 28 35) := by
      refine ⟨⟨rfl, rfl, Iff.rfl⟩, ?_⟩
      intro x y hx hy k
      obtain rfl := Option.some.inj hy
      have : (1 : ℝ) ≤ ((28 - 5) / (3 * (wEnv 91 108 170 186).cfg.latLarge)) ^ 2 := by
        simp only [wEnv, wConfig]
        norm_num
      exact le_add_of_nonneg_of_le (sq_nonneg _) this
    exact .inr ⟨_, _, rfl, rfl, rfl, .cons (.inr key) (.cons (.inr key) .nil)⟩
  · exact .inl ⟨rfl, rfl⟩

/-- A run that saves its numbers, with other data out of reach. -/
example : (updateMapping ((wRun (wEnv 91 108 170 186) [wLost, wFloat 105] [1, 2]).withReference farDisk).args (fun _ => none)).1 = none := by
  rw [mapping_local (wRun (wEnv 91 108 170 186) [wLost, wFloat 105] [1, 2]) farDisk (fun f hf => farDisk_alike f (by simpa [wRun] using hf))]
  exact world_runs 91 108 108 105 170 186 10 world_open [wLost, wFloat 105] [1, 2] rfl (by simp) (by simp) (fun _ => none) rfl

end Verif.Props
