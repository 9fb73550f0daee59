import Verif.Spec.Alone
import Verif.Props.Blind
import Verif.Props.Interp
import Verif.Props.DepthOwn

/-!
# C169: what the value at a level depends on
-/

set_option linter.unusedSectionVars false

namespace Verif.Props

open Verif.Np Verif.Helper Verif.Region Verif.Profile Verif.Update Verif.Spec Verif.Spec.Profile Verif.Level Verif.Saf Verif.Spec.Saf
open Verif.Lemmas.Profile

/-- Two levels with the same temperature and pressure are interpolated alike. -/
theorem interp_alone (sal theta pres : Interp.Grid ℝ) (float float' : List (Interp.FloatLevel ℝ)) (S P S' P' : ℕ → ℕ → Option ℝ)
    (hok : Interp.interpClimatology sal theta pres float = .ok (S, P)) (hok' : Interp.interpClimatology sal theta pres float' = .ok (S', P')) (i i' c : ℕ)
    (f f' : Interp.FloatLevel ℝ) (hf : float[i]? = some f) (hf' : float'[i']? = some f') (hs : f.sal = none ↔ f'.sal = none) (ht : f.theta = f'.theta)
    (hp : f.pres = f'.pres) (hc : c < sal.cols) : S i c = S' i' c ∧ P i c = P' i' c := by
  by_cases h : SameShape sal theta pres
  swap
  · rw [interp_shape _ _ _ h] at hok hok'
    obtain ⟨rfl, rfl⟩ := Prod.mk.inj (Except.ok.inj hok)
    obtain ⟨rfl, rfl⟩ := Prod.mk.inj (Except.ok.inj hok')
    exact ⟨rfl, rfl⟩
  obtain ⟨a1, a2⟩ := interp_spec sal theta pres h float S P hok i _ hf c hc
  obtain ⟨b1, b2⟩ := interp_spec sal theta pres h float' S' P' hok' i' _ hf' c hc
  refine cell_unique _ _ rfl f _ _ _ _ a1 a2 ?_ ?_
  · rintro (h1 | h1 | h1)
    · exact b1 (.inl (hs.1 h1))
    · exact b1 (.inr (.inl (ht ▸ h1)))
    · exact b1 (.inr (.inr (hp ▸ h1)))
  · rintro fs v fp rfl
    obtain ⟨s', t', p'⟩ := f'
    dsimp only at hs ht hp
    subst ht hp
    cases s' with
    | none => exact absurd (hs.2 rfl) (by simp)
    | some s' => exact b2 s' v fp rfl

theorem chosenCasts_station (E : Env) (f f' : FloatProfile) (lat long z : ℝ) (h : SameStation f f') (hs : E.useSaf ≠ 1 ∨ -30 ≤ lat) :
    chosenCasts E f lat long z = chosenCasts E f' lat long z := by
  have hmax : ∀ δ, maxPressure f.pres δ = maxPressure f'.pres δ := by
    intro δ
    have : pressureLimit f.pres δ = pressureLimit f'.pres δ := by
      unfold pressureLimit
      rw [show (f.pres.filterMap id).max? = (f'.pres.filterMap id).max? from h.deepest]
    exact this
  have hr : ∀ boxes idx, regionData E.disk E.name boxes idx f.pres E.cfg.pDelta = regionData E.disk E.name boxes idx f'.pres E.cfg.pDelta := by
    intro boxes idx
    unfold regionData regionFrom
    rw [hmax]
  have ha : ∀ (g : SafGrid ℝ) (l l' : List (Option ℝ × Option ℝ × Option ℝ)), applySaf E.interp E.temperature E.saf (decide (E.useSaf = 1)) g ⟨lat, l⟩ =
      applySaf E.interp E.temperature E.saf (decide (E.useSaf = 1)) g ⟨lat, l'⟩ := by
    intro g l l'
    unfold applySaf
    rcases hs with hs | hs
    · rw [decide_eq_false hs]; rfl
    · rw [saf_north_identity _ _ _ _ _ hs, saf_north_identity _ _ _ _ _ hs]
  unfold chosenCasts
  simp only [hr, h.date, ha _ (f.pres.zip (f.tmp.zip f.sal)) (f'.pres.zip (f'.tmp.zip f'.sal))]

theorem floatLevels_get (f : FloatProfile) (n : ℕ) (h1 : n < f.sal.length) (h2 : n < f.ptmp.length) (h3 : n < f.pres.length) :
    (floatLevels f)[n]? = some ⟨f.sal[n], f.ptmp[n], f.pres[n]⟩ := by
  unfold floatLevels
  rw [List.getElem?_map]
  have : (f.sal.zip (f.ptmp.zip f.pres))[n]? = some (f.sal[n], f.ptmp[n], f.pres[n]) := by
    simp [h1, h2, h3]
  rw [this]
  rfl

/-- Equal levels of two profiles at one station give the same. -/
theorem levelOf_alone (E : Env) (f f' : FloatProfile) (lat long : ℝ) (h : SameStation f f') (hs : E.useSaf ≠ 1 ∨ -30 ≤ lat) (p p' : Prepared)
    (hp : prepare E f lat long = .ok p) (hp' : prepare E f' lat long = .ok p') (n n' : ℕ) (hn : n < f.sal.length) (hn' : n' < f'.sal.length)
    (h1 : f.ptmp.length = f.sal.length) (h2 : f.pres.length = f.sal.length) (h1' : f'.ptmp.length = f'.sal.length) (h2' : f'.pres.length = f'.sal.length)
    (hl : SameLevel f n f' n') : levelOf E f p n = levelOf E f' p' n' := by
  obtain ⟨z, b, S, P, e1, e2, e3, e4, e5, e6, e7⟩ := prepare_all E f lat long p hp
  obtain ⟨z', b', S', P', g1, g2, g3, g4, g5, g6, g7⟩ := prepare_all E f' lat long p' hp'
  rw [e1] at g1
  obtain rfl := Except.ok.inj g1
  rw [← chosenCasts_station E f f' lat long z h hs, e2] at g2
  obtain rfl := Except.ok.inj g2
  have hpos : p.pos = p'.pos := by rw [e3, g3, h.date]
  have hgrid : p.grid = p'.grid := by rw [e4, g4]
  have k2 : f.ptmp[n]'(h1 ▸ hn) = f'.ptmp[n']'(h1' ▸ hn') := by
    have := hl.ptmp
    rw [List.getElem?_eq_getElem (h1 ▸ hn), List.getElem?_eq_getElem (h1' ▸ hn')] at this
    exact Option.some.inj this
  have k3 : f.pres[n]'(h2 ▸ hn) = f'.pres[n']'(h2' ▸ hn') := by
    have := hl.pres
    rw [List.getElem?_eq_getElem (h2 ▸ hn), List.getElem?_eq_getElem (h2' ▸ hn')] at this
    exact Option.some.inj this
  have k1 : f.sal[n] = none ↔ f'.sal[n'] = none := by
    have := hl.measured
    rw [List.getElem?_eq_getElem hn, List.getElem?_eq_getElem hn', Option.some.injEq, Option.some.injEq] at this
    exact this
  have hcell : ∀ c < b.data.sal.length, S n c = S' n' c ∧ P n c = P' n' c := by
    intro c hc
    exact interp_alone _ _ _ _ _ S P S' P' e5 g5 n n' c _ _ (floatLevels_get f n hn (h1 ▸ hn) (h2 ▸ hn)) (floatLevels_get f' n' hn' (h1' ▸ hn') (h2' ▸ hn'))
      k1 k2 k3 hc
  have hrow : ∀ (A A' : ℕ → ℕ → Option ℝ), (∀ c < b.data.sal.length, A n c = A' n' c) →
      item (rowsOf f.sal.length b.data.sal.length A) n = item (rowsOf f'.sal.length b.data.sal.length A') n' := by
    intro A A' hA
    unfold item rowsOf
    rw [List.getElem?_map, List.getElem?_map, List.getElem?_range hn, List.getElem?_range hn']
    dsimp only [Option.map_some]
    congr 1
    exact List.map_congr_left fun c hc => hA c (List.mem_range.1 hc)
  have r1 : item p.interpSal n = item p'.interpSal n' := by rw [e6, g6]; exact hrow S S' fun c hc => (hcell c hc).1
  have r2 : item p.interpPres n = item p'.interpPres n' := by rw [e7, g7]; exact hrow P P' fun c hc => (hcell c hc).2
  have r3 : item f.pres n = item f'.pres n' := by unfold item; rw [hl.pres]
  have r4 : item f.ptmp n = item f'.ptmp n' := by unfold item; rw [hl.ptmp]
  have hh : ∀ δ, processProfileHist p.grid f.pres p.interpSal p.interpPres n δ = processProfileHist p'.grid f'.pres p'.interpSal p'.interpPres n' δ := by
    intro δ
    unfold processProfileHist
    rw [r1, r2, r3, hgrid]
  have hm : mapLevel E.cfg p.pos p.grid f.sal f.pres p.interpSal p.interpPres n = mapLevel E.cfg p'.pos p'.grid f'.sal f'.pres p'.interpSal p'.interpPres n' := by
    unfold mapLevel
    rw [hh, r3, hpos]
    unfold item
    rw [List.getElem?_eq_getElem hn, List.getElem?_eq_getElem hn']
    cases hx : f.sal[n] with
    | none => rw [k1.1 hx]
    | some x =>
      cases hy : f'.sal[n'] with
      | none => rw [k1.2 hy] at hx; cases hx
      | some y =>
        simp only [bind, Except.bind]
        cases f'.pres[n']? with
        | none => rfl
        | some q => cases q <;> rfl
  unfold levelOf
  rw [hm, r4]

/-- C169. What is saved for a level depends on the profile only by its place, date and deepest pressure and by the pressure and potential temperature of this level: not on its
other levels, their number or its place among them. Two runs with the same reference data and configuration that end without exception (no mapped file, profile
numbers ascending, the front left out of account) save the same five numbers for equal levels of two profiles at one station. -/
theorem level_alone (R R' : FloatRun) (fs fs' : Fs ℝ) (henv : R'.env = R.env) (hsort : IsArgsort R.env.argsort) (hno : R.no.Pairwise (· < ·))
    (hno' : R'.no.Pairwise (· < ·)) (hlen : R.no.length = R.source.length) (hlen' : R'.no.length = R'.source.length) (hload : fs R.loadPath = none)
    (hload' : fs' R'.loadPath = none) (hshape : ∀ f ∈ R.source, f.sal.length = R.levels ∧ f.ptmp.length = R.levels ∧ f.pres.length = R.levels)
    (hshape' : ∀ f ∈ R'.source, f.sal.length = R'.levels ∧ f.ptmp.length = R'.levels ∧ f.pres.length = R'.levels) (hs : NoFront R.env R.source)
    (h : (updateMapping R.args fs).1 = none) (h' : (updateMapping R'.args fs').1 = none) :
    ∃ file file' : MapFile ℝ, finalFs R.args fs = Function.update fs R.savePath (some (.whole file)) ∧
      finalFs R'.args fs' = Function.update fs' R'.savePath (some (.whole file')) ∧
      ∀ (i i' : ℕ) (f f' : FloatProfile) (n n' : ℕ), R.source[i]? = some f → R'.source[i']? = some f' → SameStation f f' → n < R.levels → n' < R'.levels →
        SameLevel f n f' n' → ∀ m, ∃ col col' v, (file.mats m)[i]? = some col ∧ (file'.mats m)[i']? = some col' ∧ col[n]? = some v ∧ col'[n']? = some v := by
  obtain ⟨file, h1, -, h3, -⟩ := fresh_run_saved R fs hsort hno hload h
  obtain ⟨file', h1', -, h3', -⟩ := fresh_run_saved R' fs' (henv ▸ hsort) hno' hload' h'
  refine ⟨file, file', h1, h1', ?_⟩
  intro i i' f f' n n' hi hi' hst hn hn' hl m
  have hfm := List.mem_of_getElem? hi
  have hfm' := List.mem_of_getElem? hi'
  have li : i < R.no.length := by rw [hlen]; exact (List.getElem?_eq_some_iff.1 hi).1
  have li' : i' < R'.no.length := by rw [hlen']; exact (List.getElem?_eq_some_iff.1 hi').1
  have hP : R.args.P i = profileOf R.env f := by
    change profilesOf R.env R.source i = _
    unfold profilesOf item
    rw [hi]
    rfl
  have hP' : R'.args.P i' = profileOf R.env f' := by
    change profilesOf R'.env R'.source i' = _
    unfold profilesOf item
    rw [hi', henv]
    rfl
  have key : levelOut R.args.P i n = levelOut R'.args.P i' n' := by
    obtain ⟨r, hr, -⟩ := fresh_ok_all R.args fs hload h i li
    obtain ⟨r', hr', -⟩ := fresh_ok_all R'.args fs' hload' h' i' li'
    unfold levelOut
    rw [hP] at hr ⊢
    rw [hP'] at hr' ⊢
    by_cases hpl : Placed f
    swap
    · have hun : ∀ g, ¬ Placed g → profileOf R.env g = .ok none := by
        intro g hg
        unfold profileOf
        rw [if_neg fun h' => hg ((usable_iff g).1 h')]
        rfl
      rw [hun f hpl, hun f' fun h => hpl (hst.placed.2 h)]
    have hplaced : ∀ g lat long, Placed g → g.lat = some lat → g.long = some long →
        profileOf R.env g = (prepare R.env g lat long).map fun p => some (levelOf R.env g p) := by
      intro g lat long h h1 h2
      unfold profileOf
      rw [if_pos ((usable_iff g).2 h), h1, h2]
      dsimp only [bind, Except.bind]
      cases prepare R.env g lat long <;> rfl
    obtain ⟨lat, hla⟩ := Option.ne_none_iff_exists'.1 hpl.1
    obtain ⟨long, hlo⟩ := Option.ne_none_iff_exists'.1 hpl.2.1
    rw [hplaced f lat long hpl hla hlo] at hr ⊢
    rw [hplaced f' lat long (hst.placed.1 hpl) (hst.lat ▸ hla) (hst.long ▸ hlo)] at hr' ⊢
    cases hp : prepare R.env f lat long with
    | error e => rw [hp] at hr; cases hr
    | ok p =>
      cases hp' : prepare R.env f' lat long with
      | error e => rw [hp'] at hr'; cases hr'
      | ok p' =>
        obtain ⟨s1, s2, s3⟩ := hshape f hfm
        obtain ⟨s1', s2', s3'⟩ := hshape' f' hfm'
        have hsf : R.env.useSaf ≠ 1 ∨ -30 ≤ lat := by
          rcases hs with hs | hs
          · exact .inl hs
          · exact .inr (hs f hfm lat hla)
        dsimp only [Except.map]
        rw [levelOf_alone R.env f f' lat long hst hsf p p' hp hp' n n' (by omega) (by omega) (by omega) (by omega) (by omega) (by omega) hl]
  refine ⟨profileColumn R.args.P R.levels m i, profileColumn R'.args.P R'.levels m i', _, by rw [h3]; simp [li], by rw [h3']; simp [li'],
    by unfold profileColumn; rw [List.getElem?_map, List.getElem?_range hn]; rfl, ?_⟩
  unfold profileColumn
  rw [List.getElem?_map, List.getElem?_range hn']
  dsimp only [Option.map_some]
  rw [key]

end Verif.Props
