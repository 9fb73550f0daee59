import Verif.Props.Piecewise
import Verif.Spec.Repeat

/-!
# Lemmas: the random numbers have an influence on errors only
-/

set_option linter.unusedSectionVars false

namespace Verif.Lemmas

open Verif.Np Verif.Stats Verif.Spec Verif.BreakFit Verif.FitCond Verif.Piecewise Verif.Props Matrix

theorem tryModel_search {n : ℕ} (d : Scaled n) (lo hi : ℝ) (o : Opts) (maxIn : ℤ) (p : Plan) (opt opt' : Externals) (h : opt.search = opt'.search)
    (nbr : ℤ) : tryModel d lo hi o maxIn p opt nbr = tryModel d lo hi o maxIn p opt' nbr := by
  unfold tryModel
  rw [h]

theorem finish_noise {n m : ℕ} (loops : ℤ) (opt opt' : Externals) (x y : Fin (n + 1) → ℝ) (d : Scaled n) (cov : Matrix (Fin (n + 1)) (Fin (n + 1)) ℝ)
    (xfit : Fin (m + 1) → ℝ) (f : Fitted) :
    withoutErrors (finish loops opt x y d cov xfit f) = withoutErrors (finish loops opt' x y d cov xfit f) := rfl

theorem fitCore_repeatable {n m : ℕ} (xfit : Fin (m + 1) → ℝ) (x y err : Fin (n + 1) → ℝ) (cov : Matrix (Fin (n + 1)) (Fin (n + 1)) ℝ)
    (args : List Arg) (opt opt' : Externals) (h : opt.search = opt'.search) :
    (fitCore xfit x y err cov args opt).map withoutErrors = (fitCore xfit x y err cov args opt').map withoutErrors := by
  unfold fitCore
  have ht : ∀ (d : Scaled n) (lo hi : ℝ) (o : Opts) (maxIn : ℤ) (p : Plan), tryModel d lo hi o maxIn p opt = tryModel d lo hi o maxIn p opt' :=
    fun d lo hi o maxIn p => funext fun nbr => tryModel_search d lo hi o maxIn p opt opt' h nbr
  simp only [ht]
  simp only [bind, Except.bind, Except.map, pure, Except.pure]
  cases parseArgs args with
  | error e => rfl
  | ok o0 =>
    simp only
    generalize ({ o0 with breaks := o0.breaks.map fun l => l.map fun v => (v - xCentre x) / xScale x } : Opts) = o
    cases maxBreaks o with
    | error e => rfl
    | ok maxIn =>
      simp only
      by_cases hpf : presetFails (scaled x y err) o maxIn
      · simp only [if_pos hpf]
      simp only [if_neg hpf]
      generalize (List.mapM _ _ : Except PyErr (List Fitted)) = t
      cases t with
      | error e => rfl
      | ok tried =>
        simp only
        generalize chooseModel _ _ _ _ _ = cm
        cases cm with
        | error e => rfl
        | ok f =>
          simp only
          split_ifs with hdet
          · rfl
          · cases f with
            | offset a r => rfl
            | line b br co r =>
              simp only
              generalize errorLoop _ _ = el
              cases el with
              | error e => rfl
              | ok u => rfl

theorem map_through {α β γ δ : Type} {e e' : Except PyErr α} {f : α → β} (h : e.map f = e'.map f) (g : α → γ) (k : β → δ) (j : γ → δ)
    (hk : ∀ a, j (g a) = k (f a)) : (e.map g).map j = (e'.map g).map j := by
  cases e with
  | error x =>
    cases e' with
    | error x' =>
      have hx : x = x' := Except.error.inj h
      rw [hx]
    | ok a' => cases h
  | ok a =>
    cases e' with
    | error x' => cases h
    | ok a' =>
      show Except.ok (j (g a)) = Except.ok (j (g a'))
      rw [hk, hk, show f a = f a' from Except.ok.inj h]


theorem fitCond_erase (obs : List Obs) (lvcov : ℕ → ℕ → ℝ) (args : List Arg) (opt opt' : Externals) (h : opt.search = opt'.search) :
    (fitCond obs lvcov args opt).map (Option.map eraseFit) = (fitCond obs lvcov args opt').map (Option.map eraseFit) := by
  unfold fitCond
  simp only
  split
  · exact map_through (fitCore_repeatable _ _ _ _ _ args opt opt' h) _ (fun f => some ⟨_, f⟩) _ fun _ => rfl
  · rfl

theorem fitSegment_repeatable (E E' : Env) (hg : E.gsw = E'.gsw) (hcov : E.cov = E'.cov) (hs : ∀ i, (E.opt i).search = (E'.opt i).search)
    (S : Settings) (i : ℕ) (cols : List Column) (coords : List Coord) (args : List Arg) :
    (fitSegment E S i cols coords args).map (Option.map eraseFit) = (fitSegment E' S i cols coords args).map (Option.map eraseFit) := by
  unfold fitSegment
  rw [hg, hcov]
  simp only [bind, Except.bind]
  split
  · rfl
  · split
    · rfl
    · exact fitCond_erase _ _ _ _ _ (hs i)

theorem segmentOut_repeatable (G : Gsw) (cols : List Column) {m : ℕ} (f f' : Fit m) (h : withoutErrors f = withoutErrors f') :
    (segmentOut G cols f).map (List.map withoutFactorErr) = (segmentOut G cols f').map (List.map withoutFactorErr) := by
  have hw := congrArg Fit.condslope h
  have hw2 := congrArg Fit.timeDeriv h
  have hw3 := congrArg Fit.timeDerivErr h
  have hw4 := congrArg Fit.staMean h
  have hw5 := congrArg Fit.staRms h
  simp only [withoutErrors] at hw hw2 hw3 hw4 hw5
  have hc : ∀ (r r' : FitAt) (c : Column), { r with factorErr := none } = { r' with factorErr := none } →
      withoutFactorErr ⟨r, c.cells.map (calCell G r)⟩ = withoutFactorErr ⟨r', c.cells.map (calCell G r')⟩ := by
    intro r r' c hr
    obtain ⟨r1, r2, r3, r4, r5, r6⟩ := r
    obtain ⟨s1, s2, s3, s4, s5, s6⟩ := r'
    simp only [FitAt.mk.injEq, true_and] at hr
    obtain ⟨rfl, rfl, rfl, rfl, rfl⟩ := hr
    unfold withoutFactorErr
    simp only [ColOut.mk.injEq, true_and, List.map_map]
    congr 1
    funext x
    simp only [Function.comp_apply, calCell]
    split <;> rfl
  have hl : ∀ (l l' : List FitAt), l.map (fun r => { r with factorErr := none }) = l'.map (fun r => { r with factorErr := none }) → ∀ cols : List Column,
      (List.zipWith (fun (c : Column) (r : FitAt) => (⟨r, c.cells.map (calCell G r)⟩ : ColOut)) cols l).map withoutFactorErr =
      (List.zipWith (fun (c : Column) (r : FitAt) => (⟨r, c.cells.map (calCell G r)⟩ : ColOut)) cols l').map withoutFactorErr := by
    intro l
    induction l with
    | nil =>
      intro l' hl cols
      obtain rfl : l' = [] := List.map_eq_nil_iff.1 hl.symm
      rfl
    | cons r l ih =>
      intro l' hl cols
      cases l' with
      | nil => cases hl
      | cons r' l' =>
        rw [List.map_cons, List.map_cons] at hl
        obtain ⟨h1, h2⟩ := List.cons.inj hl
        cases cols with
        | nil => rfl
        | cons c cols =>
          simp only [List.zipWith_cons_cons, List.map_cons]
          rw [hc r r' c h1, ih l' h2 cols]
  unfold segmentOut spread
  split_ifs with h1 h2
  · show Except.ok _ = Except.ok _
    congr 1
    apply hl
    simp only [List.map_ofFn, Function.comp_def, hw, hw2, hw3, hw4, hw5]
  · show Except.ok _ = Except.ok _
    congr 1
    apply hl
    simp only [List.map_replicate, hw, hw2, hw3, hw4, hw5]
  · rfl

/-- What a segment contributes, without the errors. -/
def eraseSegment (r : SegmentOut) : SegmentOut := { r with puts := r.puts.map fun p => (p.1, withoutFactorErr p.2) }

theorem zip_erase (cal : List ℕ) (l : List ColOut) :
    (cal.zip l).map (fun p => (p.1, withoutFactorErr p.2)) = cal.zip (l.map withoutFactorErr) := by
  rw [List.zip_map_right]
  rfl

theorem segmentWork_repeatable (E E' : Env) (hg : E.gsw = E'.gsw) (hcov : E.cov = E'.cov) (hs : ∀ i, (E.opt i).search = (E'.opt i).search)
    (S : Settings) (mb : List (List ℤ)) (data : List Column) (coords : Option (List Coord)) (iv : ℕ × ℝ) :
    (segmentWork E S mb data coords iv).map eraseSegment = (segmentWork E' S mb data coords iv).map eraseSegment := by
  unfold segmentWork
  cases coords with
  | none => rfl
  | some cs =>
    simp only [bind, Except.bind]
    split
    · rfl
    · split
      · rfl
      · split
        · rfl
        · rename_i sub _ _ cols _ _ args _
          have h := fitSegment_repeatable E E' hg hcov hs S iv.1 cols sub args
          generalize fitSegment E S iv.1 cols _ args = a at h ⊢
          generalize fitSegment E' S iv.1 cols _ args = a' at h ⊢
          cases a with
          | error e =>
            cases a' with
            | error e' => rw [show e = e' from Except.error.inj h]
            | ok v => cases h
          | ok v =>
            cases a' with
            | error e' => cases h
            | ok v' =>
              have h := Except.ok.inj h
              cases v with
              | none =>
                cases v' with
                | none => rfl
                | some w' => cases h
              | some w =>
                cases v' with
                | none => cases h
                | some w' =>
                  obtain ⟨m, f⟩ := w
                  obtain ⟨m', f'⟩ := w'
                  have h := Option.some.inj h
                  obtain ⟨h1, h2⟩ := Sigma.mk.inj h
                  subst h1
                  have h2 := eq_of_heq h2
                  have hco : f.coef = f'.coef := by have := congrArg Fit.coef h2; exact this
                  have hbr : f.breaks = f'.breaks := by have := congrArg Fit.breaks h2; exact this
                  have hout := segmentOut_repeatable E'.gsw cols f f' h2
                  simp only [hg]
                  generalize segmentOut E'.gsw cols f = o at hout ⊢
                  generalize segmentOut E'.gsw cols f' = o' at hout ⊢
                  cases o with
                  | error e =>
                    cases o' with
                    | error e' => rw [show e = e' from Except.error.inj hout]
                    | ok u => cases hout
                  | ok u =>
                    cases o' with
                    | error e' => cases hout
                    | ok u' =>
                      have hu : u.map withoutFactorErr = u'.map withoutFactorErr := Except.ok.inj hout
                      simp only
                      split_ifs
                      · rfl
                      · rfl
                      · show Except.ok _ = Except.ok _
                        congr 1
                        unfold eraseSegment
                        simp only [zip_erase, hu, hco, hbr]

theorem putAll_map {α β : Type} (f : α → β) (a : List α) (l : List (ℕ × α)) :
    (putAll a l).map f = putAll (a.map f) (l.map fun p => (p.1, f p.2)) := by
  induction l generalizing a with
  | nil => rfl
  | cons p l ih =>
    simp only [putAll, List.map_cons]
    rw [ih, List.map_set]

theorem applySegment_repeatable (out out' : CalibFile) (r r' : SegmentOut) (ho : fileWithoutErrors out = fileWithoutErrors out')
    (hr : eraseSegment r = eraseSegment r') : fileWithoutErrors (applySegment out r) = fileWithoutErrors (applySegment out' r') := by
  unfold fileWithoutErrors at ho
  unfold eraseSegment at hr
  simp only [CalibFile.mk.injEq] at ho
  simp only [SegmentOut.mk.injEq] at hr
  obtain ⟨h1, h2, h3⟩ := ho
  obtain ⟨g1, g2, g3⟩ := hr
  unfold applySegment fileWithoutErrors
  simp only [putAll_map, h1, h2, h3, g1, g2, g3]

theorem steps_repeatable (E E' : Env) (hg : E.gsw = E'.gsw) (hcov : E.cov = E'.cov) (hs : ∀ i, (E.opt i).search = (E'.opt i).search)
    (S : Settings) (mb : List (List ℤ)) (data : List Column) (coords : Option (List Coord)) (l : List (ℕ × ℝ)) :
    ∀ out out', fileWithoutErrors out = fileWithoutErrors out' →
      (l.foldlM (segmentStep E S mb data coords) out).map fileWithoutErrors = (l.foldlM (segmentStep E' S mb data coords) out').map fileWithoutErrors := by
  induction l with
  | nil =>
    intro out out' h
    show Except.ok _ = Except.ok _
    rw [h]
  | cons iv l ih =>
    intro out out' h
    rw [List.foldlM_cons, List.foldlM_cons]
    have hw := segmentWork_repeatable E E' hg hcov hs S mb data coords iv
    unfold segmentStep
    generalize segmentWork E S mb data coords iv = a at hw ⊢
    generalize segmentWork E' S mb data coords iv = a' at hw ⊢
    cases a with
    | error e =>
      cases a' with
      | error e' => rw [show e = e' from Except.error.inj hw]; rfl
      | ok v => cases hw
    | ok v =>
      cases a' with
      | error e' => cases hw
      | ok v' => exact ih _ _ (applySegment_repeatable out out' v v' h (Except.ok.inj hw))

end Verif.Lemmas
