import Verif.Props.FitOrder
import Verif.Props.FitDetermined

/-!
# Cases that meet the hypotheses of the theorems about `fit_cond`
-/

set_option linter.unusedSectionVars false

namespace Verif.Props

open Verif.Np Verif.Spec Verif.BreakFit Verif.FitCond Matrix

/-- The profiles 0, …, 6. -/
def sevenX : Fin 7 → ℝ := fun i => (i.val : ℝ)

/-- The values |x - 3|. -/
noncomputable def sevenY : Fin 7 → ℝ := fun i => |(i.val : ℝ) - 3|

theorem sevenX_strict : StrictMono sevenX := fun a b h => by
  show (a.val : ℝ) < b.val
  exact_mod_cast h

theorem seven_knots : (Fin.cons (sevenX 0) ![3] : Fin 2 → ℝ) = ![0, 3] := by
  funext i; fin_cases i <;> simp [sevenX]

theorem seven_mono : Monotone (Fin.cons (sevenX 0) ![3] : Fin 2 → ℝ) := by
  rw [seven_knots]
  intro i j h
  fin_cases i <;> fin_cases j <;> simp_all

theorem seven_determined : Determined (Fin.cons (sevenX 0) ![3] : Fin 2 → ℝ) (fun _ => (1 : ℝ)) sevenX := by
  rw [seven_knots]
  intro slope f hf hz
  have z : ∀ i : Fin 7, f (i.val : ℝ) = 0 := fun i => hz i one_ne_zero
  have z0 : f 0 = 0 := by simpa using z 0
  have z1 : f 1 = 0 := by simpa using z 1
  have z3 : f 3 = 0 := by simpa using z 3
  have z4 : f 4 = 0 := by simpa using z 4
  have h0 := hf 0 1 (by simp) (fun h => by norm_num)
  have h1 := hf 1 4 (by norm_num) (fun h => by simp at h)
  simp at h0 h1
  refine ⟨by simpa using z0, ?_⟩
  funext j
  fin_cases j
  · simp; linarith
  · simp; norm_num at h1; linarith

theorem seven_broken : IsBrokenLine (Fin.cons (sevenX 0) ![3] : Fin 2 → ℝ) ![-1, 1] (fun t => |t - 3|) := by
  rw [seven_knots]
  intro j t ht ht'
  fin_cases j
  · have h3 : t ≤ 3 := by simpa using ht' (by norm_num)
    simp only [Fin.zero_eta, Fin.isValue, cons_val_zero]
    rw [abs_of_nonpos (by linarith)]
    norm_num
    ring
  · have h3 : 3 ≤ t := by simpa using ht
    simp only [Fin.mk_one, Fin.isValue, cons_val_one, cons_val_fin_one]
    rw [abs_of_nonneg (by linarith)]
    norm_num

theorem seven_not_straight : ¬ ∃ p q : ℝ, ∀ i, sevenY i = p + q * sevenX i := by
  rintro ⟨p, q, h⟩
  have h0 := h 0
  have h3 := h 3
  have h6 := h 6
  simp only [sevenY, sevenX] at h0 h3 h6
  norm_num at h0 h3 h6
  linarith

/-- An optimiser that stays at 0 finds the break point 3. -/
theorem seven_sought (l : Fin 1 → ℝ) : SoughtBreaks sevenX (fun _ => 0) l ↔ l = ![3] := by
  have h1 : IsLeast {v | ∃ i, sevenX i = v ∧ sevenX 0 < v} 1 := by
    refine ⟨⟨1, by simp [sevenX], by simp [sevenX]⟩, ?_⟩
    rintro v ⟨i, rfl, hi⟩
    simp only [sevenX] at hi ⊢
    have : 0 < i.val := by exact_mod_cast hi
    exact_mod_cast this
  have h5 : IsGreatest {v | ∃ i, sevenX i = v ∧ v < sevenX (Fin.last 6)} 5 := by
    refine ⟨⟨5, by simp [sevenX], by simp [sevenX]; norm_num⟩, ?_⟩
    rintro v ⟨i, rfl, hi⟩
    simp only [sevenX] at hi ⊢
    have : i.val < 6 := by
      have : (i.val : ℝ) < ((Fin.last 6).val : ℝ) := hi
      exact_mod_cast this
    have : i.val ≤ 5 := by omega
    exact_mod_cast this
  unfold SoughtBreaks
  rw [if_pos (by rw [Finset.card_image_of_injective _ sevenX_strict.injective]; simp)]
  constructor
  · rintro ⟨a, b, ha, hb, h⟩
    obtain rfl := ha.unique h1
    obtain rfl := hb.unique h5
    funext i
    rw [h i]
    have : i = 0 := Fin.ext (by omega)
    subst this
    simp
    norm_num
  · rintro rfl
    refine ⟨1, 5, h1, h5, ?_⟩
    intro i
    have : i = 0 := Fin.ext (by omega)
    subst this
    simp
    norm_num

/-- Seven observations |x - 3| at 0, …, 6, an optimiser that finds the break point 3, one break point allowed: `fit_cond` fails. -/
theorem fit_free_breaks_fail_case (xfit : Fin 7 → ℝ) :
    ∃ e, fitCore xfit sevenX sevenY (fun _ => 1) 1 [.str "max_no_breaks", .int 1] ⟨fun _ => (fun _ => 0, fun _ => 0), fun _ _ => 0⟩ = .error e :=
  fit_broken_line_fails (b := 0) xfit sevenX sevenY (fun _ => 1) sevenX_strict.monotone (sevenX_strict (by decide)) (fun _ => one_pos)
    1 isCorrelation_one 1 _ (by norm_num) (by rw [(ndf_bounds_sharp 6).1]; norm_num) ![3] ((seven_sought _).2 rfl) seven_determined ![-1, 1]
    (fun t => |t - 3|) seven_broken (fun i => rfl) seven_not_straight

/-- C70, C71, C139: up to three break points allowed, but only one tried with seven independent observations; the data determine it. -/
theorem seven_brokenDetermined : BrokenDetermined sevenX (fun _ _ => 0) 3 (effectiveNumber (1 : Matrix (Fin 7) (Fin 7) ℝ)) := by
  rintro b ⟨-, -, hb⟩ l hl
  rw [(ndf_bounds_sharp 6).1] at hb
  have hb0 : b = 0 := by
    rcases hb with hb | hb
    · omega
    · have : 2 * (b : ℝ) ≤ 0 := by push_cast at hb; linarith
      have : b ≤ 0 := by exact_mod_cast (by linarith : (b : ℝ) ≤ 0)
      omega
  subst hb0
  rw [(seven_sought l).1 hl]
  exact seven_determined

example : ∃ fit, fitCore sevenX sevenX (fun i => 2 + 3 * sevenX i) (fun _ => 1) 1 [.str "max_no_breaks", .int 3] ⟨fun _ => (fun _ => 0, fun _ => 0), fun _ _ => 0⟩ = .ok fit ∧
    fit.coef = [2 + 3 * sevenX 0, 3] := by
  obtain ⟨fit, h1, h2, -⟩ := fit_linear_exact sevenX sevenX (fun i => 2 + 3 * sevenX i) (fun _ => 1) sevenX_strict.monotone (fun _ => one_pos) 1 isCorrelation_one
    ⟨fun _ => (fun _ => 0, fun _ => 0), fun _ _ => 0⟩ (sevenX_strict (by decide)) sevenX_strict.monotone (by rw [(ndf_bounds_sharp 6).1]; norm_num) 2 3 (by norm_num)
    (fun _ => rfl) 3 (by norm_num) seven_brokenDetermined
  exact ⟨fit, h1, h2⟩

/-- C139: nine independent observations at three profiles, one break point allowed. -/
example (y : Fin 9 → ℝ) (opt : Externals) : fitCore ![0, 1, 2] ![0, 0, 0, 1, 1, 1, 2, 2, 2] y (fun _ => 1) 1 [.str "max_no_breaks", .int 1] opt = .error .valueError := by
  refine fit_few_profiles_fails _ _ _ _ ?_ (fun _ => one_pos) 1 isCorrelation_one opt ?_ 1 le_rfl (by rw [(ndf_bounds_sharp 8).1]; norm_num)
  · intro i j h
    fin_cases i <;> fin_cases j <;> simp_all
  · refine (Finset.card_le_card (t := {0, 1, 2}) ?_).trans Finset.card_le_three
    intro v hv
    obtain ⟨i, -, rfl⟩ := Finset.mem_image.1 hv
    fin_cases i <;> simp

/-- C69, C139: five independent observations at one profile, a line allowed. -/
example (y : Fin 5 → ℝ) (opt : Externals) : fitCore ![7] (fun _ => 7) y (fun _ => 1) 1 [.str "max_no_breaks", .int 0] opt = .error .valueError :=
  fit_one_profile_fails _ _ _ _ monotone_const (fun _ => one_pos) 1 isCorrelation_one opt (fun _ _ => rfl) 0 le_rfl (by rw [(ndf_bounds_sharp 4).1]; norm_num)

/-- The same observations with the break point given: the broken line is found. -/
example : ∃ fit f slope, fitCore sevenX sevenX sevenY (fun _ => 1) (1 : Matrix (Fin 7) (Fin 7) ℝ) [.str "breaks", .arr [3], .str "max_no_breaks", .int 1]
      ⟨fun _ => (fun _ => 0, fun _ => 0), fun _ _ => 0⟩ = .ok fit ∧ fit.breaks = [3] ∧
      IsBrokenLine (Fin.cons (sevenX 0) (fun i : Fin 1 => [(3 : ℝ)][i]) : Fin 2 → ℝ) slope f ∧
      (∀ i, fit.condslope i = f (sevenX i)) := by
  have e : (fun i : Fin [(3 : ℝ)].length => [(3 : ℝ)][i]) = ![3] := by
    funext i
    have : i = (0 : Fin 1) := Fin.ext (by have := i.isLt; simp at this; simpa using this)
    subst this; rfl
  obtain ⟨fit, f, s, h1, h2, h3, h4, -, -⟩ := fit_fixed sevenX sevenX sevenY (fun _ => 1) 1 ⟨fun _ => (fun _ => 0, fun _ => 0), fun _ _ => 0⟩ (l := [3])
    (by simp) sevenX_strict.monotone (fun _ => one_pos) (by rw [e]; exact seven_mono) (by rw [e]; exact seven_determined)
    sevenX_strict.monotone rfl
  exact ⟨fit, f, s, h1, h2, h3, h4⟩

/-- `fit_linear_exact`, `fit_result`, `fit_chooses_least_aic`, `fit_affine`: independent data at seven profiles. -/
example : IsPosCorrelation (1 : Matrix (Fin 7) (Fin 7) ℝ) ∧ 5 ≤ effectiveNumber (1 : Matrix (Fin 7) (Fin 7) ℝ) ∧ Monotone sevenX ∧ sevenX 0 < sevenX (Fin.last 6) :=
  ⟨isCorrelation_one, by rw [(ndf_bounds_sharp 6).1]; norm_num, sevenX_strict.monotone, sevenX_strict (by decide)⟩

/-- `fit_offset_when_few`: three independent observations. -/
example : effectiveNumber (1 : Matrix (Fin 3) (Fin 3) ℝ) < 5 := by rw [(ndf_bounds_sharp 2).1]; norm_num

end Verif.Props
