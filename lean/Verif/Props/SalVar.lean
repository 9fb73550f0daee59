import Verif.Lemmas.SalVar

/-!
# Properties of `sal_var_plot` (C61, C108, C109)
-/

set_option linter.unusedSectionVars false

namespace Verif.Props

open Verif.Np Verif.Spec Verif.SalVar

variable {K : Type} [Field K] [LinearOrder K] [IsStrictOrderedRing K] [FloorRing K]

/-- The five values drawn for a profile on the theta level `th`, computed from the rows kept. -/
def DrawnFrom (kept : ℕ → Prop) (prof : List (Cell K)) (th : K) (v : Drawn K) : Prop :=
  OnTheta kept prof th Cell.sal Cell.sal v.sal ∧ OnTheta kept prof th Cell.mapSal Cell.mapSal v.mapSal ∧
  OnTheta kept prof th Cell.mapSal Cell.mapErr v.mapErr ∧ OnTheta kept prof th Cell.calSal Cell.calSal v.calSal ∧
  OnTheta kept prof th Cell.calSal Cell.calErr v.calErr

theorem drawn_spec (kept : ℕ → Prop) (prof : List (Cell K)) (th : K) (v : Drawn K) (h : drawn (some th) (keepRows kept prof) = .ok v) :
    DrawnFrom kept prof th v := by
  unfold drawn at h
  cases h1 : onLevel (some th) (keepRows kept prof) Cell.sal Cell.sal with
  | error e => rw [h1] at h; simp [bind, Except.bind] at h
  | ok a =>
  cases h2 : onLevel (some th) (keepRows kept prof) Cell.mapSal Cell.mapSal with
  | error e => rw [h1, h2] at h; simp [bind, Except.bind] at h
  | ok b =>
  cases h3 : onLevel (some th) (keepRows kept prof) Cell.mapSal Cell.mapErr with
  | error e => rw [h1, h2, h3] at h; simp [bind, Except.bind] at h
  | ok c =>
  cases h4 : onLevel (some th) (keepRows kept prof) Cell.calSal Cell.calSal with
  | error e => rw [h1, h2, h3, h4] at h; simp [bind, Except.bind] at h
  | ok d =>
  cases h5 : onLevel (some th) (keepRows kept prof) Cell.calSal Cell.calErr with
  | error e => rw [h1, h2, h3, h4, h5] at h; simp [bind, Except.bind] at h
  | ok e =>
    rw [h1, h2, h3, h4, h5] at h
    simp only [bind, Except.bind, pure, Except.pure, Except.ok.injEq] at h
    subst h
    exact ⟨onLevel_spec _ _ _ _ _ _ h1, onLevel_spec _ _ _ _ _ _ h2, onLevel_spec _ _ _ _ _ _ h3, onLevel_spec _ _ _ _ _ _ h4,
      onLevel_spec _ _ _ _ _ _ h5⟩

theorem drawn_none (prof : List (Cell K)) : drawn (none : Option K) prof = .ok ⟨none, none, none, none, none⟩ := rfl

theorem salVarData_ok {rows levels : ℕ} {B : Thetas.Bounds K} {percent : K} {data : List (List (Cell K))} {m : List (List (Drawn K))}
    (h : salVarData rows levels B percent data = .ok m) :
    ∃ T d, Thetas.find10thetas B percent (data.map fun prof => prof.map Cell.toLevel) = .ok T ∧ maskAll rows B data = .ok d ∧ levels ≤ 10 ∧
      (List.range levels).mapM (fun (i : ℕ) => d.mapM (drawn (T.tLevels[i]?).join)) = .ok m := by
  unfold salVarData at h
  cases h1 : Thetas.find10thetas B percent (data.map fun prof => prof.map Cell.toLevel) with
  | error e => rw [h1] at h; simp [bind, Except.bind] at h
  | ok T =>
    cases h2 : maskAll rows B data with
    | error e => rw [h1, h2] at h; simp [bind, Except.bind] at h
    | ok d =>
      rw [h1, h2] at h
      simp only [bind, Except.bind] at h
      split_ifs at h with hl
      exact ⟨T, d, rfl, rfl, by omega, h⟩

/-- C108. What a completed `sal_var_plot` draws: for every profile and every theta level found, all five values are obtained from the rows kept, by
interpolation between the nearest row and the next one across the level, never by extrapolation; on theta levels that were not found nothing is drawn. -/
theorem sal_var_values (rows levels : ℕ) (B : Thetas.Bounds K) (percent : K) (data : List (List (Cell K)))
    (m : List (List (Drawn K))) (h : salVarData rows levels B percent data = .ok m) :
    ∃ T, Thetas.find10thetas B percent (data.map fun prof => prof.map measuredLevel) = .ok T ∧ levels ≤ 10 ∧ m.length = levels ∧
      ∀ i < levels, ∃ row, m[i]? = some row ∧ row.length = data.length ∧ ∀ (j : ℕ) (prof : List (Cell K)), data[j]? = some prof →
        ∃ v, row[j]? = some v ∧ (∀ th, T.tLevels[i]? = some (some th) → DrawnFrom (fun r => Kept B data r j) prof th v) ∧
          ((T.tLevels[i]?).join = none → v = ⟨none, none, none, none, none⟩) := by
  obtain ⟨T, d, hT, hd, hl, hm⟩ := salVarData_ok h
  have hk := maskAll_ok hd
  refine ⟨T, hT, hl, by simpa using (mapM_getElem hm).1, fun i hi => ?_⟩
  obtain ⟨hlen, hget⟩ := mapM_getElem hm
  have hri : (List.range levels)[i]? = some i := by simp [hi]
  obtain ⟨row, hrowm, hrow⟩ := hget i i hri
  obtain ⟨hlen2, hget2⟩ := mapM_getElem hrow
  have hdl : d.length = data.length := by
    apply le_antisymm
    · by_contra hc
      have h1 : data[data.length]? = none := List.getElem?_eq_none (le_refl _)
      have h2 := hk data.length
      rw [h1] at h2
      rw [List.getElem?_eq_getElem (by omega)] at h2
      simp at h2
    · by_contra hc
      have h2 := hk d.length
      rw [List.getElem?_eq_none (le_refl _), List.getElem?_eq_getElem (by omega)] at h2
      simp at h2
  refine ⟨row, hrowm, by omega, fun j prof hj => ?_⟩
  have hdj := hk j
  rw [hj, Option.map_some] at hdj
  obtain ⟨v, hvr, hv⟩ := hget2 j _ hdj
  refine ⟨v, hvr, fun th hth => ?_, fun hn => ?_⟩
  · rw [hth, Option.join_some] at hv
    exact drawn_spec _ _ _ _ hv
  · rw [hn, drawn_none] at hv
    exact (Except.ok.inj hv).symm

/-- C61, part. Without limits, or with an upper limit of temperature only, what is drawn comes exactly from the cells within the limits. Missing: all other
limits, for which it does not (`sal_var_drops_rows`, `sal_var_index_error`, `sal_var_never_completes`). -/
theorem sal_var_exact_partial (rows levels : ℕ) (B : Thetas.Bounds K) (percent : K) (data : List (List (Cell K)))
    (hB : B.thetaGt = none ∧ B.presLt = none ∧ B.presGt = none) (m : List (List (Drawn K))) (h : salVarData rows levels B percent data = .ok m) :
    ∃ T, Thetas.find10thetas B percent (data.map fun prof => prof.map measuredLevel) = .ok T ∧
      ∀ i < levels, ∀ (j : ℕ) (prof : List (Cell K)) (th : K), data[j]? = some prof → T.tLevels[i]? = some (some th) →
        ∃ row v, m[i]? = some row ∧ row[j]? = some v ∧ DrawnFrom (fun r => ∃ x, prof[r]? = some x ∧ WithinLimits B x) prof th v := by
  obtain ⟨T, hT, -, -, hv⟩ := sal_var_values rows levels B percent data m h
  refine ⟨T, hT, fun i hi j prof th hj hth => ?_⟩
  obtain ⟨row, hrow, -, hr⟩ := hv i hi
  obtain ⟨v, hvr, hd, -⟩ := hr j prof hj
  refine ⟨row, v, hrow, hvr, ?_⟩
  have : (fun r => Kept B data r j) = fun r => ∃ x, prof[r]? = some x ∧ WithinLimits B x := by
    funext r
    have hno : ∀ r c, ¬ PresBad B data r c := by
      rintro r c ⟨-, y, p, -, -, hna⟩
      rw [hB.2.1, hB.2.2] at hna
      exact hna trivial
    have hc : cellAt data r j = prof[r]? := by unfold cellAt; rw [hj]; rfl
    unfold Kept ThetaKept ThetaBad
    rw [if_pos hB.1, hc]
    apply propext
    constructor
    · rintro ⟨⟨⟨x, hx, hm⟩, hnb⟩, -⟩
      refine ⟨x, hx, hm, fun t ht => ?_, fun p _ => ?_⟩
      · by_contra hna
        exact hnb ⟨x, t, hx, hm, ht, hna⟩
      · rw [hB.2.1, hB.2.2]; trivial
    · rintro ⟨x, hx, hm, ht, -⟩
      refine ⟨⟨⟨x, hx, hm⟩, ?_⟩, fun s => ⟨hno _ _, hno _ _⟩⟩
      rintro ⟨y, t, hy, -, hyt, hna⟩
      rw [hx] at hy
      obtain rfl := Option.some.inj hy
      exact hna (ht t hyt)
  rw [← this]
  exact hd th hth

/-- C61, finding. Any limit of pressure, or a lower limit of temperature, makes one cell outside the limits (in row `r` of profile `c`) drop row `r` and row
`c` from all profiles, whatever the cells there contain. -/
theorem sal_var_drops_rows (B : Thetas.Bounds K) (data : List (List (Cell K))) (r c : ℕ)
    (h : (B.thetaGt ≠ none ∧ ThetaBad B data r c) ∨ PresBad B data r c) (s : ℕ) : ¬ Kept B data r s ∧ ¬ Kept B data c s := by
  rcases h with ⟨hg, hb⟩ | hb
  · constructor
    · rintro ⟨⟨-, hk⟩, -⟩
      rw [if_neg hg] at hk
      exact (hk c).1 hb
    · rintro ⟨⟨-, hk⟩, -⟩
      rw [if_neg hg] at hk
      exact (hk r).2 hb
  · exact ⟨fun hk => (hk.2 c).1 hb, fun hk => (hk.2 r).2 hb⟩

theorem onLevel_error {theta : Option K} {prof : List (Cell K)} {gate q : Cell K → Option K} {e : PyErr} (h : onLevel theta prof gate q = .error e) :
    e = .valueError := by
  unfold onLevel at h
  cases theta with
  | none => simp at h
  | some th =>
    cases hidx : Thetas.thetaIndex (some th) (prof.map Cell.toLevel) with
    | none => rw [hidx] at h; simp at h
    | some i =>
      obtain ⟨th', lo, hi', t, l, e', h1, h2, h3, h4, hl, ht, -⟩ := thetaIndex_some hidx
      rw [List.getElem?_map, Option.map_eq_some_iff] at hl
      obtain ⟨x, hx, rfl⟩ := hl
      have hxt : x.ptmp = some t := ht
      rw [hidx] at h
      simp only [hx, hxt] at h
      split at h
      · rename_i k hk
        split_ifs at h with hki
        obtain ⟨-, -, l, tk, hlk, -⟩ := kIndex_mem (prof := prof.map Cell.toLevel) (i := i) (t := t) (th := th) (k := k) (by rw [hk]; simp) hki
        rw [List.getElem?_map, Option.map_eq_some_iff] at hlk
        obtain ⟨y, hy, -⟩ := hlk
        rw [hy] at h
        simp only at h
        split at h <;> simp at h
      · simpa using h.symm

theorem drawn_error {theta : Option K} {prof : List (Cell K)} {e : PyErr} (h : drawn theta prof = .error e) : e = .valueError := by
  unfold drawn at h
  cases h1 : onLevel theta prof Cell.sal Cell.sal with
  | error e1 => rw [h1] at h; simp only [bind, Except.bind, Except.error.injEq] at h; rw [← h]; exact onLevel_error h1
  | ok a =>
  cases h2 : onLevel theta prof Cell.mapSal Cell.mapSal with
  | error e1 => rw [h1, h2] at h; simp only [bind, Except.bind, Except.error.injEq] at h; rw [← h]; exact onLevel_error h2
  | ok b =>
  cases h3 : onLevel theta prof Cell.mapSal Cell.mapErr with
  | error e1 => rw [h1, h2, h3] at h; simp only [bind, Except.bind, Except.error.injEq] at h; rw [← h]; exact onLevel_error h3
  | ok c =>
  cases h4 : onLevel theta prof Cell.calSal Cell.calSal with
  | error e1 => rw [h1, h2, h3, h4] at h; simp only [bind, Except.bind, Except.error.injEq] at h; rw [← h]; exact onLevel_error h4
  | ok d =>
  cases h5 : onLevel theta prof Cell.calSal Cell.calErr with
  | error e1 => rw [h1, h2, h3, h4, h5] at h; simp only [bind, Except.bind, Except.error.injEq] at h; rw [← h]; exact onLevel_error h5
  | ok e' =>
    rw [h1, h2, h3, h4, h5] at h
    simp [bind, Except.bind, pure, Except.pure] at h

/-- C109. Once `find_10thetas` returns and at most ten theta levels are asked for, `sal_var_plot` stops with an `IndexError` exactly if a cell is outside the
limits (other than an upper limit of temperature alone) in a profile whose position is not less than the number of levels. -/
theorem sal_var_index_error (rows levels : ℕ) (B : Thetas.Bounds K) (percent : K) (data : List (List (Cell K)))
    (hrows : ∀ prof ∈ data, prof.length = rows) (hlev : levels ≤ 10) (T : Thetas.Thetas K)
    (hT : Thetas.find10thetas B percent (data.map fun prof => prof.map measuredLevel) = .ok T) :
    salVarPlot rows levels B percent data = (0, some .indexError) ↔
      ∃ r c, rows ≤ c ∧ ((B.thetaGt ≠ none ∧ ThetaBad B data r c) ∨ PresBad B data r c) := by
  replace hT : Thetas.find10thetas B percent (data.map fun prof => prof.map Cell.toLevel) = .ok T := hT
  have hiff : (∃ r c, rows ≤ c ∧ ((B.thetaGt ≠ none ∧ ThetaBad B data r c) ∨ PresBad B data r c)) ↔ maskAll rows B data = .error .indexError := by
    rw [maskAll_error hrows]
    constructor
    · rintro ⟨r, c, hc, ⟨hg, hb⟩ | hb⟩
      · exact ⟨rfl, Or.inl ⟨hg, r, c, hc, hb⟩⟩
      · exact ⟨rfl, Or.inr ⟨r, c, hc, hb⟩⟩
    · rintro ⟨-, ⟨hg, r, c, hc, hb⟩ | ⟨r, c, hc, hb⟩⟩
      · exact ⟨r, c, hc, Or.inl ⟨hg, hb⟩⟩
      · exact ⟨r, c, hc, Or.inr hb⟩
  rw [hiff]
  have hplot : salVarPlot rows levels B percent data = (0, some .indexError) ↔ salVarData rows levels B percent data = .error .indexError := by
    unfold salVarPlot
    cases salVarData rows levels B percent data with
    | error e => simp
    | ok m => simp only [reduceCtorEq, iff_false]; split_ifs <;> simp
  rw [hplot]
  unfold salVarData
  rw [hT]
  cases hm : maskAll rows B data with
  | error e => simp [bind, Except.bind]
  | ok d =>
    simp only [bind, Except.bind]
    rw [if_neg (by omega)]
    simp only [reduceCtorEq, iff_false]
    intro h
    obtain ⟨i, -, hi⟩ := mapM_error h
    obtain ⟨prof, -, hp⟩ := mapM_error hi
    have := drawn_error hp
    simp at this

/-- C109. With a lower limit of pressure, no limits of temperature, at least as many profiles as levels, and in every profile a mapped level above the limit
depth, `sal_var_plot` never completes: at most one figure is saved. -/
theorem sal_var_never_completes (rows levels : ℕ) (B : Thetas.Bounds K) (percent : K) (data : List (List (Cell K)))
    (hrows : ∀ prof ∈ data, prof.length = rows) (hlev : levels ≠ 0) (g : K) (hB : B = ⟨none, none, none, some g⟩) (hmany : rows ≤ data.length)
    (hshallow : ∀ prof ∈ data, ∃ x ∈ prof, ∃ p, x.mapPtmp ≠ none ∧ x.pres = some p ∧ p < g) :
    ∃ n e, salVarPlot rows levels B percent data = (n, some e) ∧ n ≤ 1 := by
  have hbad : ∀ c < data.length, ∃ r, PresBad B data r c := by
    intro c hc
    obtain ⟨x, hx, p, hm, hp, hlt⟩ := hshallow data[c] (List.getElem_mem hc)
    obtain ⟨r, hr⟩ := List.getElem?_of_mem hx
    have hcell : cellAt data r c = some x := by unfold cellAt; rw [List.getElem?_eq_getElem hc]; exact hr
    refine ⟨r, ⟨⟨x, hcell, hm⟩, ?_⟩, x, p, hcell, hp, ?_⟩
    · rw [hB, if_pos rfl]
      rintro ⟨y, t, -, -, -, hna⟩
      exact hna trivial
    · rw [hB]
      exact not_le.2 hlt
  unfold salVarPlot
  cases hr : salVarData rows levels B percent data with
  | error e => exact ⟨0, e, rfl, by omega⟩
  | ok m =>
    simp only [if_neg hlev]
    obtain ⟨T, hT, hl, hml, hv⟩ := sal_var_values rows levels B percent data m hr
    have hall : (m.all fun row => row.all fun v => v.sal.isNone) = true := by
      rw [List.all_eq_true]
      intro row hrow
      obtain ⟨i, hi⟩ := List.getElem?_of_mem hrow
      have hil : i < levels := by rw [← hml]; exact (List.getElem?_eq_some_iff.1 hi).1
      obtain ⟨row', hrow', hlen, hvr⟩ := hv i hil
      rw [hi] at hrow'
      obtain rfl := Option.some.inj hrow'
      rw [List.all_eq_true]
      intro v hvm
      obtain ⟨j, hj⟩ := List.getElem?_of_mem hvm
      have hjl : j < data.length := by rw [← hlen]; exact (List.getElem?_eq_some_iff.1 hj).1
      obtain ⟨v', hv', h1, h2⟩ := hvr j data[j] (List.getElem?_eq_getElem hjl)
      rw [hj] at hv'
      obtain rfl := Option.some.inj hv'
      rw [Option.isNone_iff_eq_none]
      cases hth : T.tLevels[i]? with
      | none => rw [h2 (by rw [hth]; rfl)]
      | some o =>
        cases o with
        | none => rw [h2 (by rw [hth]; rfl)]
        | some th =>
          refine (h1 th hth).1.1 ?_
          rintro ⟨⟨r, x, t, hx, hk, -⟩, -⟩
          have hrl : r < rows := by
            rw [← hrows data[j] (List.getElem_mem hjl)]
            exact (List.getElem?_eq_some_iff.1 hx).1
          obtain ⟨s, hs⟩ := hbad r (by omega)
          exact (sal_var_drops_rows B data s r (Or.inr hs) j).2 hk
    rw [if_pos hall]
    exact ⟨1, _, rfl, le_refl _⟩

/-! ## Concrete data -/

/-- A level at pressure `p` and temperature `t`. -/
def svCell (p t s : ℚ) : Cell ℚ := ⟨some p, some s, some t, some t, some (s + 1), some (1 / 10), some (s + 2), some (1 / 5)⟩

/-- Three levels. -/
def svProfile : List (Cell ℚ) := [svCell 0 10 34, svCell 500 5 35, svCell 1000 0 36]

/-- Two profiles of three levels; the second begins deeper. -/
def svData : List (List (Cell ℚ)) := [svProfile, [svCell 100 10 34, svCell 500 5 35, svCell 1000 0 36]]

/-- Without limits two theta levels of two profiles are drawn. -/
example : (salVarPlot 3 2 (⟨none, none, none, none⟩ : Thetas.Bounds ℚ) (1 / 2) svData) = (2, none) := by decide +kernel

/-- An upper limit of temperature. -/
example : (match salVarData 3 2 (⟨some 9, none, none, none⟩ : Thetas.Bounds ℚ) (1 / 2) svData with
    | .ok m => decide (m.length = 2 ∧ ∃ row ∈ m, ∃ v ∈ row, v.sal ≠ none)
    | .error _ => false) = true := by decide +kernel

/-- One cell above 50 dbar in the first profile (row 0, profile 0) drops row 0 of the second profile too, which is within the limits. -/
example : PresBad (⟨none, none, none, some 50⟩ : Thetas.Bounds ℚ) svData 0 0 ∧ WithinLimits (⟨none, none, none, some 50⟩ : Thetas.Bounds ℚ) (svCell 100 10 34) := by
  refine ⟨⟨⟨⟨svCell 0 10 34, rfl, by simp [svCell]⟩, ?_⟩, svCell 0 10 34, 0, rfl, rfl, ?_⟩, by simp [svCell], fun t _ => trivial, fun p hp => ?_⟩
  · rw [if_pos rfl]
    rintro ⟨y, t, -, -, -, hna⟩
    exact hna trivial
  · exact not_le.2 (by norm_num)
  · obtain rfl := Option.some.inj hp
    exact (by norm_num : (50 : ℚ) ≤ 100)

/-- Three levels and three profiles with a lower limit of pressure: one figure without data is saved. -/
example : (salVarPlot 3 2 (⟨none, none, none, some 50⟩ : Thetas.Bounds ℚ) (1 / 2) [svProfile, svProfile, svProfile]) = (1, some .valueError) := by decide +kernel

/-- Three levels and four profiles: an exception. -/
example : (salVarPlot 3 2 (⟨none, none, none, some 50⟩ : Thetas.Bounds ℚ) (1 / 2) [svProfile, svProfile, svProfile, svProfile]) = (0, some .indexError) := by
  decide +kernel

end Verif.Props
