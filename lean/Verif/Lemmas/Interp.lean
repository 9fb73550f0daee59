import Verif.Model.Interp
import Verif.Spec.Interp
import Verif.Lemmas.Np
import Mathlib.Tactic.LinearCombination
import Mathlib.Tactic.FieldSimp

/-!
# Lemmas about the model of `interp_climatology`
-/

set_option linter.unusedSectionVars false

namespace Verif.Interp

open Verif.Np Verif.Spec

variable {K : Type} [Field K] [LinearOrder K] [IsStrictOrderedRing K]

/-- The levels of station `c`. -/
def levelsOf (sal theta pres : Grid K) (c : ℕ) : List (Level K) :=
  levels (fun r => sal.at_ r c) (fun r => theta.at_ r c) (fun r => pres.at_ r c) sal.rows

/-- A compacted array: the levels from the top, then NaN. -/
def gridOf (L : ℕ → List (Level K)) (rows cols : ℕ) (sel : Level K → K) : Grid K :=
  ⟨rows, cols, fun r c => ((L c)[r]?).map sel⟩

theorem filterMap_getElem? {α β : Type} (f : α → Option β) (l : List α) (r : ℕ) :
    (l.filterMap f)[r]? = ((l.filter fun a => (f a).isSome)[r]?).bind f := by
  induction l generalizing r with
  | nil => simp
  | cons a l ih =>
    cases h : f a with
    | none => simp [List.filterMap_cons, h, ih]
    | some b =>
      cases r with
      | zero => simp [List.filterMap_cons, h]
      | succ r => simp [List.filterMap_cons, h, ih]

theorem filterMap_length {α β : Type} (f : α → Option β) (l : List α) : (l.filterMap f).length = (l.filter fun a => (f a).isSome).length := by
  induction l with
  | nil => rfl
  | cons a l ih => cases h : f a <;> simp [List.filterMap_cons, h, ih]

theorem goodRows_eq (sal theta pres : Grid K) (c : ℕ) :
    goodRows sal theta pres c = (List.range sal.rows).filter fun r =>
      (match sal.at_ r c, theta.at_ r c, pres.at_ r c with
        | some s, some t, some p => some (⟨s, t, p⟩ : Level K)
        | _, _, _ => none).isSome := by
  unfold goodRows
  congr 1
  funext r
  unfold finite
  cases sal.at_ r c <;> cases theta.at_ r c <;> cases pres.at_ r c <;> rfl

theorem levels_length (sal theta pres : Grid K) (c : ℕ) :
    (levelsOf sal theta pres c).length = (goodRows sal theta pres c).length := by
  rw [goodRows_eq]
  exact filterMap_length _ _

theorem compact_eq (sal theta pres : Grid K) (M : ℕ) :
    compact (goodRows sal theta pres) M sal = gridOf (levelsOf sal theta pres) M sal.cols Level.sal ∧
    compact (goodRows sal theta pres) M theta = gridOf (levelsOf sal theta pres) M theta.cols Level.theta ∧
    compact (goodRows sal theta pres) M pres = gridOf (levelsOf sal theta pres) M pres.cols Level.pres := by
  have hmem : ∀ r c r' : ℕ, (goodRows sal theta pres c)[r]? = some r' → ∃ s t p, sal.at_ r' c = some s ∧ theta.at_ r' c = some t ∧ pres.at_ r' c = some p := by
    intro r c r' h
    have := List.mem_of_getElem? h
    unfold goodRows at this
    simp only [List.mem_filter, finite, Bool.and_eq_true, Option.isSome_iff_exists] at this
    obtain ⟨_, ⟨⟨s, hs⟩, t, ht⟩, p, hp⟩ := this
    exact ⟨s, t, p, hs, ht, hp⟩
  have hlev : ∀ r c : ℕ, (levelsOf sal theta pres c)[r]? = ((goodRows sal theta pres c)[r]?).bind fun r =>
      match sal.at_ r c, theta.at_ r c, pres.at_ r c with
        | some s, some t, some p => some (⟨s, t, p⟩ : Level K)
        | _, _, _ => none := by
    intro r c
    rw [goodRows_eq]
    unfold levelsOf levels
    exact filterMap_getElem? _ _ _
  refine ⟨?_, ?_, ?_⟩
  all_goals
    unfold compact gridOf
    congr 1
    funext r c
    rw [hlev]
    cases h : (goodRows sal theta pres c)[r]? with
    | none => rfl
    | some r' =>
      obtain ⟨s, t, p, hs, ht, hp⟩ := hmem r c r' h
      simp [hs, ht, hp]

/-! ## One station -/

section

variable (L : ℕ → List (Level K)) (M cols : ℕ) (hM : ∀ c < cols, (L c).length ≤ M)

theorem interpolate_gridOf (sel : Level K → K) (v : K) (r c : ℕ) :
    interpolate (weight (gridOf L M cols Level.theta) v r c) (gridOf L M cols sel) r c =
      match (L c)[r]?, (L c)[r + 1]? with
      | some a, some b => if b.theta - a.theta = 0 then none else some (sel a + (v - a.theta) / (b.theta - a.theta) * (sel b - sel a))
      | _, _ => none := by
  unfold interpolate weight diff gridOf
  simp only
  cases h1 : (L c)[r]? with
  | none => simp
  | some a =>
    cases h2 : (L c)[r + 1]? with
    | none => simp
    | some b =>
      simp only [Option.map_some]
      by_cases h : b.theta - a.theta = 0
      · simp [h]
      · simp [h]

theorem signChange_gridOf (v : K) (r c : ℕ) :
    signChange (gridOf L M cols Level.theta) v r c = true ↔ ∃ a b, (L c)[r]? = some a ∧ (L c)[r + 1]? = some b ∧
      (b.theta - v) * (a.theta - v) ≤ 0 := by
  unfold signChange gridOf
  simp only
  cases h1 : (L c)[r]? with
  | none => cases h2 : (L c)[r + 1]? <;> simp
  | some a =>
    cases h2 : (L c)[r + 1]? with
    | none => simp
    | some b => simp

/-- At a sign change with equal temperatures the numerator of the weight is zero too. -/
theorem weight_zero_div (v : K) (r c : ℕ) (h : signChange (gridOf L M cols Level.theta) v r c = true) (a : Level K) (ha : (L c)[r]? = some a)
    (hd : (diff (gridOf L M cols Level.theta)).at_ r c = some 0) : v - a.theta = 0 := by
  obtain ⟨a', b, h1, h2, h3⟩ := (signChange_gridOf L M cols v r c).1 h
  rw [ha] at h1
  obtain rfl := Option.some.inj h1
  simp only [diff, gridOf, ha, h2, Option.map_some, Option.some.injEq] at hd
  have : b.theta = a.theta := by linarith
  rw [this] at h3
  nlinarith [sq_nonneg (a.theta - v), mul_self_eq_zero.1 (le_antisymm h3 (mul_self_nonneg (a.theta - v)))]

/-- The model's elements at a sign change are the crossings. -/
theorem crossing_iff (v : K) (r c : ℕ) (w s p : K) :
    Crossing (L c) v r w s p ↔ signChange (gridOf L M cols Level.theta) v r c = true ∧
      weight (gridOf L M cols Level.theta) v r c = some w ∧
      interpolate (weight (gridOf L M cols Level.theta) v r c) (gridOf L M cols Level.sal) r c = some s ∧
      interpolate (weight (gridOf L M cols Level.theta) v r c) (gridOf L M cols Level.pres) r c = some p := by
  rw [signChange_gridOf, interpolate_gridOf, interpolate_gridOf]
  unfold Crossing
  constructor
  · rintro ⟨a, b, ha, hb, hne, h0, h1, hv, hs, hp⟩
    have hd : b.theta - a.theta ≠ 0 := fun h => hne (by linarith)
    have hw : (v - a.theta) / (b.theta - a.theta) = w := by rw [div_eq_iff hd]; linarith
    refine ⟨⟨a, b, ha, hb, ?_⟩, ?_, ?_, ?_⟩
    · have e1 : b.theta - v = (1 - w) * (b.theta - a.theta) := by rw [hv]; ring
      have e2 : a.theta - v = -w * (b.theta - a.theta) := by rw [hv]; ring
      rw [e1, e2]
      nlinarith [mul_nonneg (mul_nonneg h0 (sub_nonneg.2 h1)) (sq_nonneg (b.theta - a.theta))]
    · simp [weight, diff, gridOf, ha, hb, hd, hw]
    · simp only [ha, hb]; rw [if_neg hd, hw, hs]
    · simp only [ha, hb]; rw [if_neg hd, hw, hp]
  · rintro ⟨⟨a, b, ha, hb, hsg⟩, hw, hs, hp⟩
    simp only [ha, hb] at hs hp
    by_cases hd : b.theta - a.theta = 0
    · rw [if_pos hd] at hs; simp at hs
    rw [if_neg hd] at hs hp
    simp [weight, diff, gridOf, ha, hb, hd] at hw
    rw [hw] at hs hp
    have hv : v = a.theta + w * (b.theta - a.theta) := by
      rw [← hw]; field_simp; ring
    refine ⟨a, b, ha, hb, fun h => hd (by rw [h]; ring), ?_, ?_, hv, ?_, ?_⟩
    · by_contra hneg
      push Not at hneg
      have e1 : b.theta - v = (1 - w) * (b.theta - a.theta) := by rw [hv]; ring
      have e2 : a.theta - v = -w * (b.theta - a.theta) := by rw [hv]; ring
      rw [e1, e2] at hsg
      have hp : 0 < (b.theta - a.theta) ^ 2 := by positivity
      have : 0 < (1 - w) * (-w) * (b.theta - a.theta) ^ 2 := mul_pos (mul_pos (by linarith) (by linarith)) hp
      nlinarith
    · by_contra hneg
      push Not at hneg
      have e1 : b.theta - v = (1 - w) * (b.theta - a.theta) := by rw [hv]; ring
      have e2 : a.theta - v = -w * (b.theta - a.theta) := by rw [hv]; ring
      rw [e1, e2] at hsg
      have hp : 0 < (b.theta - a.theta) ^ 2 := by positivity
      have : 0 < (w - 1) * w * (b.theta - a.theta) ^ 2 := mul_pos (mul_pos (by linarith) (by linarith)) hp
      nlinarith
    · have := Option.some.inj hs; linarith
    · have := Option.some.inj hp; linarith

/-- A sign change that is not a crossing and no crossing at all: all levels have the same temperature. -/
theorem flat_iff (l : List (Level K)) (v : K) :
    ((∃ (r : ℕ) (a b : Level K), l[r]? = some a ∧ l[r + 1]? = some b ∧ (b.theta - v) * (a.theta - v) ≤ 0) ∧ ¬ ∃ r w s p, Crossing l v r w s p) ↔
      2 ≤ l.length ∧ ∀ a ∈ l, a.theta = v := by
  constructor
  · rintro ⟨⟨r, a, b, ha, hb, hs⟩, hno⟩
    have hr : r + 1 < l.length := (List.getElem?_eq_some_iff.1 hb).1
    have cr : ∀ (k : ℕ) (a b : Level K), l[k]? = some a → l[k + 1]? = some b → a.theta ≠ b.theta → (b.theta - v) * (a.theta - v) ≤ 0 → False := by
      intro k a b ha hb hne hs
      refine hno ⟨k, (v - a.theta) / (b.theta - a.theta), a.sal + (v - a.theta) / (b.theta - a.theta) * (b.sal - a.sal),
        a.pres + (v - a.theta) / (b.theta - a.theta) * (b.pres - a.pres), (crossing_iff (fun _ => l) 0 0 v k 0 _ _ _).2 ⟨?_, ?_, ?_, ?_⟩⟩
      · exact (signChange_gridOf (fun _ => l) 0 0 v k 0).2 ⟨a, b, ha, hb, hs⟩
      · have : b.theta - a.theta ≠ 0 := fun h => hne (by linarith)
        simp [weight, diff, gridOf, ha, hb, this]
      · rw [interpolate_gridOf]
        simp only [ha, hb]
        rw [if_neg (fun h => hne (by linarith))]
      · rw [interpolate_gridOf]
        simp only [ha, hb]
        rw [if_neg (fun h => hne (by linarith))]
    have hab : a.theta = b.theta := by
      by_contra hne
      exact cr r a b ha hb hne hs
    have hav : a.theta = v := by
      rw [hab] at hs ⊢
      have := mul_self_eq_zero.1 (le_antisymm hs (mul_self_nonneg (b.theta - v)))
      linarith
    have step : ∀ (k : ℕ) (c d : Level K), l[k]? = some c → l[k + 1]? = some d → (c.theta = v ↔ d.theta = v) := by
      intro k c d hc hd
      constructor
      · intro h
        by_contra hne
        exact cr k c d hc hd (by rw [h]; exact fun h' => hne h'.symm) (by rw [h]; simp)
      · intro h
        by_contra hne
        exact cr k c d hc hd (by rw [h]; exact hne) (by rw [h]; simp)
    refine ⟨by omega, ?_⟩
    have up : ∀ (k : ℕ) (h : k < l.length), (l[k].theta = v ↔ (l[0]'(by omega)).theta = v) := by
      intro k
      induction k with
      | zero => intro h; rfl
      | succ k ih =>
        intro h
        rw [← ih (by omega)]
        exact (step k _ _ (List.getElem?_eq_getElem (by omega)) (List.getElem?_eq_getElem h)).symm
    have h0 : (l[0]'(by omega)).theta = v := by
      rw [← up r (by omega)]
      have := List.getElem?_eq_getElem (show r < l.length by omega)
      rw [this] at ha
      rw [Option.some.inj ha]; exact hav
    intro c hc
    obtain ⟨k, hk, rfl⟩ := List.mem_iff_getElem.1 hc
    exact (up k hk).2 h0
  · rintro ⟨h2, hall⟩
    refine ⟨⟨0, l[0], l[1], List.getElem?_eq_getElem (by omega), List.getElem?_eq_getElem (by omega), ?_⟩, ?_⟩
    · rw [hall _ (List.getElem_mem _), hall _ (List.getElem_mem _)]; simp
    · rintro ⟨r, w, s, p, a, b, ha, hb, hne, _⟩
      exact hne (by rw [hall a (List.mem_of_getElem? ha), hall b (List.mem_of_getElem? hb)])

/-- What the result for a float level and a station has to be. -/
def Cell (l : List (Level K)) (v fp : K) (s p : Option K) : Prop :=
  (∃ k w s' p', Nearest l v fp k w s' p' ∧ s = some s' ∧ p = some p') ∨ ((¬ ∃ k w s' p', Crossing l v k w s' p') ∧ s = none ∧ p = none)

include hM in
theorem changes_iff (v : K) (r c : ℕ) (hc : c < cols) :
    changes (gridOf L M cols Level.theta) v r c = true ↔ signChange (gridOf L M cols Level.theta) v r c = true := by
  unfold changes
  simp only [Bool.and_eq_true, decide_eq_true_eq]
  refine ⟨fun h => h.2, fun h => ⟨⟨?_, hc⟩, h⟩⟩
  obtain ⟨a, b, _, hb, _⟩ := (signChange_gridOf L M cols v r c).1 h
  have := (List.getElem?_eq_some_iff.1 hb).1
  have := hM c hc
  show r < M - 1
  omega

theorem put_put_none (hold : ℕ → ℕ → Option K) (ch : ℕ → ℕ → Bool) (f : ℕ → ℕ → Option K) (h : hold = blank) :
    put (put hold ch f) ch (fun _ _ => none) = blank := by
  subst h
  funext r c
  unfold put blank
  split_ifs <;> rfl

theorem mapM_picks {ε : Type} (g : ℕ → Option ℕ) (e : ε) (l : List ℕ) :
    (l.mapM fun c => (match g c with | some r => .ok (c, r) | none => .error e : Except ε (ℕ × ℕ))) =
      if ∃ c ∈ l, g c = none then .error e else .ok (l.filterMap fun c => (g c).map fun r => (c, r)) := by
  induction l with
  | nil => simp; rfl
  | cons a l ih =>
    rw [List.mapM_cons, ih]
    cases h : g a with
    | none =>
      rw [if_pos (⟨a, List.mem_cons_self, h⟩ : ∃ c ∈ a :: l, g c = none)]; rfl
    | some r =>
      by_cases hex : ∃ c ∈ l, g c = none
      · rw [if_pos hex, if_pos (by obtain ⟨c, hc, hg⟩ := hex; exact ⟨c, List.mem_cons_of_mem _ hc, hg⟩)]; rfl
      · rw [if_neg hex, if_neg]
        · simp [List.filterMap_cons, h]; rfl
        · rintro ⟨c, hc, hg⟩
          rcases List.mem_cons.1 hc with rfl | hc
          · rw [h] at hg; simp at hg
          · exact hex ⟨c, hc, hg⟩

theorem find_picks (g : ℕ → Option ℕ) (l : List ℕ) (c : ℕ) :
    (l.filterMap fun c => (g c).map fun r => (c, r)).find? (fun q => q.1 == c) =
      if c ∈ l then (g c).map fun r => (c, r) else none := by
  induction l with
  | nil => rfl
  | cons a l ih =>
    rw [List.filterMap_cons]
    by_cases hac : a = c
    · subst hac
      rw [if_pos List.mem_cons_self]
      cases h : g a with
      | none =>
        simp only [Option.map_none]
        rw [ih, h]
        split_ifs <;> rfl
      | some r => simp
    · have hm : c ∈ a :: l ↔ c ∈ l := by simp [Ne.symm hac]
      simp only [hm]
      cases h : g a with
      | none => simpa using ih
      | some r => simp [hac, ih]

theorem mem_stations (v : K) (c : ℕ) : c ∈ stations (gridOf L M cols Level.theta) v ↔ c < cols ∧
    ∃ r, changes (gridOf L M cols Level.theta) v r c = true := by
  unfold stations
  rw [List.mem_filter, List.mem_range, List.any_eq_true]
  refine and_congr Iff.rfl ⟨fun ⟨r, _, h⟩ => ⟨r, h⟩, fun ⟨r, h⟩ => ⟨r, ?_, h⟩⟩
  unfold changes at h
  simp only [Bool.and_eq_true, decide_eq_true_eq] at h
  exact List.mem_range.2 h.1.1

include hM in
/-- The elements of `output_placeholder` with the interpolated pressures. -/
theorem held_iff (v : K) (c : ℕ) (hc : c < cols) (sel : Level K → K) (r : ℕ) :
    put blank (changes (gridOf L M cols Level.theta) v)
      (fun r c => interpolate (weight (gridOf L M cols Level.theta) v r c) (gridOf L M cols sel) r c) r c =
    if signChange (gridOf L M cols Level.theta) v r c = true then
      interpolate (weight (gridOf L M cols Level.theta) v r c) (gridOf L M cols sel) r c else none := by
  unfold put
  by_cases h : signChange (gridOf L M cols Level.theta) v r c = true
  · rw [if_pos ((changes_iff L M cols hM v r c hc).2 h), if_pos h]
  · rw [if_neg (fun h' => h ((changes_iff L M cols hM v r c hc).1 h')), if_neg h]; rfl

/-- The positions `nanargmin` picks. -/
def pick (v fp : K) (c : ℕ) : Option ℕ :=
  nanArgmin (column (M - 1) (put blank (changes (gridOf L M cols Level.theta) v)
    (fun r c => interpolate (weight (gridOf L M cols Level.theta) v r c) (gridOf L M cols Level.pres) r c)) fp c)

include hM in
theorem column_some (v fp : K) (c : ℕ) (hc : c < cols) (r : ℕ) (x : K) :
    (column (M - 1) (put blank (changes (gridOf L M cols Level.theta) v)
      (fun r c => interpolate (weight (gridOf L M cols Level.theta) v r c) (gridOf L M cols Level.pres) r c)) fp c)[r]? = some (some x) ↔
    ∃ w s p, Crossing (L c) v r w s p ∧ x = |p - fp| := by
  unfold column
  rw [List.getElem?_map]
  constructor
  · intro h
    obtain ⟨r', hr', h⟩ := Option.map_eq_some_iff.1 h
    obtain ⟨hlt, rfl⟩ := List.getElem?_eq_some_iff.1 hr'
    rw [List.getElem_range] at h
    rw [held_iff L M cols hM v c hc] at h
    by_cases hs : signChange (gridOf L M cols Level.theta) v r c = true
    · rw [if_pos hs] at h
      obtain ⟨p, hp, hx⟩ := Option.map_eq_some_iff.1 h
      have hp' := hp
      rw [interpolate_gridOf] at hp'
      obtain ⟨a, b, ha, hb, _⟩ := (signChange_gridOf L M cols v r c).1 hs
      simp only [ha, hb] at hp'
      by_cases hd : b.theta - a.theta = 0
      · rw [if_pos hd] at hp'; simp at hp'
      refine ⟨(v - a.theta) / (b.theta - a.theta), a.sal + (v - a.theta) / (b.theta - a.theta) * (b.sal - a.sal), p,
        (crossing_iff L M cols v r c _ _ _).2 ⟨hs, ?_, ?_, hp⟩, hx.symm⟩
      · simp [weight, diff, gridOf, ha, hb, hd]
      · rw [interpolate_gridOf]
        simp only [ha, hb]
        rw [if_neg hd]
    · rw [if_neg hs] at h; simp at h
  · rintro ⟨w, s, p, hcr, rfl⟩
    have hr : r + 1 < (L c).length := by
      obtain ⟨a, b, _, hb, _⟩ := hcr
      exact (List.getElem?_eq_some_iff.1 hb).1
    have := hM c hc
    obtain ⟨h1, h2, h3, h4⟩ := (crossing_iff L M cols v r c w s p).1 hcr
    rw [List.getElem?_range (by omega), Option.map_some, held_iff L M cols hM v c hc, if_pos h1, h4]
    rfl

/-- The state after a turn of the loop. -/
def stepOut (i : ℕ) (v fp : K) (s : State K) : State K where
  hold := blank
  sal := scatter s.sal (put blank (changes (gridOf L M cols Level.theta) v)
    (fun r c => interpolate (weight (gridOf L M cols Level.theta) v r c) (gridOf L M cols Level.sal) r c)) i
    ((stations (gridOf L M cols Level.theta) v).filterMap fun c => (pick L M cols v fp c).map fun r => (c, r))
  pres := scatter s.pres (put blank (changes (gridOf L M cols Level.theta) v)
    (fun r c => interpolate (weight (gridOf L M cols Level.theta) v r c) (gridOf L M cols Level.pres) r c)) i
    ((stations (gridOf L M cols Level.theta) v).filterMap fun c => (pick L M cols v fp c).map fun r => (c, r))

/-- One turn of the loop. -/
theorem step_eq (i : ℕ) (v fp : K) (s : State K) (hb : s.hold = blank) :
    step (gridOf L M cols Level.sal) (gridOf L M cols Level.theta) (gridOf L M cols Level.pres) i v fp s =
      if M - 1 = 0 ∨ ∃ c ∈ stations (gridOf L M cols Level.theta) v, pick L M cols v fp c = none then .error .valueError
      else .ok (stepOut L M cols i v fp s) := by
  unfold step
  simp only [hb]
  have hrows : (gridOf L M cols Level.theta).rows = M := rfl
  rw [hrows]
  by_cases h0 : M - 1 = 0
  · rw [if_pos h0, if_pos (Or.inl h0)]; rfl
  rw [if_neg h0]
  have hm := mapM_picks (ε := PyErr) (pick L M cols v fp) .valueError (stations (gridOf L M cols Level.theta) v)
  have hm' := hm
  unfold pick at hm'
  erw [hm']
  change (do let minPres ← (if ∃ c ∈ stations (gridOf L M cols Level.theta) v, pick L M cols v fp c = none then .error .valueError
    else .ok ((stations (gridOf L M cols Level.theta) v).filterMap fun c => (pick L M cols v fp c).map fun r => (c, r)) : Except PyErr _); _) = _
  by_cases hex : ∃ c ∈ stations (gridOf L M cols Level.theta) v, pick L M cols v fp c = none
  · rw [if_pos hex, if_pos (Or.inr hex)]; rfl
  · rw [if_neg hex, if_neg (by push Not; exact ⟨h0, by push Not at hex; exact hex⟩)]
    simp only [bind, Except.bind, pure, Except.pure]
    rw [put_put_none blank _ _ rfl, put_put_none blank _ _ rfl]
    rfl

include hM in
/-- The element a turn of the loop leaves for a station. -/
theorem step_cell (i : ℕ) (v fp : K) (s : State K) (c : ℕ) (hc : c < cols) (hs : s.sal i c = none) (hp : s.pres i c = none)
    (hok : ¬ ∃ c ∈ stations (gridOf L M cols Level.theta) v, pick L M cols v fp c = none) :
    Cell (L c) v fp
      (scatter s.sal (put blank (changes (gridOf L M cols Level.theta) v)
          (fun r c => interpolate (weight (gridOf L M cols Level.theta) v r c) (gridOf L M cols Level.sal) r c)) i
          ((stations (gridOf L M cols Level.theta) v).filterMap fun c => (pick L M cols v fp c).map fun r => (c, r)) i c)
      (scatter s.pres (put blank (changes (gridOf L M cols Level.theta) v)
          (fun r c => interpolate (weight (gridOf L M cols Level.theta) v r c) (gridOf L M cols Level.pres) r c)) i
          ((stations (gridOf L M cols Level.theta) v).filterMap fun c => (pick L M cols v fp c).map fun r => (c, r)) i c) := by
  unfold scatter
  simp only [if_true, find_picks]
  by_cases hst : c ∈ stations (gridOf L M cols Level.theta) v
  · rw [if_pos hst]
    cases hpk : pick L M cols v fp c with
    | none => exact absurd ⟨c, hst, hpk⟩ hok
    | some r =>
      obtain ⟨x, h1, h2, h3⟩ := nanArgmin_some hpk
      obtain ⟨w, s', p', hcr, rfl⟩ := (column_some L M cols hM v fp c hc r x).1 h1
      obtain ⟨g1, g2, g3, g4⟩ := (crossing_iff L M cols v r c w s' p').1 hcr
      refine Or.inl ⟨r, w, s', p', ⟨hcr, fun k' w' s'' p'' hcr' => ⟨?_, fun hlt => ?_⟩⟩, ?_, ?_⟩
      · exact h2 k' _ ((column_some L M cols hM v fp c hc k' _).2 ⟨w', s'', p'', hcr', rfl⟩)
      · exact h3 k' _ hlt ((column_some L M cols hM v fp c hc k' _).2 ⟨w', s'', p'', hcr', rfl⟩)
      · simp only [Option.map_some]
        rw [held_iff L M cols hM v c hc, if_pos g1, g3]
      · simp only [Option.map_some]
        rw [held_iff L M cols hM v c hc, if_pos g1, g4]
  · rw [if_neg hst]
    refine Or.inr ⟨?_, hs, hp⟩
    rintro ⟨k, w, s', p', hcr⟩
    have h1 := ((crossing_iff L M cols v k c w s' p').1 hcr).1
    exact hst ((mem_stations L M cols v c).2 ⟨hc, k, (changes_iff L M cols hM v k c hc).2 h1⟩)

include hM in
/-- When a turn of the loop fails. -/
theorem pick_none_iff (v fp : K) : (∃ c ∈ stations (gridOf L M cols Level.theta) v, pick L M cols v fp c = none) ↔
    ∃ c < cols, 2 ≤ (L c).length ∧ ∀ a ∈ L c, a.theta = v := by
  have key : ∀ c < cols, pick L M cols v fp c = none ↔ ¬ ∃ r w s p, Crossing (L c) v r w s p := by
    intro c hc
    constructor
    · rintro h ⟨r, w, s, p, hcr⟩
      have h1 := (column_some L M cols hM v fp c hc r _).2 ⟨w, s, p, hcr, rfl⟩
      have := nanArgmin_none h _ (List.mem_of_getElem? h1)
      simp at this
    · intro h
      cases hpk : pick L M cols v fp c with
      | none => rfl
      | some r =>
        obtain ⟨x, h1, _⟩ := nanArgmin_some hpk
        obtain ⟨w, s', p', hcr, _⟩ := (column_some L M cols hM v fp c hc r x).1 h1
        exact absurd ⟨r, w, s', p', hcr⟩ h
  constructor
  · rintro ⟨c, hst, hpk⟩
    obtain ⟨hc, r, hr⟩ := (mem_stations L M cols v c).1 hst
    refine ⟨c, hc, (flat_iff (L c) v).1 ⟨?_, (key c hc).1 hpk⟩⟩
    obtain ⟨a, b, ha, hb, h⟩ := (signChange_gridOf L M cols v r c).1 ((changes_iff L M cols hM v r c hc).1 hr)
    exact ⟨r, a, b, ha, hb, h⟩
  · rintro ⟨c, hc, h⟩
    obtain ⟨⟨r, a, b, ha, hb, hs⟩, hno⟩ := (flat_iff (L c) v).2 h
    exact ⟨c, (mem_stations L M cols v c).2 ⟨hc, r, (changes_iff L M cols hM v r c hc).2 ((signChange_gridOf L M cols v r c).2 ⟨a, b, ha, hb, hs⟩)⟩,
      (key c hc).2 hno⟩

theorem scatter_other (a hold : ℕ → ℕ → Option K) (i i' : ℕ) (h : i' ≠ i) (picks : List (ℕ × ℕ)) (c : ℕ) :
    scatter a hold i picks i' c = a i' c := by
  unfold scatter; rw [if_neg h]

/-- The result required for a float level and a station: missing if the float level is not good. -/
def FloatCell (l : List (Level K)) (f : FloatLevel K) (s p : Option K) : Prop :=
  match f.sal, f.theta, f.pres with
  | some _, some v, some fp => Cell l v fp s p
  | _, _, _ => s = none ∧ p = none

/-- A float level that makes the loop fail. -/
def Fails (f : FloatLevel K) : Prop :=
  ∃ x v fp, f.sal = some x ∧ f.theta = some v ∧ f.pres = some fp ∧
    (M - 1 = 0 ∨ ∃ c < cols, 2 ≤ (L c).length ∧ ∀ a ∈ L c, a.theta = v)

include hM in
theorem loop_spec (float : List (FloatLevel K)) (i : ℕ) (s : State K) (hb : s.hold = blank) :
    ((∃ f ∈ float, Fails L M cols f) →
      loop (gridOf L M cols Level.sal) (gridOf L M cols Level.theta) (gridOf L M cols Level.pres) i float s = .error .valueError) ∧
    ((¬ ∃ f ∈ float, Fails L M cols f) → ∃ s',
      loop (gridOf L M cols Level.sal) (gridOf L M cols Level.theta) (gridOf L M cols Level.pres) i float s = .ok s' ∧
      (∀ j < i, s'.sal j = s.sal j ∧ s'.pres j = s.pres j) ∧
      ((∀ j, i ≤ j → ∀ c, s.sal j c = none ∧ s.pres j c = none) → ∀ j f, float[j]? = some f → ∀ c < cols,
        FloatCell (L c) f (s'.sal (i + j) c) (s'.pres (i + j) c))) := by
  induction float generalizing i s with
  | nil => exact ⟨by simp, fun _ => ⟨s, rfl, fun j _ => ⟨rfl, rfl⟩, by simp⟩⟩
  | cons f rest ih =>
    have skip : (∀ x v fp, ¬ (f.sal = some x ∧ f.theta = some v ∧ f.pres = some fp)) →
        loop (gridOf L M cols Level.sal) (gridOf L M cols Level.theta) (gridOf L M cols Level.pres) i (f :: rest) s =
        loop (gridOf L M cols Level.sal) (gridOf L M cols Level.theta) (gridOf L M cols Level.pres) (i + 1) rest s := by
      intro h
      conv_lhs => unfold loop
      split
      · rename_i x v fp h1 h2 h3
        exact absurd ⟨h1, h2, h3⟩ (h x v fp)
      · rfl
    by_cases hgood : ∃ x v fp, f.sal = some x ∧ f.theta = some v ∧ f.pres = some fp
    · obtain ⟨x, v, fp, h1, h2, h3⟩ := hgood
      have hl : loop (gridOf L M cols Level.sal) (gridOf L M cols Level.theta) (gridOf L M cols Level.pres) i (f :: rest) s =
          (do let s' ← step (gridOf L M cols Level.sal) (gridOf L M cols Level.theta) (gridOf L M cols Level.pres) i v fp s
              loop (gridOf L M cols Level.sal) (gridOf L M cols Level.theta) (gridOf L M cols Level.pres) (i + 1) rest s') := by
        conv_lhs => unfold loop
        simp only [h1, h2, h3]
      rw [hl, step_eq L M cols i v fp s hb]
      have hF : Fails L M cols f ↔ M - 1 = 0 ∨ ∃ c ∈ stations (gridOf L M cols Level.theta) v, pick L M cols v fp c = none := by
        rw [pick_none_iff L M cols hM]
        constructor
        · rintro ⟨x', v', fp', g1, g2, g3, h⟩
          rw [h2] at g2
          obtain rfl := Option.some.inj g2
          exact h
        · intro h; exact ⟨x, v, fp, h1, h2, h3, h⟩
      by_cases hfail : M - 1 = 0 ∨ ∃ c ∈ stations (gridOf L M cols Level.theta) v, pick L M cols v fp c = none
      · rw [if_pos hfail]
        exact ⟨fun _ => rfl, fun h => absurd ⟨f, List.mem_cons_self, hF.2 hfail⟩ h⟩
      · rw [if_neg hfail]
        simp only [bind, Except.bind]
        obtain ⟨s1, hs1⟩ : ∃ s1, s1 = stepOut L M cols i v fp s := ⟨_, rfl⟩
        rw [← hs1]
        obtain ⟨ih1, ih2⟩ := ih (i + 1) s1 (by rw [hs1]; rfl)
        refine ⟨?_, ?_⟩
        · rintro ⟨f', hf', hfl⟩
          rcases List.mem_cons.1 hf' with rfl | hf'
          · exact absurd (hF.1 hfl) hfail
          · exact ih1 ⟨f', hf', hfl⟩
        · intro hno
          obtain ⟨s', g1, g2, g3⟩ := ih2 (fun ⟨f', hf', hfl⟩ => hno ⟨f', List.mem_cons_of_mem _ hf', hfl⟩)
          refine ⟨s', g1, ?_, ?_⟩
          · intro j hj
            obtain ⟨e1, e2⟩ := g2 j (by omega)
            refine ⟨e1.trans ?_, e2.trans ?_⟩
            · funext c; rw [hs1]; exact scatter_other _ _ _ _ (by omega) _ _
            · funext c; rw [hs1]; exact scatter_other _ _ _ _ (by omega) _ _
          · intro hbl j f' hj c hc
            cases j with
            | zero =>
              simp only [List.getElem?_cons_zero, Option.some.injEq] at hj
              subst hj
              obtain ⟨e1, e2⟩ := g2 i (by omega)
              rw [Nat.add_zero, e1, e2, hs1]
              unfold FloatCell
              simp only [h1, h2, h3]
              exact step_cell L M cols hM i v fp s c hc (hbl i le_rfl c).1 (hbl i le_rfl c).2 (fun h => hfail (Or.inr h))
            | succ j =>
              rw [List.getElem?_cons_succ] at hj
              have := g3 (fun j' hj' c' => by
                rw [hs1]
                simp only [stepOut]
                rw [scatter_other _ _ _ _ (by omega), scatter_other _ _ _ _ (by omega)]
                exact hbl j' (by omega) c') j f' hj c hc
              rw [show i + (j + 1) = i + 1 + j by omega]
              exact this
    · push Not at hgood
      have hg : ∀ x v fp, ¬ (f.sal = some x ∧ f.theta = some v ∧ f.pres = some fp) := fun x v fp ⟨a, b, c⟩ => hgood x v fp a b c
      rw [skip hg]
      obtain ⟨ih1, ih2⟩ := ih (i + 1) s hb
      have hF : ¬ Fails L M cols f := fun ⟨x, v, fp, g1, g2, g3, _⟩ => hg x v fp ⟨g1, g2, g3⟩
      refine ⟨?_, ?_⟩
      · rintro ⟨f', hf', hfl⟩
        rcases List.mem_cons.1 hf' with rfl | hf'
        · exact absurd hfl hF
        · exact ih1 ⟨f', hf', hfl⟩
      · intro hno
        obtain ⟨s', g1, g2, g3⟩ := ih2 (fun ⟨f', hf', hfl⟩ => hno ⟨f', List.mem_cons_of_mem _ hf', hfl⟩)
        refine ⟨s', g1, fun j hj => g2 j (by omega), ?_⟩
        intro hbl j f' hj c hc
        cases j with
        | zero =>
          simp only [List.getElem?_cons_zero, Option.some.injEq] at hj
          subst hj
          obtain ⟨e1, e2⟩ := g2 i (by omega)
          rw [Nat.add_zero, e1, e2]
          unfold FloatCell
          split
          · rename_i x v fp a b c
            exact absurd ⟨a, b, c⟩ (hg x v fp)
          · exact hbl i le_rfl c
        | succ j =>
          rw [List.getElem?_cons_succ] at hj
          rw [show i + (j + 1) = i + 1 + j by omega]
          exact g3 (fun j' hj' c' => hbl j' (by omega) c') j f' hj c hc

end

end Verif.Interp
