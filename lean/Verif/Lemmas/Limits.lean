import Verif.Props.Thetas
import Verif.Lemmas.Repeat
import Verif.Spec.Limits

/-!
# Lemmas: levels that are not usable have no influence on the fit
-/

set_option linter.unusedSectionVars false

namespace Verif.Lemmas

open Verif.Np Verif.Stats Verif.Spec Verif.Thetas Verif.FitCond Verif.Piecewise Verif.Props

section thetas

variable {K : Type} [Field K] [LinearOrder K] [IsStrictOrderedRing K] [FloorRing K]

/-- A level without its mapped temperature, which is not looked at after the masking. -/
def bare (l : Level K) : Level K := { l with mapped := none }

theorem map_bare {α : Type} (g : Level K → α) (hg : ∀ l, g (bare l) = g l) (prof : List (Level K)) : (prof.map bare).map g = prof.map g := by
  rw [List.map_map]
  exact List.map_congr_left fun l _ => hg l

theorem flatten_bare {α : Type} (g : Level K → α) (hg : ∀ l, g (bare l) = g l) (data : List (List (Level K))) :
    (data.map (List.map bare)).flatten.map g = data.flatten.map g := by
  rw [← List.map_flatten, map_bare g hg]

theorem presLevels_bare (data : List (List (Level K))) : presLevels (data.map (List.map bare)) = presLevels data := by
  unfold presLevels
  rw [flatten_bare Level.ptmp (fun _ => rfl), flatten_bare Level.pres (fun _ => rfl)]

theorem goodPT_bare (prof : List (Level K)) : goodPT (prof.map bare) = goodPT prof := by
  unfold goodPT
  rw [List.filterMap_map]
  rfl

theorem interpT_bare (p : K) (prof : List (Level K)) : interpT p (prof.map bare) = interpT p prof := by
  unfold interpT
  rw [goodPT_bare]

theorem thetaLevel_bare (data : List (List (Level K))) : thetaLevel (data.map (List.map bare)) = thetaLevel data := by
  funext p
  unfold thetaLevel
  rw [List.map_map]
  congr 1
  exact List.map_congr_left fun prof _ => interpT_bare p prof

theorem thetaIndex_bare (theta : Option K) (prof : List (Level K)) : thetaIndex theta (prof.map bare) = thetaIndex theta prof := by
  unfold thetaIndex
  have hd : ∀ th : K, (prof.map bare).map (fun l => l.ptmp.map fun t => |t - th|) = prof.map fun l => l.ptmp.map fun t => |t - th| :=
    fun th => map_bare (fun l : Level K => l.ptmp.map fun t => |t - th|) (fun _ => rfl) prof
  rw [map_bare Level.ptmp (fun _ => rfl)]
  simp only [hd]

theorem bind_bare {α : Type} (g : Level K → Option α) (hg : ∀ l, g (bare l) = g l) (prof : List (Level K)) (j : ℕ) :
    (prof.map bare)[j]?.bind g = prof[j]?.bind g := by
  rw [List.getElem?_map]
  cases prof[j]? with
  | none => rfl
  | some l => exact hg l

theorem kIndex_bare (prof : List (Level K)) (i : ℕ) (t th : K) : kIndex (prof.map bare) i t th = kIndex prof i t th := by
  unfold kIndex
  simp only [List.length_map, bind_bare Level.ptmp (fun _ => rfl)]

theorem salOn_bare (theta : Option K) (prof : List (Level K)) : salOn theta (prof.map bare) = salOn theta prof := by
  unfold salOn
  rw [thetaIndex_bare]
  cases theta with
  | none => rfl
  | some th =>
    cases thetaIndex (some th) prof with
    | none => rfl
    | some i =>
      simp only [kIndex_bare, bind_bare Level.ptmp (fun _ => rfl), bind_bare Level.sal (fun _ => rfl)]
      rw [List.getElem?_map]
      cases prof[i]? with
      | none => rfl
      | some l => rfl

theorem salRow_bare (data : List (List (Level K))) : salRow (data.map (List.map bare)) = salRow data := by
  funext theta
  unfold salRow
  rw [List.mapM_map]
  congr 1
  funext prof
  exact salOn_bare theta prof

/-- A level without anything. -/
def nothing : Level K := ⟨none, none, none, none⟩

/-- A profile filled up to `n` levels. -/
def pad (n : ℕ) (prof : List (Level K)) : List (Level K) := prof ++ List.replicate (n - prof.length) nothing

theorem filterMap_pad {α : Type} (g : Level K → Option α) (hg : g nothing = none) (n : ℕ) (prof : List (Level K)) : (pad n prof).filterMap g = prof.filterMap g := by
  unfold pad
  have h0 : (List.replicate (n - prof.length) (nothing : Level K)).filterMap g = [] := by
    refine List.filterMap_eq_nil_iff.2 fun l hl => ?_
    rw [List.eq_of_mem_replicate hl, hg]
  rw [List.filterMap_append, h0, List.append_nil]

theorem flatten_pad {α : Type} (g : Level K → Option α) (hg : g nothing = none) (n : ℕ) (data : List (List (Level K))) :
    ((data.map (pad n)).flatten.map g).filterMap id = (data.flatten.map g).filterMap id := by
  rw [List.filterMap_map, List.filterMap_map, List.filterMap_flatten, List.filterMap_flatten, List.map_map]
  congr 1
  exact List.map_congr_left fun prof _ => filterMap_pad _ hg n prof

theorem presLevels_pad (n : ℕ) (data : List (List (Level K))) : presLevels (data.map (pad n)) = presLevels data := by
  unfold presLevels nanmin nanmax
  rw [flatten_pad Level.ptmp rfl, flatten_pad Level.pres rfl]

theorem interpT_pad (n : ℕ) (p : K) (prof : List (Level K)) : interpT p (pad n prof) = interpT p prof := by
  unfold interpT goodPT
  rw [filterMap_pad _ rfl]

theorem thetaLevel_pad (n : ℕ) (data : List (List (Level K))) : thetaLevel (data.map (pad n)) = thetaLevel data := by
  funext p
  unfold thetaLevel
  rw [List.map_map]
  congr 1
  exact List.map_congr_left fun prof _ => interpT_pad n p prof

theorem nanArgminFrom_pad (s k : ℕ) (l : List (Option K)) : nanArgminFrom s (l ++ List.replicate k none) = nanArgminFrom s l := by
  induction l generalizing s with
  | nil =>
    induction k generalizing s with
    | zero => rfl
    | succ k ih =>
      rw [List.replicate_succ]
      show nanArgminFrom (s + 1) ([] ++ List.replicate k none) = _
      rw [ih]
      rfl
  | cons a l ih =>
    rw [List.cons_append]
    unfold nanArgminFrom
    rw [ih]

theorem thetaIndex_pad (n : ℕ) (theta : Option K) (prof : List (Level K)) : thetaIndex theta (pad n prof) = thetaIndex theta prof := by
  have hd : ∀ th : K, nanArgmin ((pad n prof).map fun l => l.ptmp.map fun t => |t - th|) = nanArgmin (prof.map fun l => l.ptmp.map fun t => |t - th|) := by
    intro th
    unfold nanArgmin pad
    rw [List.map_append, List.map_replicate]
    show Option.map _ (nanArgminFrom 0 (_ ++ List.replicate _ none)) = _
    rw [nanArgminFrom_pad]
  unfold thetaIndex nanmin nanmax
  rw [List.filterMap_map, List.filterMap_map, filterMap_pad _ rfl]
  simp only [hd]

theorem bind_pad {α : Type} (g : Level K → Option α) (hg : g nothing = none) (n : ℕ) (prof : List (Level K)) (j : ℕ) :
    (pad n prof)[j]?.bind g = prof[j]?.bind g := by
  unfold pad
  by_cases hj : j < prof.length
  · rw [List.getElem?_append_left hj]
  · rw [List.getElem?_append_right (by omega), List.getElem?_eq_none (by omega : prof.length ≤ j), List.getElem?_replicate]
    split_ifs
    · exact hg
    · rfl

theorem kIndex_pad (n : ℕ) (prof : List (Level K)) (i : ℕ) (t th : K) : kIndex (pad n prof) i t th = kIndex prof i t th := by
  have ht : ∃ extra : List (ℕ × Option K), (∀ p ∈ extra, p.2 = none) ∧
      ((neighbours i (pad n prof).length).map fun j => (j, prof[j]?.bind Level.ptmp)) = ((neighbours i prof.length).map fun j => (j, prof[j]?.bind Level.ptmp)) ++ extra := by
    unfold neighbours pad
    rw [List.length_append, List.length_replicate, List.range_add, List.filter_append, List.map_append]
    refine ⟨_, ?_, rfl⟩
    intro p hp
    obtain ⟨j, hj, rfl⟩ := List.mem_map.1 hp
    obtain ⟨q, -, rfl⟩ := List.mem_map.1 (List.mem_of_mem_filter hj)
    simp only
    rw [List.getElem?_eq_none (by omega)]
    rfl
  obtain ⟨extra, he, ht⟩ := ht
  have h1 : ∀ φ : K → K, extra.filterMap (fun p => p.2.map φ) = [] := fun φ => List.filterMap_eq_nil_iff.2 fun p hp => by rw [he p hp]; rfl
  have h2 : ∀ (φ : K → K) (m : K), extra.filter (fun p => decide (p.2.map φ = some m)) = [] := fun φ m => List.filter_eq_nil_iff.2 fun p hp => by rw [he p hp]; simp
  unfold kIndex
  simp only [bind_pad Level.ptmp rfl, ht, List.filterMap_append, List.filter_append, h1, h2, List.append_nil]

theorem salOn_pad (n : ℕ) (theta : Option K) (prof : List (Level K)) : salOn theta (pad n prof) = salOn theta prof := by
  unfold salOn
  rw [thetaIndex_pad]
  cases theta with
  | none => rfl
  | some th =>
    cases hi : thetaIndex (some th) prof with
    | none => rfl
    | some i =>
      have hlt : i < prof.length := by
        unfold thetaIndex at hi
        split at hi
        · split_ifs at hi
          obtain ⟨v, hv, -⟩ := nanArgmin_some hi
          have := (List.getElem?_eq_some_iff.1 hv).1
          simpa using this
        · cases hi
      have hg : (pad n prof)[i]? = prof[i]? := by
        unfold pad
        rw [List.getElem?_append_left hlt]
      simp only [kIndex_pad, bind_pad Level.ptmp rfl, bind_pad Level.sal rfl, hg]

theorem salRow_pad (n : ℕ) (data : List (List (Level K))) : salRow (data.map (pad n)) = salRow data := by
  funext theta
  unfold salRow
  rw [List.mapM_map]
  congr 1
  funext prof
  exact salOn_pad n theta prof

/-- `find_10thetas` looks at nothing but the pressure, salinity and temperature left by the masking, and levels without them at the end do not matter. -/
theorem find10thetas_masked (B : Bounds K) (percent : K) (n : ℕ) (data data' : List (List (Level K)))
    (h : ((data.map (List.map (mask B))).map (List.map bare)).map (pad n) = ((data'.map (List.map (mask B))).map (List.map bare)).map (pad n)) :
    find10thetas B percent data = find10thetas B percent data' := by
  have hi : ∀ (d : List (List (Level K))) (th : Option K), ((d.map (List.map bare)).map (pad n)).map (thetaIndex th) = d.map (thetaIndex th) := by
    intro d th
    rw [List.map_map, List.map_map]
    exact List.map_congr_left fun prof _ => by
      show thetaIndex th (pad n (prof.map bare)) = _
      rw [thetaIndex_pad, thetaIndex_bare]
  have key : ∀ d : List (List (Level K)), find10thetas B percent d = (do
      let data := ((d.map fun prof => prof.map (mask B)).map (List.map bare)).map (pad n)
      let pl ← presLevels data
      let tl := pl.map (thetaLevel data)
      let rows ← tl.mapM (salRow data)
      let v := filteredVar percent rows
      let chosen := select 10 v
      pure
        { tLevels := chosen.map fun (i : ℕ) => (tl[i]?).join
          pLevels := chosen.map fun (i : ℕ) => pl[i]?
          index := chosen.map fun (i : ℕ) => data.map (thetaIndex (tl[i]?).join)
          varSalTheta := v
          thetaLevels := tl }) := by
    intro d
    unfold find10thetas
    simp only [hi]
    simp only [presLevels_pad, thetaLevel_pad, salRow_pad, presLevels_bare, thetaLevel_bare, salRow_bare]
  rw [key, key]
  simp only
  rw [show ((data.map fun prof => prof.map (mask B)).map (List.map bare)).map (pad n) = ((data'.map fun prof => prof.map (mask B)).map (List.map bare)).map (pad n) from h]

end thetas

/-- Profiles with the same usable levels. -/
def Alike (B : Bounds ℝ) (c c' : Column) : Prop :=
  c.no = c'.no ∧ ∀ (j : ℕ) (x : Cell), Usable B (toLevel x) → (c.cells[j]? = some x ↔ c'.cells[j]? = some x)

theorem bare_mask_unusable (B : Bounds ℝ) (l : Level ℝ) (h : ¬ Usable B l) : bare (mask B l) = nothing := by
  rw [mask_not_usable B l h]
  rfl

theorem padded_get (n : ℕ) (prof : List (Level ℝ)) (j : ℕ) (hj : j < n) : (pad n prof)[j]? = some ((prof[j]?).getD nothing) := by
  unfold pad
  by_cases h : j < prof.length
  · rw [List.getElem?_append_left h, List.getElem?_eq_getElem h]
    rfl
  · rw [List.getElem?_append_right (by omega), List.getElem?_eq_none (by omega : prof.length ≤ j), List.getElem?_replicate, if_pos (by omega)]
    rfl

theorem cells_masked (B : Bounds ℝ) (l l' : List Cell) (n : ℕ) (hn : l.length ≤ n) (hn' : l'.length ≤ n)
    (h : ∀ (j : ℕ) (x : Cell), Usable B (toLevel x) → (l[j]? = some x ↔ l'[j]? = some x)) :
    pad n (((l.map toLevel).map (mask B)).map bare) = pad n (((l'.map toLevel).map (mask B)).map bare) := by
  have hlen : ∀ l : List Cell, l.length ≤ n → (pad n (((l.map toLevel).map (mask B)).map bare)).length = n := by
    intro l hl
    simp [pad]
    omega
  have hg : ∀ (l : List Cell) (j : ℕ), (((((l.map toLevel).map (mask B)).map bare)[j]?).getD nothing : Level ℝ) =
      ((l[j]?).elim nothing fun x => bare (mask B (toLevel x))) := by
    intro l j
    simp only [List.getElem?_map]
    cases l[j]? <;> rfl
  apply List.ext_getElem?
  intro j
  by_cases hj : j < n
  · rw [padded_get n _ j hj, padded_get n _ j hj, hg, hg]
    congr 1
    have key : ∀ (l l' : List Cell), (∀ (j : ℕ) (x : Cell), Usable B (toLevel x) → (l[j]? = some x ↔ l'[j]? = some x)) → ∀ x, l[j]? = some x → Usable B (toLevel x) →
        ((l[j]?).elim nothing fun x => bare (mask B (toLevel x))) = ((l'[j]?).elim nothing fun x => bare (mask B (toLevel x))) := by
      intro l l' h x hx hu
      rw [hx, (h j x hu).1 hx]
    have no : ∀ l : List Cell, (∀ x, l[j]? = some x → ¬ Usable B (toLevel x)) → ((l[j]?).elim nothing fun x => bare (mask B (toLevel x))) = nothing := by
      intro l h
      cases hx : l[j]? with
      | none => rfl
      | some x => exact bare_mask_unusable B _ (h x hx)
    by_cases h1 : ∃ x, l[j]? = some x ∧ Usable B (toLevel x)
    · obtain ⟨x, hx, hu⟩ := h1
      exact key l l' h x hx hu
    · by_cases h2 : ∃ x, l'[j]? = some x ∧ Usable B (toLevel x)
      · obtain ⟨x, hx, hu⟩ := h2
        exact (key l' l (fun j x hu => (h j x hu).symm) x hx hu).symm
      · rw [no l fun x hx hu => h1 ⟨x, hx, hu⟩, no l' fun x hx hu => h2 ⟨x, hx, hu⟩]
  · rw [List.getElem?_eq_none (by rw [hlen l hn]; omega), List.getElem?_eq_none (by rw [hlen l' hn']; omega)]

theorem alike_masked (B : Bounds ℝ) (cols cols' : List Column) (h : List.Forall₂ (Alike B) cols cols') (n : ℕ) (hn : ∀ c ∈ cols, c.cells.length ≤ n)
    (hn' : ∀ c ∈ cols', c.cells.length ≤ n) :
    (((cols.map fun c => c.cells.map toLevel).map (List.map (mask B))).map (List.map bare)).map (pad n) =
      (((cols'.map fun c => c.cells.map toLevel).map (List.map (mask B))).map (List.map bare)).map (pad n) := by
  induction h with
  | nil => rfl
  | cons hc _ ih =>
    simp only [List.map_cons]
    rw [ih (fun c hc => hn c (List.mem_cons_of_mem _ hc)) fun c hc => hn' c (List.mem_cons_of_mem _ hc)]
    congr 1
    exact cells_masked B _ _ n (hn _ List.mem_cons_self) (hn' _ List.mem_cons_self) hc.2

theorem exists_bound (cols : List Column) : ∃ n, ∀ c ∈ cols, c.cells.length ≤ n := by
  induction cols with
  | nil => exact ⟨0, by simp⟩
  | cons c cols ih =>
    obtain ⟨n, hn⟩ := ih
    refine ⟨max n c.cells.length, fun d hd => ?_⟩
    rcases List.mem_cons.1 hd with rfl | hd
    · exact le_max_right _ _
    · exact (hn d hd).trans (le_max_left _ _)

theorem alike_thetas (B : Bounds ℝ) (percent : ℝ) (cols cols' : List Column) (h : List.Forall₂ (Alike B) cols cols') :
    find10thetas B percent (cols.map fun c => c.cells.map toLevel) = find10thetas B percent (cols'.map fun c => c.cells.map toLevel) := by
  obtain ⟨n, hn⟩ := exists_bound cols
  obtain ⟨n', hn'⟩ := exists_bound cols'
  exact find10thetas_masked B percent (max n n') _ _ (alike_masked B cols cols' h _ (fun c hc => (hn c hc).trans (le_max_left _ _))
    fun c hc => (hn' c hc).trans (le_max_right _ _))

theorem alike_get {B : Bounds ℝ} {cols cols' : List Column} (h : List.Forall₂ (Alike B) cols cols') (p : ℕ) (c : Column) (hp : cols[p]? = some c) :
    ∃ c', cols'[p]? = some c' ∧ Alike B c c' := by
  have hl := h.length_eq
  have hlt := (List.getElem?_eq_some_iff.1 hp).1
  refine ⟨cols'[p]'(by omega), List.getElem?_eq_getElem _, ?_⟩
  have := h.get (i := p) hlt (by omega)
  have e : cols.get ⟨p, hlt⟩ = c := by
    rw [List.getElem?_eq_getElem hlt] at hp
    exact Option.some.inj hp
  rw [e] at this
  exact this

theorem tenCells_alike (B : Bounds ℝ) (percent : ℝ) (cols cols' : List Column) (h : List.Forall₂ (Alike B) cols cols') (th : Thetas ℝ)
    (ht : find10thetas B percent (cols.map fun c => c.cells.map toLevel) = .ok th) : tenOf th.index cols = tenOf th.index cols' := by
  unfold tenOf
  apply List.ext_getElem?
  intro p
  rw [List.getElem?_map, List.getElem?_map, List.getElem?_zipIdx, List.getElem?_zipIdx]
  by_cases hp : p < cols.length
  · obtain ⟨c', hc', -, hcells⟩ := alike_get h p _ (List.getElem?_eq_getElem hp)
    rw [hc', List.getElem?_eq_getElem hp]
    simp only [Option.map_some, Option.some.injEq]
    unfold tenCells
    simp only
    congr 1
    refine List.map_congr_left ?_
    intro j hj
    rw [List.mem_filterMap] at hj
    obtain ⟨row, hrow, hj⟩ := hj
    simp only [Nat.zero_add] at hj
    rw [Option.join_eq_some_iff] at hj
    obtain ⟨prof, l, hprof, hl, hu, -⟩ := thetas_index_usable B percent _ th ht row hrow p j hj
    rw [List.getElem?_map, List.getElem?_eq_getElem hp, Option.map_some, Option.some.injEq] at hprof
    subst hprof
    rw [List.getElem?_map, Option.map_eq_some_iff] at hl
    obtain ⟨x, hx, rfl⟩ := hl
    rw [hx, (hcells j x hu).1 hx]
  · rw [List.getElem?_eq_none (by omega), List.getElem?_eq_none (by rw [← h.length_eq]; omega)]

theorem observations_alike (B : Bounds ℝ) (G : Gsw) (cols cols' : List Column) (h : List.Forall₂ (Alike B) cols cols') (ten : List (List (Option Cell))) :
    observations G cols ten = observations G cols' ten := by
  unfold observations
  congr 1
  induction h generalizing ten with
  | nil => rfl
  | cons hc _ ih =>
    cases ten with
    | nil => rfl
    | cons t ten =>
      simp only [List.zipWith_cons_cons]
      rw [ih ten, hc.1]

theorem fitSegment_alike (E : Env) (S : Settings) (i : ℕ) (cols cols' : List Column) (h : List.Forall₂ (Alike S.bounds) cols cols') (coords : List Coord)
    (args : List Arg) : fitSegment E S i cols coords args = fitSegment E S i cols' coords args := by
  have hm := alike_thetas S.bounds S.percent cols cols' h
  unfold fitSegment
  cases ht : find10thetas S.bounds S.percent (cols.map fun c => c.cells.map toLevel) with
  | error e =>
    rw [ht] at hm
    rw [← hm]
    rfl
  | ok th =>
    rw [← hm, ht]
    simp only [bind, Except.bind]
    rw [tenCells_alike S.bounds S.percent cols cols' h th ht, observations_alike S.bounds E.gsw cols cols' h, h.length_eq]

theorem segmentOut_alike (B : Bounds ℝ) (G : Gsw) (cols cols' : List Column) (h : List.Forall₂ (Alike B) cols cols') {m : ℕ} (f : Fit m) :
    (segmentOut G cols f).map (List.map ColOut.toFitAt) = (segmentOut G cols' f).map (List.map ColOut.toFitAt) := by
  have key : ∀ fac : List FitAt, (List.zipWith (fun (c : Column) (r : FitAt) => (⟨r, c.cells.map (calCell G r)⟩ : ColOut)) cols fac).map ColOut.toFitAt =
      (List.zipWith (fun (c : Column) (r : FitAt) => (⟨r, c.cells.map (calCell G r)⟩ : ColOut)) cols' fac).map ColOut.toFitAt := by
    intro fac
    induction h generalizing fac with
    | nil => rfl
    | cons _ _ ih =>
      cases fac with
      | nil => rfl
      | cons r fac =>
        simp only [List.zipWith_cons_cons, List.map_cons]
        rw [ih fac]
  unfold segmentOut
  rw [h.length_eq]
  simp only [bind, Except.bind]
  split
  · rfl
  · show Except.ok _ = Except.ok _
    rw [key]

/-- What a segment contributes, without the levels. -/
def segmentFit (r : SegmentOut) : List (ℕ × FitAt) × List ℝ × List ℝ := (r.puts.map fun p => (p.1, p.2.toFitAt), r.coef, r.breaks)

theorem gather_alike {B : Bounds ℝ} {data data' : List Column} (h : List.Forall₂ (Alike B) data data') (idx : List ℕ) :
    (∃ e, gather data idx = .error e ∧ gather data' idx = .error e) ∨
      ∃ cols cols', gather data idx = .ok cols ∧ gather data' idx = .ok cols' ∧ List.Forall₂ (Alike B) cols cols' := by
  induction idx with
  | nil => exact Or.inr ⟨[], [], rfl, rfl, .nil⟩
  | cons i idx ih =>
    unfold gather at ih ⊢
    rw [List.mapM_cons, List.mapM_cons]
    cases hi : data[i]? with
    | none =>
      have hi' : data'[i]? = none := by
        rw [List.getElem?_eq_none_iff] at hi ⊢
        rw [← h.length_eq]; exact hi
      rw [hi']
      exact Or.inl ⟨_, rfl, rfl⟩
    | some c =>
      obtain ⟨c', hc', hcc⟩ := alike_get h i c hi
      rw [hc']
      rcases ih with ⟨e, h1, h2⟩ | ⟨cols, cols', h1, h2, h3⟩
      · rw [h1, h2]
        exact Or.inl ⟨e, rfl, rfl⟩
      · rw [h1, h2]
        exact Or.inr ⟨_, _, rfl, rfl, .cons hcc h3⟩

theorem segmentWork_alike (E : Env) (S : Settings) (mb : List (List ℤ)) (data data' : List Column) (h : List.Forall₂ (Alike S.bounds) data data')
    (coords : Option (List Coord)) (iv : ℕ × ℝ) :
    (segmentWork E S mb data coords iv).map segmentFit = (segmentWork E S mb data' coords iv).map segmentFit := by
  unfold segmentWork
  cases coords with
  | none => rfl
  | some cs =>
    simp only [bind, Except.bind]
    split
    · rfl
    · rcases gather_alike h (argwhere (fun c : ℝ => decide (c = iv.2)) S.calseries) with ⟨e, h1, h2⟩ | ⟨cols, cols', h1, h2, h3⟩
      · rw [h1, h2]
      · rw [h1, h2]
        simp only
        split
        · rfl
        · rw [fitSegment_alike E S iv.1 cols cols' h3]
          split
          · rfl
          · rename_i fit _
            cases fit with
            | none => rfl
            | some w =>
              obtain ⟨m, f⟩ := w
              have hout := segmentOut_alike S.bounds E.gsw cols cols' h3 f
              simp only
              generalize segmentOut E.gsw cols f = o at hout ⊢
              generalize segmentOut E.gsw cols' f = o' at hout ⊢
              cases o with
              | error e =>
                cases o' with
                | error e' => rw [show e = e' from Except.error.inj hout]
                | ok u => cases hout
              | ok u =>
                cases o' with
                | error e' => cases hout
                | ok u' =>
                  have hu : u.map ColOut.toFitAt = u'.map ColOut.toFitAt := Except.ok.inj hout
                  simp only
                  split_ifs
                  · rfl
                  · rfl
                  · show Except.ok _ = Except.ok _
                    congr 1
                    unfold segmentFit
                    simp only
                    have hz : ∀ l : List ColOut, ((argwhere (fun c : ℝ => decide (c = iv.2)) S.calseries).zip l).map (fun p => (p.1, p.2.toFitAt)) =
                        (argwhere (fun c : ℝ => decide (c = iv.2)) S.calseries).zip (l.map ColOut.toFitAt) := by
                      intro l
                      rw [List.zip_map_right]
                      rfl
                    rw [hz, hz, hu]

theorem applySegment_alike (out out' : CalibFile) (r r' : SegmentOut) (ho : fitSaved out = fitSaved out') (hr : segmentFit r = segmentFit r') :
    fitSaved (applySegment out r) = fitSaved (applySegment out' r') := by
  unfold fitSaved at ho
  unfold segmentFit at hr
  simp only [Prod.mk.injEq] at ho hr
  obtain ⟨h1, h2, h3⟩ := ho
  obtain ⟨g1, g2, g3⟩ := hr
  unfold applySegment fitSaved
  simp only [putAll_map, h1, h2, h3, g1, g2, g3]

theorem steps_alike (E : Env) (S : Settings) (mb : List (List ℤ)) (data data' : List Column) (h : List.Forall₂ (Alike S.bounds) data data')
    (coords : Option (List Coord)) (l : List (ℕ × ℝ)) :
    ∀ out out', fitSaved out = fitSaved out' →
      (l.foldlM (segmentStep E S mb data coords) out).map fitSaved = (l.foldlM (segmentStep E S mb data' coords) out').map fitSaved := by
  induction l with
  | nil =>
    intro out out' h
    show Except.ok _ = Except.ok _
    rw [h]
  | cons iv l ih =>
    intro out out' ho
    rw [List.foldlM_cons, List.foldlM_cons]
    have hw := segmentWork_alike E S mb data data' h coords iv
    unfold segmentStep
    generalize segmentWork E S mb data coords iv = a at hw ⊢
    generalize segmentWork E S mb data' coords iv = a' at hw ⊢
    cases a with
    | error e =>
      cases a' with
      | error e' => rw [show e = e' from Except.error.inj hw]; rfl
      | ok v => cases hw
    | ok v =>
      cases a' with
      | error e' => cases hw
      | ok v' => exact ih _ _ (applySegment_alike out out' v v' ho (Except.ok.inj hw))

theorem calibrate_alike (E : Env) (S : Settings) (data data' : List Column) (h : List.Forall₂ (Alike S.bounds) data data') (coords : Option (List Coord)) :
    (calibrate E S data coords).map fitSaved = (calibrate E S data' coords).map fitSaved := by
  have hb : fitSaved ⟨data.map blankColumn, [], []⟩ = fitSaved ⟨data'.map blankColumn, [], []⟩ := by
    unfold fitSaved
    simp only [List.map_map, Prod.mk.injEq, and_true]
    have : ∀ d : List Column, d.map (ColOut.toFitAt ∘ blankColumn) = List.replicate d.length ⟨none, none, none, none, none, none⟩ := by
      intro d
      rw [List.eq_replicate_iff]
      refine ⟨by simp, fun b hb => ?_⟩
      obtain ⟨c, -, rfl⟩ := List.mem_map.1 hb
      rfl
    rw [this, this, h.length_eq]
  unfold calibrate
  simp only [bind, Except.bind]
  split
  · rfl
  · split_ifs
    · exact steps_alike E S _ data data' h coords _ _ _ hb
    · exact congrArg Except.ok hb

end Verif.Lemmas
