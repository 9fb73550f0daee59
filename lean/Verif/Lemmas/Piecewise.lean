import Verif.Spec.Piecewise
import Verif.Lemmas.Np

/-! # Lemmas about the model of `calc_piecewisefit` -/

set_option linter.unusedSectionVars false

namespace Verif.Piecewise

open Verif.Np Verif.Stats Verif.FitCond Verif.Thetas Verif.Spec

/-! ## Folding a list of independent computations -/

theorem foldlM_work {α β σ : Type} (w : α → Except PyErr β) (g : σ → β → σ) (l : List α) (s : σ) :
    l.foldlM (fun s a => do
      let r ← w a
      pure (g s r)) s = (l.mapM w).map fun rs => rs.foldl g s := by
  induction l generalizing s with
  | nil => rfl
  | cons a l ih =>
    rw [List.foldlM_cons, List.mapM_cons]
    cases hw : w a with
    | error e => rfl
    | ok r =>
      simp only [bind, Except.bind, pure, Except.pure]
      have := ih (g s r)
      simp only [bind, Except.bind, pure, Except.pure] at this
      rw [this]
      cases l.mapM w with
      | error e => rfl
      | ok rs => rfl

theorem putAll_length {α : Type} (ps : List (ℕ × α)) (a : List α) : (putAll a ps).length = a.length := by
  induction ps generalizing a with
  | nil => rfl
  | cons p ps ih => obtain ⟨i, v⟩ := p; rw [putAll, ih, List.length_set]

theorem putAll_other {α : Type} (ps : List (ℕ × α)) (a : List α) (j : ℕ) (h : ∀ p ∈ ps, p.1 ≠ j) : (putAll a ps)[j]? = a[j]? := by
  induction ps generalizing a with
  | nil => rfl
  | cons p ps ih =>
    obtain ⟨i, v⟩ := p
    rw [putAll, ih _ fun p hp => h p (by simp [hp]), List.getElem?_set_ne (h (i, v) (by simp))]

theorem putAll_get {α : Type} (ps : List (ℕ × α)) (a : List α) (j : ℕ) (v : α) (hn : (ps.map Prod.fst).Nodup) (h : (j, v) ∈ ps)
    (hj : j < a.length) : (putAll a ps)[j]? = some v := by
  induction ps generalizing a with
  | nil => cases h
  | cons p ps ih =>
    obtain ⟨i, w⟩ := p
    rw [List.map_cons, List.nodup_cons] at hn
    rw [putAll]
    rcases List.mem_cons.1 h with h | h
    · obtain ⟨rfl, rfl⟩ := Prod.mk.inj h
      have hne : ∀ p ∈ ps, p.1 ≠ j := fun p hp he => hn.1 (List.mem_map.2 ⟨p, hp, he⟩)
      rw [putAll_other _ _ _ hne, List.getElem?_set_self hj]
    · exact ih _ hn.2 h (by rw [List.length_set]; exact hj)

/-! ## Segments -/

theorem segments_mem (S : Settings) (v : ℝ) : v ∈ segments S ↔ v ∈ S.calseries ∧ v ≠ 0 := by
  unfold segments uniqueReal
  rw [List.mem_filter, List.mem_insertionSort, List.mem_dedup, decide_eq_true_iff]

theorem segments_nodup (S : Settings) : (segments S).Nodup := by
  unfold segments uniqueReal
  exact ((List.perm_insertionSort _ _).nodup_iff.2 (List.nodup_dedup _)).filter _

theorem segments_card (S : Settings) : (segments S).length = (segmentValues S).card := by
  rw [← List.toFinset_card_of_nodup (segments_nodup S)]
  congr 1
  ext v
  rw [List.mem_toFinset, segments_mem]
  unfold segmentValues
  rw [Finset.mem_erase, List.mem_toFinset, and_comm]

/-- The columns of a segment. -/
noncomputable def calIndex (S : Settings) (v : ℝ) : List ℕ := argwhere (fun c : ℝ => decide (c = v)) S.calseries

theorem calIndex_mem (S : Settings) (v : ℝ) (j : ℕ) : j ∈ calIndex S v ↔ S.calseries[j]? = some v := by
  unfold calIndex
  rw [argwhere_mem]
  constructor
  · rintro ⟨a, h1, h2⟩
    rw [decide_eq_true_iff] at h2
    rw [h1, h2]
  · intro h
    exact ⟨v, h, by simp⟩

theorem calIndex_nodup (S : Settings) (v : ℝ) : (calIndex S v).Nodup := argwhere_nodup _ _

/-! ## One segment -/

theorem gather_inv {α : Type} {l m : List α} {idx : List ℕ} (h : gather l idx = .ok m) :
    m.length = idx.length ∧ ∀ (k i : ℕ), idx[k]? = some i → ∃ a, m[k]? = some a ∧ l[i]? = some a := by
  obtain ⟨h1, h2⟩ := mapM_getElem h
  refine ⟨h1, fun k i hk => ?_⟩
  obtain ⟨b, hb, hf⟩ := h2 k i hk
  cases hl : l[i]? with
  | none => rw [hl] at hf; cases hf
  | some a =>
    rw [hl] at hf
    exact ⟨b, hb, by rw [Except.ok.inj hf]⟩

theorem gather_congr {α : Type} (l l' : List α) (idx : List ℕ) (h : ∀ i ∈ idx, l[i]? = l'[i]?) : gather l idx = gather l' idx := by
  unfold gather
  induction idx with
  | nil => rfl
  | cons i idx ih =>
    rw [List.mapM_cons, List.mapM_cons, h i (by simp), ih fun j hj => h j (by simp [hj])]

theorem spread_ok {α : Type} {m k : ℕ} {f : Fin (m + 1) → α} {r : List α} (h : spread k f = .ok r) :
    r.length = k ∧ (m + 1 = k → ∀ p : Fin (m + 1), r[p.val]? = some (f p)) ∧ (m + 1 = k ∨ m = 0) ∧ ∀ x ∈ r, ∃ p, x = f p := by
  unfold spread at h
  split_ifs at h with h1 h2
  · obtain rfl := Except.ok.inj h
    refine ⟨by simp [h1], fun _ p => by rw [List.getElem?_ofFn, dif_pos p.isLt], Or.inl h1, fun x hx => ?_⟩
    obtain ⟨p, rfl⟩ := (List.mem_ofFn' f x).1 hx
    exact ⟨p, rfl⟩
  · obtain rfl := Except.ok.inj h
    exact ⟨by simp, fun h => absurd h h1, Or.inr h2, fun x hx => ⟨0, (List.mem_replicate.1 hx).2⟩⟩

/-- What is stored for one profile with the numbers `r` of the fit. -/
noncomputable def columnOut (G : Gsw) (c : Column) (r : FitAt) : ColOut := ⟨r, c.cells.map (calCell G r)⟩

/-- The numbers of a fit for its profile `p`. -/
noncomputable def fitNumbers {m : ℕ} (f : Fit m) (p : Fin (m + 1)) : FitAt :=
  ⟨some (f.condslope p), f.condslopeErr p, f.timeDeriv p, f.timeDerivErr p, f.staMean p, f.staRms p⟩

theorem segmentOut_ok {G : Gsw} {cols : List Column} {m : ℕ} {f : Fit m} {res : List ColOut} (h : segmentOut G cols f = .ok res) :
    ∃ fac, spread cols.length (fitNumbers f) = .ok fac ∧ res = List.zipWith (columnOut G) cols fac := by
  unfold segmentOut at h
  change (spread cols.length (fitNumbers f) >>= fun fac => pure (List.zipWith (columnOut G) cols fac)) = _ at h
  cases hs : spread cols.length (fitNumbers f) with
  | error e => rw [hs] at h; cases h
  | ok fac => rw [hs] at h; exact ⟨fac, rfl, (Except.ok.inj h).symm⟩

theorem segmentWork_ok {E : Env} {S : Settings} {mb : List (List ℤ)} {data : List Column} {coords : Option (List Coord)} {iv : ℕ × ℝ}
    {r : SegmentOut} (h : segmentWork E S mb data coords iv = .ok r) :
    S.breaks = [] ∧ ∃ (cs sub : List Coord) (cols : List Column) (args : List Arg) (m : ℕ) (f : Fit m) (res : List ColOut),
      coords = some cs ∧ gather cs (calIndex S iv.2) = .ok sub ∧ gather data (calIndex S iv.2) = .ok cols ∧
      fitArgs mb S.breaks iv.1 = .ok args ∧ fitSegment E S iv.1 cols sub args = .ok (some ⟨m, f⟩) ∧ segmentOut E.gsw cols f = .ok res ∧
      r = ⟨(calIndex S iv.2).zip res, f.coef, f.breaks⟩ := by
  unfold segmentWork at h
  cases coords with
  | none => cases h
  | some cs =>
    change (gather cs (calIndex S iv.2) >>= fun sub => _) = _ at h
    cases h1 : gather cs (calIndex S iv.2) with
    | error e => rw [h1] at h; cases h
    | ok sub =>
      rw [h1] at h
      change (gather data (calIndex S iv.2) >>= fun cols => _) = _ at h
      cases h2 : gather data (calIndex S iv.2) with
      | error e => rw [h2] at h; cases h
      | ok cols =>
        rw [h2] at h
        change (fitArgs mb S.breaks iv.1 >>= fun args => _) = _ at h
        cases h3 : fitArgs mb S.breaks iv.1 with
        | error e => rw [h3] at h; cases h
        | ok args =>
          rw [h3] at h
          change (fitSegment E S iv.1 cols sub args >>= fun fit => _) = _ at h
          cases h4 : fitSegment E S iv.1 cols sub args with
          | error e => rw [h4] at h; cases h
          | ok fit =>
            rw [h4] at h
            cases fit with
            | none =>
              simp only [bind, Except.bind] at h
              split_ifs at h
            | some mf =>
              obtain ⟨m, f⟩ := mf
              change (segmentOut E.gsw cols f >>= fun res => _) = _ at h
              cases h5 : segmentOut E.gsw cols f with
              | error e => rw [h5] at h; cases h
              | ok res =>
                rw [h5] at h
                simp only [bind, Except.bind] at h
                split_ifs at h with hb hc
                refine ⟨List.length_eq_zero_iff.1 (not_not.1 hb), cs, sub, cols, args, m, f, res, rfl, h1, rfl, rfl, h4, h5, ?_⟩
                exact (Except.ok.inj h).symm

/-! ## The whole -/

/-- The segments with their positions. -/
noncomputable def numbered (S : Settings) : List (ℕ × ℝ) := (segments S).zipIdx.map fun (v : ℝ × ℕ) => (v.2, v.1)

theorem numbered_snd (S : Settings) : (numbered S).map Prod.snd = segments S := by
  unfold numbered
  rw [List.map_map]
  exact List.zipIdx_map_fst 0 (segments S)

theorem calibrate_eq (E : Env) (S : Settings) (data : List Column) (coords : Option (List Coord)) :
    calibrate E S data coords = (do
      let ok ← checkBreaks (segments S).length (checkMaxBreaks (segments S).length S.maxBreaks).1 S.breaks
      if (checkMaxBreaks (segments S).length S.maxBreaks).2 && ok then
        ((numbered S).mapM (segmentWork E S (checkMaxBreaks (segments S).length S.maxBreaks).1 data coords)).map
          fun rs => rs.foldl applySegment ⟨data.map blankColumn, [], []⟩
      else pure ⟨data.map blankColumn, [], []⟩) := by
  unfold calibrate
  have := foldlM_work (segmentWork E S (checkMaxBreaks (segments S).length S.maxBreaks).1 data coords) applySegment (numbered S)
    ⟨data.map blankColumn, [], []⟩
  rw [← this]
  rfl

theorem accepted_checks (S : Settings) (h : Accepted S) :
    checkBreaks (segments S).length (checkMaxBreaks (segments S).length S.maxBreaks).1 S.breaks = .ok true ∧
      (checkMaxBreaks (segments S).length S.maxBreaks).2 = true := by
  obtain ⟨hb, hm⟩ := h
  constructor
  · unfold checkBreaks; rw [hb]; rfl
  · rw [← segments_card] at hm
    unfold checkMaxBreaks
    split_ifs with h1
    · rcases hm with hm | hm | hm
      · omega
      · obtain ⟨row, hr⟩ := List.length_eq_one_iff.1 hm
        rw [hr]
      · split
        · rfl
        · simpa using hm
    · rfl

theorem not_accepted_checks (S : Settings) (hb : S.breaks = []) (h : ¬ Accepted S) :
    (checkMaxBreaks (segments S).length S.maxBreaks).2 = false := by
  unfold Accepted at h
  push Not at h
  obtain ⟨h1, h2, h3⟩ := h hb
  rw [← segments_card] at h1 h3
  unfold checkMaxBreaks
  rw [if_pos h1]
  split
  · next row hr => exact absurd (by rw [hr]; rfl) h2
  · simpa using h3

theorem calibrate_accepted (E : Env) (S : Settings) (data : List Column) (coords : Option (List Coord)) (h : Accepted S) :
    calibrate E S data coords =
      ((numbered S).mapM (segmentWork E S (checkMaxBreaks (segments S).length S.maxBreaks).1 data coords)).map
          fun rs => rs.foldl applySegment ⟨data.map blankColumn, [], []⟩ := by
  obtain ⟨h1, h2⟩ := accepted_checks S h
  rw [calibrate_eq, h1, h2]
  rfl

/-- A saved file is empty, or the settings are accepted and every segment has been worked out. -/
theorem calibrate_inv {E : Env} {S : Settings} {data : List Column} {coords : Option (List Coord)} {out : CalibFile}
    (h : calibrate E S data coords = .ok out) : AllMissing data out ∨
      ∃ rs, (numbered S).mapM (segmentWork E S (checkMaxBreaks (segments S).length S.maxBreaks).1 data coords) = .ok rs ∧
        out = rs.foldl applySegment ⟨data.map blankColumn, [], []⟩ := by
  rw [calibrate_eq] at h
  cases hc : checkBreaks (segments S).length (checkMaxBreaks (segments S).length S.maxBreaks).1 S.breaks with
  | error e => rw [hc] at h; cases h
  | ok ok =>
    rw [hc] at h
    simp only [bind, Except.bind, pure, Except.pure] at h
    split_ifs at h with h1
    · cases hm : (numbered S).mapM (segmentWork E S (checkMaxBreaks (segments S).length S.maxBreaks).1 data coords) with
      | error e => rw [hm] at h; cases h
      | ok rs => rw [hm] at h; exact Or.inr ⟨rs, rfl, (Except.ok.inj h).symm⟩
    · left
      obtain rfl := Except.ok.inj h
      exact ⟨rfl, rfl, rfl⟩

theorem applySegment_length (rs : List SegmentOut) (init : CalibFile) : (rs.foldl applySegment init).columns.length = init.columns.length := by
  induction rs generalizing init with
  | nil => rfl
  | cons r rs ih => rw [List.foldl_cons, ih]; exact putAll_length _ _

theorem fold_other (rs : List SegmentOut) (init : CalibFile) (j : ℕ) (h : ∀ r ∈ rs, ∀ p ∈ r.puts, p.1 ≠ j) :
    (rs.foldl applySegment init).columns[j]? = init.columns[j]? := by
  induction rs generalizing init with
  | nil => rfl
  | cons r rs ih =>
    rw [List.foldl_cons, ih _ fun r hr => h r (by simp [hr])]
    exact putAll_other _ _ _ (h r (by simp))

theorem fold_get (rs : List SegmentOut) (init : CalibFile) (j : ℕ) (o : ColOut) (k : ℕ) (r : SegmentOut) (hk : rs[k]? = some r)
    (hin : (j, o) ∈ r.puts) (hn : (r.puts.map Prod.fst).Nodup) (hother : ∀ (k' : ℕ) (r' : SegmentOut), rs[k']? = some r' → k' ≠ k → ∀ p ∈ r'.puts, p.1 ≠ j)
    (hj : j < init.columns.length) : (rs.foldl applySegment init).columns[j]? = some o := by
  induction rs generalizing init k with
  | nil => simp at hk
  | cons a rs ih =>
    rw [List.foldl_cons]
    cases k with
    | zero =>
      obtain rfl : a = r := by simpa using hk
      rw [fold_other]
      · exact putAll_get _ _ _ _ hn hin hj
      · intro r' hr' p hp
        obtain ⟨k', hk'⟩ := List.getElem?_of_mem hr'
        exact hother (k' + 1) r' (by simpa using hk') (by omega) p hp
    | succ k =>
      apply ih _ k (by simpa using hk)
      · intro k' r' hk' hne p hp
        exact hother (k' + 1) r' (by simpa using hk') (by omega) p hp
      · change j < (putAll init.columns a.puts).length
        rw [putAll_length]; exact hj

/-- The results of the columns of a segment. -/
structure SegmentDone (E : Env) (S : Settings) (data : List Column) (coords : Option (List Coord)) (out : CalibFile) (i : ℕ) (v : ℝ) where
  sub : List Coord
  cols : List Column
  args : List Arg
  m : ℕ
  f : Fit m
  fac : List (FitAt)
  cs : List Coord
  hcs : coords = some cs
  hsub : gather cs (calIndex S v) = .ok sub
  hcols : gather data (calIndex S v) = .ok cols
  hargs : fitArgs (checkMaxBreaks (segments S).length S.maxBreaks).1 [] i = .ok args
  hfit : fitSegment E S i cols sub args = .ok (some ⟨m, f⟩)
  hfac : spread cols.length (fitNumbers f) = .ok fac
  hout : ∀ (p j : ℕ), (calIndex S v)[p]? = some j → ∃ c r, cols[p]? = some c ∧ data[j]? = some c ∧ fac[p]? = some r ∧
    out.columns[j]? = some (columnOut E.gsw c r)

theorem puts_keys {E : Env} {S : Settings} {mb : List (List ℤ)} {data : List Column} {coords : Option (List Coord)} {iv : ℕ × ℝ}
    {r : SegmentOut} (h : segmentWork E S mb data coords iv = .ok r) : r.puts.map Prod.fst = calIndex S iv.2 := by
  obtain ⟨-, cs, sub, cols, args, m, f, res, -, -, hc, -, -, hs, rfl⟩ := segmentWork_ok h
  obtain ⟨fac, hfac, rfl⟩ := segmentOut_ok hs
  have h1 := (gather_inv hc).1
  have h2 := (spread_ok hfac).1
  apply List.map_fst_zip
  rw [List.length_zipWith, h1, h2, h1, min_self]

theorem numbered_get (S : Settings) (k : ℕ) (iv : ℕ × ℝ) : (numbered S)[k]? = some iv ↔ (segments S)[k]? = some iv.2 ∧ iv.1 = k := by
  unfold numbered
  rw [List.getElem?_map, List.getElem?_zipIdx]
  cases hs : (segments S)[k]? with
  | none => simp
  | some v =>
    obtain ⟨i, w⟩ := iv
    simp only [Option.map_some, Option.some.injEq, Prod.mk.injEq, Nat.zero_add]
    constructor <;> rintro ⟨h1, h2⟩ <;> exact ⟨h2.symm ▸ rfl, h1.symm ▸ rfl⟩

theorem done_with_coef {E : Env} {S : Settings} {data : List Column} {coords : Option (List Coord)} {rs : List SegmentOut}
    (h : (numbered S).mapM (segmentWork E S (checkMaxBreaks (segments S).length S.maxBreaks).1 data coords) = .ok rs) {i : ℕ} {v : ℝ}
    (hv : (segments S)[i]? = some v) : S.breaks = [] ∧
      ∃ D : SegmentDone E S data coords (rs.foldl applySegment ⟨data.map blankColumn, [], []⟩) i v, (rs.map SegmentOut.coef)[i]? = some D.f.coef := by
  obtain ⟨hlen, hget⟩ := mapM_getElem h
  obtain ⟨r, hr, hw⟩ := hget i (i, v) ((numbered_get S i (i, v)).2 ⟨hv, rfl⟩)
  obtain ⟨hb, cs, sub, cols, args, m, f, res, hcs, hsub, hcols, hargs, hfit, hseg, hreq⟩ := segmentWork_ok hw
  obtain ⟨fac, hfac, hres⟩ := segmentOut_ok hseg
  refine ⟨hb, ⟨⟨sub, cols, args, m, f, fac, cs, hcs, hsub, hcols, by rw [hb] at hargs; exact hargs, hfit, hfac, ?_⟩, by rw [List.getElem?_map, hr, hreq]; rfl⟩⟩
  intro p j hp
  obtain ⟨hcl, hcg⟩ := gather_inv hcols
  obtain ⟨c, hc, hd⟩ := hcg p j hp
  obtain ⟨hfl, -, -, -⟩ := spread_ok hfac
  have hplt : p < cols.length := (List.getElem?_eq_some_iff.1 hc).1
  have hrp : fac[p]? = some (fac[p]'(by omega)) := List.getElem?_eq_getElem (by omega)
  refine ⟨c, _, hc, hd, hrp, ?_⟩
  have hzip : res[p]? = some (columnOut E.gsw c (fac[p]'(by omega))) := by
    rw [hres, List.getElem?_zipWith, hc, hrp]
  apply fold_get rs _ j _ i r hr
  · rw [hreq]
    apply List.mem_of_getElem? (i := p)
    rw [List.getElem?_zip_eq_some]
    exact ⟨hp, hzip⟩
  · rw [puts_keys hw]; exact calIndex_nodup S v
  · intro k' r' hk' hne q hq he
    have hk'lt : k' < (numbered S).length := by rw [← hlen]; exact (List.getElem?_eq_some_iff.1 hk').1
    have hnk : (numbered S)[k']? = some (numbered S)[k'] := List.getElem?_eq_getElem hk'lt
    obtain ⟨r2, hr2, hw2⟩ := hget k' _ hnk
    obtain rfl : r' = r2 := Option.some.inj (hk'.symm.trans hr2)
    have hmem : j ∈ calIndex S (numbered S)[k'].2 := by
      rw [← puts_keys hw2, ← he]; exact List.mem_map_of_mem hq
    have h1 := (calIndex_mem S _ j).1 hmem
    have h2 := (calIndex_mem S v j).1 (List.mem_of_getElem? hp)
    have h3 := ((numbered_get S k' _).1 hnk).1
    rw [h1] at h2
    rw [Option.some.inj h2] at h3
    obtain ⟨a, ha⟩ := List.getElem?_eq_some_iff.1 h3
    obtain ⟨b, hb'⟩ := List.getElem?_eq_some_iff.1 hv
    exact hne (((segments_nodup S).getElem_inj_iff).1 (ha.trans hb'.symm))
  · change j < (data.map blankColumn).length
    rw [List.length_map]; exact (List.getElem?_eq_some_iff.1 hd).1

theorem done_of_work {E : Env} {S : Settings} {data : List Column} {coords : Option (List Coord)} {rs : List SegmentOut}
    (h : (numbered S).mapM (segmentWork E S (checkMaxBreaks (segments S).length S.maxBreaks).1 data coords) = .ok rs) {i : ℕ} {v : ℝ}
    (hv : (segments S)[i]? = some v) : S.breaks = [] ∧
      Nonempty (SegmentDone E S data coords (rs.foldl applySegment ⟨data.map blankColumn, [], []⟩) i v) := by
  obtain ⟨h1, D, -⟩ := done_with_coef h hv
  exact ⟨h1, ⟨D⟩⟩

/-- The coefficients of all segments, one after the other. -/
theorem fold_coef (rs : List SegmentOut) (init : CalibFile) : (rs.foldl applySegment init).coef = init.coef ++ (rs.map SegmentOut.coef).flatten := by
  induction rs generalizing init with
  | nil => simp
  | cons r rs ih => rw [List.foldl_cons, ih]; simp [applySegment]

theorem zero_of_work {E : Env} {S : Settings} {data : List Column} {coords : Option (List Coord)} {rs : List SegmentOut}
    (h : (numbered S).mapM (segmentWork E S (checkMaxBreaks (segments S).length S.maxBreaks).1 data coords) = .ok rs) {j : ℕ}
    (hj : ∀ v, S.calseries[j]? = some v → v = 0) :
    (rs.foldl applySegment ⟨data.map blankColumn, [], []⟩).columns[j]? = (data.map blankColumn)[j]? := by
  apply fold_other
  intro r hr q hq he
  obtain ⟨k, hk⟩ := List.getElem?_of_mem hr
  obtain ⟨hlen, hget⟩ := mapM_getElem h
  have hklt : k < (numbered S).length := by rw [← hlen]; exact (List.getElem?_eq_some_iff.1 hk).1
  have hnk : (numbered S)[k]? = some (numbered S)[k] := List.getElem?_eq_getElem hklt
  obtain ⟨r2, hr2, hw2⟩ := hget k _ hnk
  obtain rfl : r = r2 := Option.some.inj (hk.symm.trans hr2)
  have hmem : j ∈ calIndex S (numbered S)[k].2 := by
    rw [← puts_keys hw2, ← he]; exact List.mem_map_of_mem hq
  have h1 := (calIndex_mem S _ j).1 hmem
  have h3 := ((numbered_get S k _).1 hnk).1
  exact ((segments_mem S _).1 (List.mem_of_getElem? h3)).2 (hj _ h1)

end Verif.Piecewise
