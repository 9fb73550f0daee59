import Verif.Lemmas.Np
import Verif.Model.Plots
import Verif.Spec.Plots
import Mathlib.Tactic.Linarith
import Mathlib.Tactic.FieldSimp
import Mathlib.Tactic.Ring
import Mathlib.Data.List.Sort

/-!
# Lemmas about the plots
-/

set_option linter.unusedSectionVars false

namespace Verif.Plots

open Verif.Np Verif.Spec

variable {K : Type} [Field K] [LinearOrder K] [IsStrictOrderedRing K] [FloorRing K]

theorem firstOfEach_spec (l : List (K × Option K)) (hs : l.Pairwise fun a b => a.1 ≤ b.1) :
    (firstOfEach l).Sublist l ∧ (firstOfEach l).Pairwise (fun a b => a.1 < b.1) ∧ (∀ q, (firstOfEach l).head? = some q → l.head? = some q) := by
  induction l using firstOfEach.induct with
  | case1 a b l hab ih =>
    rw [firstOfEach, if_pos hab]
    obtain ⟨h1, h2⟩ := List.pairwise_cons.1 hs
    obtain ⟨g1, g2, g3⟩ := ih (List.pairwise_cons.2 ⟨fun c hc => h1 c (by simp [hc]), (List.pairwise_cons.1 h2).2⟩)
    exact ⟨g1.trans (List.Sublist.cons_cons a (List.sublist_cons_self b l)), g2, fun q hq => by simpa using g3 q hq⟩
  | case2 a b l hab ih =>
    rw [firstOfEach, if_neg hab]
    obtain ⟨h1, h2⟩ := List.pairwise_cons.1 hs
    obtain ⟨g1, g2, g3⟩ := ih h2
    refine ⟨g1.cons_cons a, List.pairwise_cons.2 ⟨fun c hc => ?_, g2⟩, fun q hq => by simpa using hq⟩
    have hc' := g1.subset hc
    have hab' : a.1 < b.1 := lt_of_le_of_ne (h1 b (by simp)) hab
    rcases List.mem_cons.1 hc' with rfl | hc'
    · exact hab'
    · exact lt_of_lt_of_le hab' ((List.pairwise_cons.1 h2).1 c hc')
  | case3 l hl =>
    match l, hl with
    | [], _ => simp [firstOfEach]
    | [a], _ => simp [firstOfEach]
    | a :: b :: l, hl => exact absurd rfl (hl a b l)

theorem firstOfEach_strict (l : List (K × Option K)) (hs : l.Pairwise fun a b => a.1 < b.1) : firstOfEach l = l := by
  induction l using firstOfEach.induct with
  | case1 a b l hab ih =>
    have := (List.pairwise_cons.1 hs).1 b (by simp)
    exact absurd hab this.ne
  | case2 a b l hab ih =>
    rw [firstOfEach, if_neg hab, ih (List.pairwise_cons.1 hs).2]
  | case3 l hl =>
    match l, hl with
    | [], _ => simp [firstOfEach]
    | [a], _ => simp [firstOfEach]
    | a :: b :: l, hl => exact absurd rfl (hl a b l)

theorem interpSorted_between (pts : List (K × K)) (x : K) (hsort : pts.Pairwise fun a b => a.1 < b.1) (hlen : 2 ≤ pts.length)
    (hhead : ∀ q, pts.head? = some q → q.1 ≤ x) (hlast : ∃ q ∈ pts, x ≤ q.1) :
    ∃ v, Thetas.interpSorted pts x = some v ∧ BetweenPoints pts x v := by
  induction pts with
  | nil => simp at hlen
  | cons a rest ih =>
    cases rest with
    | nil => simp at hlen
    | cons b rest =>
      have ha := hhead a rfl
      obtain ⟨hs1, hs2⟩ := List.pairwise_cons.1 hsort
      have hab : a.1 < b.1 := hs1 b (by simp)
      by_cases hx : x ≤ b.1
      · refine ⟨a.2 + (b.2 - a.2) / (b.1 - a.1) * (x - a.1), ?_, a, by simp, b, by simp, hab, ha, hx, ?_, ?_⟩
        · obtain ⟨a1, a2⟩ := a
          obtain ⟨b1, b2⟩ := b
          unfold Thetas.interpSorted
          rw [if_pos hx]
        · intro q hq
          rcases List.mem_cons.1 hq with rfl | hq
          · exact Or.inl le_rfl
          rcases List.mem_cons.1 hq with rfl | hq
          · exact Or.inr le_rfl
          · exact Or.inr ((List.pairwise_cons.1 hs2).1 q hq).le
        · have hne : b.1 - a.1 ≠ 0 := ne_of_gt (by linarith)
          field_simp
          ring
      · have hx' := not_le.1 hx
        have hlast' : ∃ q ∈ b :: rest, x ≤ q.1 := by
          obtain ⟨q, hq, hxq⟩ := hlast
          rcases List.mem_cons.1 hq with rfl | hq
          · exact absurd hxq (not_le.2 (by linarith))
          · exact ⟨q, hq, hxq⟩
        have hlen' : 2 ≤ (b :: rest).length := by
          cases rest with
          | nil =>
            obtain ⟨q, hq, hxq⟩ := hlast'
            simp only [List.mem_cons, List.not_mem_nil, or_false] at hq
            subst hq
            exact absurd hxq hx
          | cons c r => simp
        obtain ⟨v, h1, q1, m1, q2, m2, h2, h3, h4, h5, h6⟩ := ih hs2 hlen'
          (by intro q hq; simp only [List.head?_cons, Option.some.injEq] at hq; rw [← hq]; exact hx'.le) hlast'
        refine ⟨v, ?_, q1, List.mem_cons_of_mem _ m1, q2, List.mem_cons_of_mem _ m2, h2, h3, h4, ?_, h6⟩
        · obtain ⟨a1, a2⟩ := a
          obtain ⟨b1, b2⟩ := b
          unfold Thetas.interpSorted
          rw [if_neg hx]; exact h1
        · intro q hq
          rcases List.mem_cons.1 hq with rfl | hq
          · exact Or.inl (hs1 q1 m1).le
          · exact h5 q hq

theorem interpFill_spec (pts : List (K × K)) (x : K) (hsort : pts.Pairwise fun a b => a.1 < b.1) (hlen : 2 ≤ pts.length) :
    (¬ InRange pts x → interpFill pts x = none) ∧ (InRange pts x → ∃ v, interpFill pts x = some v ∧ BetweenPoints pts x v) := by
  unfold interpFill
  cases hh : pts.head? with
  | none => rw [List.head?_eq_none_iff] at hh; rw [hh] at hlen; simp at hlen
  | some lo =>
    cases hl : pts.getLast? with
    | none => rw [List.getLast?_eq_none_iff] at hl; rw [hl] at hlen; simp at hlen
    | some hi =>
      simp only
      have hlo : lo ∈ pts := List.mem_of_head? hh
      have hhi : hi ∈ pts := List.mem_of_getLast? hl
      have hmin : ∀ q ∈ pts, lo.1 ≤ q.1 := by
        intro q hq
        cases pts with
        | nil => simp at hq
        | cons a r =>
          simp only [List.head?_cons, Option.some.injEq] at hh
          subst hh
          rcases List.mem_cons.1 hq with rfl | hq
          · exact le_rfl
          · exact ((List.pairwise_cons.1 hsort).1 q hq).le
      have hmax : ∀ q ∈ pts, q.1 ≤ hi.1 := by
        intro q hq
        obtain ⟨i, hi', rfl⟩ := List.getElem_of_mem hq
        rw [List.getLast?_eq_getElem?] at hl
        obtain ⟨hl1, hl2⟩ := List.getElem?_eq_some_iff.1 hl
        rcases Nat.lt_or_ge i (pts.length - 1) with h | h
        · have := List.pairwise_iff_getElem.1 hsort i (pts.length - 1) hi' hl1 h
          rw [hl2] at this
          exact this.le
        · have : i = pts.length - 1 := by omega
          subst this
          rw [hl2]
      have hiff : InRange pts x ↔ ¬ (x < lo.1 ∨ hi.1 < x) := by
        constructor
        · rintro ⟨⟨a, ha, hax⟩, b, hb, hbx⟩ hc
          rcases hc with hc | hc
          · have := hmin a ha; linarith
          · have := hmax b hb; linarith
        · intro hc
          push Not at hc
          exact ⟨⟨lo, hlo, hc.1⟩, hi, hhi, hc.2⟩
      constructor
      · intro hn
        rw [if_pos (by by_contra hc; exact hn (hiff.2 hc))]
      · intro hin
        rw [if_neg (hiff.1 hin)]
        refine interpSorted_between pts x hsort hlen (fun q hq => ?_) hin.2
        rw [hh] at hq
        obtain rfl := Option.some.inj hq
        exact le_of_not_gt fun hc => (hiff.1 hin) (Or.inl hc)

/-- The points used, for a sort that keeps to its contract. -/
theorem anomPoints_spec (argsort : List (Option K) → List ℕ) (hs : IsArgsort argsort) (prof : List (TS K)) :
    ∃ pts, anomPoints argsort prof = .ok pts ∧ pts.Pairwise (fun a b => a.1 < b.1) ∧ (∀ q ∈ pts, q ∈ tsPoints prof) ∧
      (DistinctTemps prof → pts.Perm (tsPoints prof)) := by
  haveI : Inhabited K := ⟨0⟩
  obtain ⟨hperm, hsorted⟩ := hs (prof.map Prod.fst)
  have hlt : ∀ i ∈ argsort (prof.map Prod.fst), i < prof.length := by
    intro i hi
    have := hperm.mem_iff.1 hi
    simpa using this
  obtain ⟨sorted, hg, hsort, hpm⟩ : ∃ sorted, gather prof (argsort (prof.map Prod.fst)) = .ok sorted ∧
      sorted.Pairwise (fun a b => NpLe a.1 b.1) ∧ sorted.Perm prof := by
    refine ⟨_, gather_ok _ _ hlt, ?_, ?_⟩
    · rw [List.pairwise_map]
      refine hsorted.imp_of_mem fun {i j} hi hj h => ?_
      have hi' := hlt i hi
      have hj' := hlt j hj
      rw [getElem!_pos prof i hi', getElem!_pos prof j hj']
      exact h _ _ (by rw [List.getElem?_map, List.getElem?_eq_getElem hi']; rfl) (by rw [List.getElem?_map, List.getElem?_eq_getElem hj']; rfl)
    · refine ((hperm.map fun i => prof[i]!).trans ?_)
      rw [List.length_map, map_getElem!_range]
  let measured : List (K × Option K) := sorted.filterMap fun p => p.1.map fun t => (t, p.2)
  have hm1 : measured.Pairwise fun a b => a.1 ≤ b.1 := by
    rw [List.pairwise_filterMap]
    refine hsort.imp fun {p q} h => ?_
    intro a ha b hb
    obtain ⟨t, ht, rfl⟩ := Option.map_eq_some_iff.1 ha
    obtain ⟨u, hu, rfl⟩ := Option.map_eq_some_iff.1 hb
    rw [ht, hu] at h
    exact h
  obtain ⟨f1, f2, -⟩ := firstOfEach_spec measured hm1
  have hpts : ∀ l : List (K × Option K), (l.Pairwise fun a b => a.1 < b.1) → (l.filterMap fun p => p.2.map fun s => (p.1, s)).Pairwise fun a b => a.1 < b.1 := by
    intro l hl
    rw [List.pairwise_filterMap]
    refine hl.imp fun {p q} h => ?_
    intro a ha b hb
    obtain ⟨t, ht, rfl⟩ := Option.map_eq_some_iff.1 ha
    obtain ⟨u, hu, rfl⟩ := Option.map_eq_some_iff.1 hb
    exact h
  have hcomp : (measured.filterMap fun p => p.2.map fun s => (p.1, s)).Perm (tsPoints prof) := by
    have : (measured.filterMap fun p => p.2.map fun s => (p.1, s)) = tsPoints sorted := by
      unfold tsPoints
      simp only [measured, List.filterMap_filterMap]
      congr 1
      funext p
      obtain ⟨a, b⟩ := p
      cases a <;> cases b <;> rfl
    rw [this]
    exact hpm.filterMap _
  refine ⟨_, ?_, hpts _ f2, ?_, ?_⟩
  · unfold anomPoints
    rw [hg]
    rfl
  · intro q hq
    exact hcomp.mem_iff.1 ((f1.filterMap _).subset hq)
  · intro hd
    have hstrict : measured.Pairwise fun a b => a.1 < b.1 := by
      have hnd : (measured.map Prod.fst).Nodup := by
        have h1 : measured.map Prod.fst = sorted.filterMap Prod.fst := by
          simp only [measured, List.map_filterMap]
          congr 1
          funext p
          obtain ⟨a, b⟩ := p
          cases a <;> rfl
        rw [h1]
        exact ((hpm.filterMap Prod.fst).nodup_iff).2 hd
      have h2 := List.pairwise_map.1 hnd
      exact (hm1.and h2).imp fun {a b} h => lt_of_le_of_ne h.1 h.2
    rw [firstOfEach_strict measured hstrict]
    exact hcomp

theorem between_unique {pts pts' : List (K × K)} (hmem : ∀ q, q ∈ pts ↔ q ∈ pts') (hfun : ∀ q ∈ pts, ∀ q' ∈ pts, q.1 = q'.1 → q = q') {x v v' : K}
    (h : BetweenPoints pts x v) (h' : BetweenPoints pts' x v') : v = v' := by
  obtain ⟨a, ha, b, hb, hab, h1, h2, h3, h4⟩ := h
  obtain ⟨a', ha', b', hb', hab', h1', h2', h3', h4'⟩ := h'
  rw [← hmem] at ha' hb'
  have at_left : ∀ (p q : K × K) (w : K), p.1 < q.1 → (w - p.2) * (q.1 - p.1) = (q.2 - p.2) * (p.1 - p.1) → w = p.2 := by
    intro p q w hpq he
    rw [sub_self, mul_zero] at he
    rcases mul_eq_zero.1 he with e | e
    · linarith
    · exact absurd e (sub_ne_zero.2 hpq.ne')
  have at_right : ∀ (p q : K × K) (w : K), p.1 < q.1 → (w - p.2) * (q.1 - p.1) = (q.2 - p.2) * (q.1 - p.1) → w = q.2 := by
    intro p q w hpq he
    have := mul_right_cancel₀ (sub_ne_zero.2 hpq.ne') he
    linarith
  rcases h3 a' ha' with e1 | e1
  · rcases h3' a ((hmem a).1 ha) with e2 | e2
    · have : a = a' := hfun a ha a' ha' (le_antisymm e2 e1)
      subst this
      rcases h3 b' hb' with e3 | e3
      · linarith
      · rcases h3' b ((hmem b).1 hb) with e4 | e4
        · linarith
        · have : b = b' := hfun b hb b' hb' (le_antisymm e3 e4)
          subst this
          have := h4.trans h4'.symm
          have := mul_right_cancel₀ (sub_ne_zero.2 hab.ne') this
          linarith
    · -- b' ≤ a: so x = b'.1 = a.1
      have hx : x = a.1 := le_antisymm (h2'.trans e2) h1
      have hx' : x = b'.1 := le_antisymm h2' (e2.trans h1)
      have : a = b' := hfun a ha b' hb' (by rw [← hx, ← hx'])
      subst this
      rw [hx] at h4 h4'
      rw [at_left a b v hab h4, at_right a' a v' hab' h4']
  · -- b ≤ a'
    have hx : x = b.1 := le_antisymm h2 (e1.trans h1')
    have hx' : x = a'.1 := le_antisymm (h2.trans e1) h1'
    have : b = a' := hfun b hb a' ha' (by rw [← hx, ← hx'])
    subst this
    rw [hx] at h4 h4'
    rw [at_right a b v hab h4, at_left b b' v' hab' h4']

theorem median_some (vs : List K) (h : vs ≠ []) : ∃ m, median vs = some m := by
  unfold median
  have hl : (vs.insertionSort (· ≤ ·)).length = vs.length := List.length_insertionSort _ _
  have h0 : 0 < vs.length := List.length_pos_iff.2 h
  simp only [hl]
  rw [if_neg (by omega)]
  split_ifs with h1
  · exact ⟨_, List.getElem?_eq_getElem (by omega)⟩
  · rw [List.getElem?_eq_getElem (by omega : vs.length / 2 - 1 < (vs.insertionSort (· ≤ ·)).length),
      List.getElem?_eq_getElem (by omega : vs.length / 2 < (vs.insertionSort (· ≤ ·)).length)]
    exact ⟨_, rfl⟩

theorem count_le_of_sorted (s : List K) (m : K) (k : ℕ) (hk : k ≤ s.length) (h : ∀ (i : ℕ) (hi : i < s.length), i < k → s[i] ≤ m) :
    k ≤ (s.filter fun v => decide (v ≤ m)).length := by
  have h1 : ((s.take k).filter fun v => decide (v ≤ m)) = s.take k := by
    rw [List.filter_eq_self]
    intro a ha
    obtain ⟨i, hi, rfl⟩ := List.mem_take_iff_getElem.1 ha
    simpa using h i (by omega) (by omega)
  have h2 := ((List.take_sublist k s).filter fun v => decide (v ≤ m)).length_le
  rw [h1, List.length_take] at h2
  omega

theorem count_ge_of_sorted (s : List K) (m : K) (k : ℕ) (h : ∀ (i : ℕ) (hi : i < s.length), k ≤ i → m ≤ s[i]) :
    s.length - k ≤ (s.filter fun v => decide (m ≤ v)).length := by
  have h1 : ((s.drop k).filter fun v => decide (m ≤ v)) = s.drop k := by
    rw [List.filter_eq_self]
    intro a ha
    obtain ⟨i, hi, rfl⟩ := List.getElem_of_mem ha
    rw [List.getElem_drop]
    rw [List.length_drop] at hi
    simpa using h (k + i) (by omega) (by omega)
  have h2 := ((List.drop_sublist k s).filter fun v => decide (m ≤ v)).length_le
  rw [h1, List.length_drop] at h2
  omega

theorem median_balanced (vs : List K) (m : K) (h : median vs = some m) : Balanced vs m := by
  unfold median at h
  have hperm := List.perm_insertionSort (· ≤ ·) vs
  have hsort : (vs.insertionSort (· ≤ ·)).Pairwise (· ≤ ·) := List.pairwise_insertionSort (· ≤ ·) vs
  generalize vs.insertionSort (· ≤ ·) = s at h hperm hsort
  have e1 : ∀ p : K → Bool, (vs.filter p).length = (s.filter p).length := fun p => (hperm.filter p).length_eq.symm
  unfold Balanced
  rw [e1, e1, ← hperm.length_eq]
  have mono : ∀ (i j : ℕ) (hi : i < s.length) (hj : j < s.length), i ≤ j → s[i] ≤ s[j] := by
    intro i j hi hj hij
    rcases hij.lt_or_eq with h | rfl
    · exact List.pairwise_iff_getElem.1 hsort i j hi hj h
    · exact le_rfl
  simp only at h
  split_ifs at h with h0 h1
  · obtain ⟨hn, rfl⟩ := List.getElem?_eq_some_iff.1 h
    have a := count_le_of_sorted s s[s.length / 2] (s.length / 2 + 1) (by omega) (fun i hi hik => mono _ _ _ _ (by omega))
    have b := count_ge_of_sorted s s[s.length / 2] (s.length / 2) (fun i hi hik => mono _ _ _ _ (by omega))
    constructor <;> omega
  · have q1 : s.length / 2 - 1 < s.length := by omega
    have q2 : s.length / 2 < s.length := by omega
    rw [List.getElem?_eq_getElem q1, List.getElem?_eq_getElem q2] at h
    simp only [Option.some.injEq] at h
    have hle := mono _ _ q1 q2 (by omega)
    have m1 : s[s.length / 2 - 1] ≤ m := by rw [← h]; linarith
    have m2 : m ≤ s[s.length / 2] := by rw [← h]; linarith
    have a := count_le_of_sorted s m (s.length / 2) (by omega) (fun i hi hik => (mono _ _ _ q1 (by omega)).trans m1)
    have b := count_ge_of_sorted s m (s.length / 2) (fun i hi hik => m2.trans (mono _ _ q2 _ (by omega)))
    constructor <;> omega

theorem median_shift (vs : List K) (c : K) : median (vs.map (· + c)) = (median vs).map (· + c) := by
  have hs : (vs.map (· + c)).insertionSort (· ≤ ·) = (vs.insertionSort (· ≤ ·)).map (· + c) := by
    apply List.Perm.eq_of_pairwise (le := (· ≤ · : K → K → Prop))
    · intro a b _ _ h1 h2; exact le_antisymm h1 h2
    · exact List.pairwise_insertionSort (· ≤ ·) _
    · rw [List.pairwise_map]
      exact (List.pairwise_insertionSort (· ≤ ·) vs).imp fun h => by simpa using h
    · exact (List.perm_insertionSort _ _).trans ((List.perm_insertionSort _ _).symm.map _)
  unfold median
  simp only [hs, List.length_map, List.getElem?_map]
  split_ifs
  · rfl
  · rfl
  · cases (vs.insertionSort (· ≤ ·))[(vs.insertionSort (· ≤ ·)).length / 2 - 1]? with
    | none => rfl
    | some a =>
      cases (vs.insertionSort (· ≤ ·))[(vs.insertionSort (· ≤ ·)).length / 2]? with
      | none => rfl
      | some b =>
        simp only [Option.map_some, Option.some.injEq]
        ring

theorem anomRow_ok (argsort : List (Option K) → List ℕ) (data : List (List (TS K))) (theta : K) (r : List (Option K))
    (h : anomRow argsort data theta = .ok r) :
    ∃ row, data.mapM (fun prof => anomValue argsort prof theta) = .ok row ∧
      ((∀ v ∈ row, v = none) ∧ r = row ∨ ∃ m, median (row.filterMap id) = some m ∧ r = row.map fun v => v.map fun x => x - m) := by
  unfold anomRow at h
  cases hr : data.mapM (fun prof => anomValue argsort prof theta) with
  | error e => rw [hr] at h; simp [bind, Except.bind] at h
  | ok row =>
    rw [hr] at h
    simp only [bind, Except.bind] at h
    refine ⟨row, rfl, ?_⟩
    cases hm : median (row.filterMap id) with
    | none =>
      rw [hm] at h
      simp only [pure, Except.pure, Except.ok.injEq] at h
      have hnil : row.filterMap id = [] := by
        by_contra hc
        obtain ⟨m, hm'⟩ := median_some _ hc
        rw [hm] at hm'; simp at hm'
      have hall : ∀ v ∈ row, v = none := by
        intro v hv
        cases v with
        | none => rfl
        | some x =>
          have : x ∈ row.filterMap id := List.mem_filterMap.2 ⟨some x, hv, rfl⟩
          rw [hnil] at this; simp at this
      refine Or.inl ⟨hall, ?_⟩
      rw [← h]
      conv_rhs => rw [← List.map_id row]
      exact List.map_congr_left fun v hv => (hall v hv).symm
    | some m =>
      rw [hm] at h
      simp only [pure, Except.pure, Except.ok.injEq] at h
      exact Or.inr ⟨m, rfl, h.symm⟩

theorem gather_map {α β : Type} (f : α → β) (l : List α) (idx : List ℕ) :
    gather (l.map f) idx = (gather l idx).map (List.map f) := by
  unfold gather
  induction idx with
  | nil => rfl
  | cons i idx ih =>
    rw [List.mapM_cons, List.mapM_cons, ih, List.getElem?_map]
    cases l[i]? with
    | none => rfl
    | some a =>
      simp only [Option.map_some, bind, Except.bind, pure, Except.pure]
      cases List.mapM (fun i => match l[i]? with
        | some x => Except.ok x
        | none => Except.error PyErr.indexError) idx with
      | error e => rfl
      | ok r => rfl

theorem firstOfEach_map (c : K) (l : List (K × Option K)) :
    firstOfEach (l.map fun p => (p.1, p.2.map (· + c))) = (firstOfEach l).map fun p => (p.1, p.2.map (· + c)) := by
  induction l using firstOfEach.induct with
  | case1 a b l hab ih =>
    simp only [List.map_cons] at ih ⊢
    rw [firstOfEach, if_pos hab, ih, firstOfEach, if_pos hab]
  | case2 a b l hab ih =>
    simp only [List.map_cons] at ih ⊢
    rw [firstOfEach, if_neg hab, ih, firstOfEach, if_neg hab]
    rfl
  | case3 l hl =>
    match l, hl with
    | [], _ => simp [firstOfEach]
    | [a], _ => simp [firstOfEach]
    | a :: b :: l, hl => exact absurd rfl (hl a b l)

theorem interpSorted_shift (c : K) (pts : List (K × K)) (x : K) :
    Thetas.interpSorted (pts.map fun p => (p.1, p.2 + c)) x = (Thetas.interpSorted pts x).map (· + c) := by
  induction pts with
  | nil => rfl
  | cons a rest ih =>
    cases rest with
    | nil => rfl
    | cons b rest =>
      obtain ⟨a1, a2⟩ := a
      obtain ⟨b1, b2⟩ := b
      simp only [List.map_cons] at ih ⊢
      unfold Thetas.interpSorted
      split_ifs
      · simp only [Option.map_some, Option.some.injEq]
        ring
      · exact ih

theorem anomValue_shift (argsort : List (Option K) → List ℕ) (prof : List (TS K)) (c theta : K) :
    anomValue argsort (shiftSal c prof) theta = (anomValue argsort prof theta).map (Option.map (· + c)) := by
  unfold anomValue anomPoints shiftSal
  rw [gather_map, List.map_map]
  change (do let pts ← (do let sorted ← (gather prof (argsort (prof.map Prod.fst))).map _; _); _) = _
  cases gather prof (argsort (prof.map Prod.fst)) with
  | error e => rfl
  | ok sorted =>
    simp only [Except.map, bind, Except.bind, pure, Except.pure]
    have e1 : (sorted.map fun p : TS K => (p.1, p.2.map (· + c))).filterMap (fun p => p.1.map fun t => (t, p.2)) =
        (sorted.filterMap fun p => p.1.map fun t => (t, p.2)).map fun p : K × Option K => (p.1, p.2.map (· + c)) := by
      rw [List.filterMap_map, List.map_filterMap]
      congr 1
      funext p
      obtain ⟨a, b⟩ := p
      cases a <;> rfl
    rw [e1, firstOfEach_map]
    have e2 : ∀ l : List (K × Option K), (l.map fun p => (p.1, p.2.map (· + c))).filterMap (fun p => p.2.map fun s => (p.1, s)) =
        (l.filterMap fun p => p.2.map fun s => (p.1, s)).map fun p : K × K => (p.1, p.2 + c) := by
      intro l
      rw [List.filterMap_map, List.map_filterMap]
      congr 1
      funext p
      obtain ⟨a, b⟩ := p
      cases b <;> rfl
    rw [e2, List.length_map]
    congr 1
    split_ifs
    · unfold interpFill
      rw [List.head?_map, List.getLast?_map]
      generalize List.filterMap (fun p => Option.map (fun s => (p.1, s)) p.2) (firstOfEach (List.filterMap (fun p => Option.map (fun t => (t, p.2)) p.1) sorted)) = pts
      cases pts.head? with
      | none => rfl
      | some lo =>
        cases pts.getLast? with
        | none => rfl
        | some hi =>
          simp only [Option.map_some]
          split_ifs
          · rfl
          · exact interpSorted_shift c pts theta
    · rfl

end Verif.Plots
