import Verif.Props.Saved
import Verif.Spec.Order

/-!
# C161: the order of the casts of a level
-/

set_option linter.unusedSectionVars false

namespace Verif.Props

open Verif.Np Verif.Utilities Verif.Helper Verif.Profile Verif.Spec Verif.Spec.Profile Verif.Level
open Verif.Stats (Obs)

theorem perm_equiv {α : Type} {l l' : List α} (h : l.Perm l') : ∃ e : Fin l.length ≃ Fin l'.length, ∀ i, l'.get (e i) = l.get i := by
  induction h with
  | nil => exact ⟨Equiv.refl _, fun i => rfl⟩
  | @cons x l l' h ih =>
    obtain ⟨e, he⟩ := ih
    refine ⟨(finSuccEquiv l.length).trans ((Equiv.optionCongr e).trans (finSuccEquiv l'.length).symm), ?_⟩
    intro i
    refine Fin.cases ?_ (fun j => ?_) i
    · change (x :: l').get ((finSuccEquiv l'.length).symm (Equiv.optionCongr e (finSuccEquiv l.length 0))) = _
      rw [finSuccEquiv_zero]
      rfl
    · change (x :: l').get ((finSuccEquiv l'.length).symm (Equiv.optionCongr e (finSuccEquiv l.length j.succ))) = _
      rw [finSuccEquiv_succ]
      simpa using he j
  | swap x y l =>
    refine ⟨Equiv.swap ⟨0, by simp⟩ ⟨1, by simp⟩, ?_⟩
    intro i
    refine Fin.cases ?_ (fun j => ?_) i
    · rw [show (0 : Fin (l.length + 1 + 1)) = (⟨0, by simp⟩ : Fin (y :: x :: l).length) from rfl, Equiv.swap_apply_left]; rfl
    · refine Fin.cases ?_ (fun k => ?_) j
      · rw [show (Fin.succ (0 : Fin (l.length + 1))) = (⟨1, by simp⟩ : Fin (y :: x :: l).length) from rfl, Equiv.swap_apply_right]; rfl
      · rw [Equiv.swap_apply_of_ne_of_ne]
        · rfl
        · intro hh; have := congrArg Fin.val hh; simp at this
        · intro hh; have := congrArg Fin.val hh; simp at this
  | trans _ _ ih1 ih2 =>
    obtain ⟨e1, h1⟩ := ih1
    obtain ⟨e2, h2⟩ := ih2
    exact ⟨e1.trans e2, fun i => by rw [Equiv.trans_apply, h2, h1]⟩

theorem populationVariance_perm {l l' : List ℝ} (h : l.Perm l') : populationVariance l = populationVariance l' := by
  unfold populationVariance
  rw [h.sum_eq, h.length_eq]
  congr 1
  exact (h.map _).sum_eq

theorem mseOf_like {n m : ℕ} (rho : FloatPos → FloatPos → ℝ) (s noise : ℝ) (data : Fin n → FloatPos) (data' : Fin m → FloatPos) (g g' : FloatPos)
    (e : Fin n ≃ Fin m) (h : ∀ i j, rho (data' (e i)) (data' (e j)) = rho (data i) (data j)) (h0 : ∀ i, rho (data' (e i)) g' = rho (data i) g)
    (w : Fin m → ℝ) : mseOf rho s noise data g (fun i => w (e i)) = mseOf rho s noise data' g' w := by
  unfold mseOf
  rw [← Equiv.sum_comp e fun j => w j * (s * rho (data' j) g')]
  simp only [h0]
  congr 1
  rw [← Equiv.sum_comp e fun i => ∑ j, w i * (s * rho (data' i) (data' j) + if i = j then noise else 0) * w j]
  refine Finset.sum_congr rfl fun i _ => ?_
  rw [← Equiv.sum_comp e]
  refine Finset.sum_congr rfl fun j _ => ?_
  simp [e.injective.eq_iff, h]

theorem bestWeights_like {n m : ℕ} (rho : FloatPos → FloatPos → ℝ) (s noise : ℝ) (data : Fin n → FloatPos) (data' : Fin m → FloatPos) (g g' : FloatPos)
    (e : Fin n ≃ Fin m) (h : ∀ i j, rho (data' (e i)) (data' (e j)) = rho (data i) (data j)) (h0 : ∀ i, rho (data' (e i)) g' = rho (data i) g)
    (w : Fin m → ℝ) (hb : BestWeights rho s noise data' g' w) : BestWeights rho s noise data g (fun i => w (e i)) := by
  refine ⟨by rw [Equiv.sum_comp e]; exact hb.1, ?_⟩
  intro l' hl'
  rw [mseOf_like rho s noise data data' g g' e h h0]
  have : l' = fun i => (fun j => l' (e.symm j)) (e i) := by funext i; simp
  rw [this, mseOf_like rho s noise data data' g g' e h h0 (fun j => l' (e.symm j))]
  exact hb.2 _ (by rw [Equiv.sum_comp e.symm]; exact hl')

/-- The two stages depend only on the salinities and the correlations, in any order. -/
theorem twoStage_like (c : MapConfig) (here here' : FloatPos) {l l' : List Sample} (e : Fin l.length ≃ Fin l'.length)
    (hs : ∀ i, (l'.get (e i)).sal = (l.get i).sal)
    (h : ∀ x y t p : ℝ, ∀ i j, fieldCorrelation x y t p c.usePv (l'.get (e i)).pos (l'.get (e j)).pos =
      fieldCorrelation x y t p c.usePv (l.get i).pos (l.get j).pos)
    (h0 : ∀ x y t p : ℝ, ∀ i, fieldCorrelation x y t p c.usePv (l'.get (e i)).pos here' = fieldCorrelation x y t p c.usePv (l.get i).pos here)
    (noise value err : ℝ) (ht : TwoStage c here' l' noise value err) : TwoStage c here l noise value err := by
  have a1 := h c.latLarge c.longLarge c.ageLarge c.phiLarge
  have b1 := h0 c.latLarge c.longLarge c.ageLarge c.phiLarge
  have a2 := h c.latSmall c.longSmall c.ageSmall c.phiSmall
  have b2 := h0 c.latSmall c.longSmall c.ageSmall c.phiSmall
  unfold TwoStage at ht ⊢
  generalize fieldCorrelation c.latLarge c.longLarge c.ageLarge c.phiLarge c.usePv = ρ at *
  generalize fieldCorrelation c.latSmall c.longSmall c.ageSmall c.phiSmall c.usePv = σ at *
  obtain ⟨w1, W, res, w2, e1, e2, h1, h2, h3, h4, h5, h6, h7, h8, h9, h10⟩ := ht
  have ofn : ∀ F : Fin l'.length → ℝ, (List.ofFn fun i => F (e i)).Perm (List.ofFn F) := by
    intro F
    have := Multiset.map_univ_val_equiv e
    rw [← Multiset.coe_eq_coe]
    have k1 : ((List.ofFn fun i => F (e i)) : Multiset ℝ) = Multiset.map (fun i => F (e i)) Finset.univ.val := by
      rw [List.ofFn_eq_map]; rfl
    have k2 : ((List.ofFn F : List ℝ) : Multiset ℝ) = Multiset.map F Finset.univ.val := by
      rw [List.ofFn_eq_map]; rfl
    rw [k1, k2, ← this, Multiset.map_map]
    rfl
  have hsig : populationVariance (l.map Sample.sal) = populationVariance (l'.map Sample.sal) := by
    have k : ∀ m : List Sample, m.map Sample.sal = List.ofFn fun i => (m.get i).sal := by
      intro m
      apply List.ext_getElem <;> simp
    rw [k l, k l']
    have : (fun i => (l.get i).sal) = fun i => (fun j => (l'.get j).sal) (e i) := by funext i; exact (hs i).symm
    rw [this]
    exact populationVariance_perm (ofn fun j => (l'.get j).sal)
  have hres : populationVariance (List.ofFn fun i => res (e i)) = populationVariance (List.ofFn res) := populationVariance_perm (ofn res)
  refine ⟨fun i => w1 (e i), fun i j => W (e i) (e j), fun i => res (e i), fun i => w2 (e i), e1, e2, ?_, ?_, ?_, ?_, h5, ?_, h7, ?_, ?_, h10⟩
  · rw [hsig]; exact bestWeights_like ρ _ noise (fun i => (l.get i).pos) (fun j => (l'.get j).pos) here here' e a1 b1 w1 h1
  · intro i
    rw [hsig]
    exact bestWeights_like ρ _ noise (fun i => (l.get i).pos) (fun j => (l'.get j).pos) _ _ e a1 (fun k => a1 k i) (W (e i)) (h2 (e i))
  · intro i
    dsimp only
    rw [h3 (e i), hs, ← Equiv.sum_comp e]
    simp only [hs]
  · rw [hres]
    exact bestWeights_like σ _ noise (fun i => (l.get i).pos) (fun j => (l'.get j).pos) here here' e a2 b2 w2 h4
  · rw [hsig]
    exact h6.trans (mseOf_like ρ _ noise (fun i => (l.get i).pos) (fun j => (l'.get j).pos) here here' e a1 b1 w1).symm
  · rw [hres]
    exact h8.trans (mseOf_like σ _ noise (fun i => (l.get i).pos) (fun j => (l'.get j).pos) here here' e a2 b2 w2).symm
  · rw [h9, ← Equiv.sum_comp e, ← Equiv.sum_comp e fun j => w2 j * res j]
    simp only [hs]

/-- The two stages do not depend on the order of the samples. -/
theorem twoStage_perm (c : MapConfig) (here : FloatPos) {l l' : List Sample} (h : l.Perm l') (noise value err : ℝ)
    (ht : TwoStage c here l' noise value err) : TwoStage c here l noise value err := by
  obtain ⟨e, he⟩ := perm_equiv h
  exact twoStage_like c here here e (fun i => by rw [he]) (fun _ _ _ _ i j => by rw [he, he]) (fun _ _ _ _ i => by rw [he]) noise value err ht

/-- The two stages determine the value and the error. -/
theorem twoStage_unique (c : MapConfig) (here : FloatPos) (l : List Sample) (hl : l ≠ []) (noise : ℝ) (hn : 0 < noise) (v e v' e' : ℝ)
    (h : TwoStage c here l noise v e) (h' : TwoStage c here l noise v' e') : v = v' ∧ e = e' := by
  obtain ⟨w1, W, res, w2, e1, e2, h1, h2, h3, h4, h5, h6, h7, h8, h9, h10⟩ := h
  obtain ⟨w1', W', res', w2', e1', e2', k1, k2, k3, k4, k5, k6, k7, k8, k9, k10⟩ := h'
  have hpos : 0 < l.length := List.length_pos_iff.2 hl
  have g1 := best_large_unique c hpos _ noise (populationVariance_nonneg _) hn _ here w1 w1' h1 k1
  have g2 : W = W' := funext fun i => best_large_unique c hpos _ noise (populationVariance_nonneg _) hn _ _ (W i) (W' i) (h2 i) (k2 i)
  subst g1 g2
  have g3 : res = res' := funext fun i => by rw [h3, k3]
  subst g3
  have g4 := best_small_unique c hpos _ noise (populationVariance_nonneg _) hn _ here w2 w2' h4 k4
  subst g4
  rw [h9, k9, h10, k10, h6, h8, k6, k8]
  exact ⟨rfl, rfl⟩

theorem meanOf_perm {l l' : List ℝ} (h : l.Perm l') : meanOf l = meanOf l' := by
  unfold meanOf
  rw [h.sum_eq, h.length_eq]

theorem inliers_perm {l l' : List Sample} (h : l.Perm l') : (inliers l).Perm (inliers l') := by
  unfold inliers
  rw [meanOf_perm (h.map Sample.sal), populationVariance_perm (h.map Sample.sal)]
  exact h.filter _

/-! ## The noise variance -/

theorem sampleObs_get (l : List Sample) (i : ℕ) (o : Obs ℝ) (h : (sampleObs l)[i]? = some o) :
    ∃ a, l[i]? = some a ∧ o = ⟨some a.sal, some a.pos.lat, some a.pos.long⟩ := by
  unfold sampleObs at h
  rw [List.getElem?_map, Option.map_eq_some_iff] at h
  obtain ⟨a, ha, rfl⟩ := h
  exact ⟨a, ha, rfl⟩

theorem sqDist_apart (a b : Sample) (d : ℝ) :
    SqDist (⟨some a.sal, some a.pos.lat, some a.pos.long⟩ : Obs ℝ) ⟨some b.sal, some b.pos.lat, some b.pos.long⟩ d ↔ d = apart a b := by
  unfold SqDist apart
  constructor
  · rintro ⟨_, _, _, _, h1, h2, h3, h4, h5⟩
    dsimp only at h1 h2 h3 h4
    cases h1; cases h2; cases h3; cases h4
    exact h5
  · rintro rfl
    exact ⟨_, _, _, _, rfl, rfl, rfl, rfl, rfl⟩

theorem nearest_neighbour (l : List Sample) (i j : ℕ) (h : IsNearest (sampleObs l) i j) :
    ∃ a b, l[i]? = some a ∧ l[j]? = some b ∧ Neighbour l a b := by
  obtain ⟨oa, ob, d, h1, h2, h3, h4, h5⟩ := h
  obtain ⟨a, ha, rfl⟩ := sampleObs_get l i oa h1
  obtain ⟨b, hb, rfl⟩ := sampleObs_get l j ob h2
  rw [sqDist_apart] at h3
  subst h3
  refine ⟨a, b, ha, hb, List.mem_of_getElem? hb, h4, ?_⟩
  intro x hx hne
  obtain ⟨k, hk⟩ := List.mem_iff_getElem?.1 hx
  exact (h5 k _ (apart a x) (by unfold sampleObs; rw [List.getElem?_map, hk]; rfl) ((sqDist_apart a x _).2 rfl) hne).1

/-- The salinity of a neighbour. -/
theorem squares_neighbour (l : List Sample) (g : Sample → ℝ) (hg : ∀ a ∈ l, ∀ b, Neighbour l a b → b.sal = g a) (partner : List ℕ)
    (hl : partner.length = (sampleObs l).length) (hp : ∀ i j, partner[i]? = some j → IsNearest (sampleObs l) i j) :
    noiseSquares (sampleObs l) partner = l.map fun a => (a.sal - g a) ^ 2 := by
  have hl' : partner.length = l.length := by rw [hl]; simp [sampleObs]
  unfold noiseSquares
  have e : ((sampleObs l).zip partner) = (l.zip partner).map fun p => (⟨some p.1.sal, some p.1.pos.lat, some p.1.pos.long⟩, p.2) := by
    unfold sampleObs
    rw [List.zip_map_left]
    rfl
  rw [e, List.filterMap_map]
  have e2 : l.map (fun a => (a.sal - g a) ^ 2) = ((l.zip partner).map Prod.fst).map (fun a => (a.sal - g a) ^ 2) := by
    rw [List.map_fst_zip (by omega)]
  rw [e2, List.map_map, ← List.filterMap_eq_map]
  refine List.filterMap_congr ?_
  rintro ⟨a, j⟩ hm
  obtain ⟨i, hi⟩ := List.mem_iff_getElem?.1 hm
  rw [List.getElem?_zip_eq_some] at hi
  obtain ⟨a', b, ha, hb, hab⟩ := nearest_neighbour l i j (hp i j hi.2)
  rw [hi.1] at ha
  obtain rfl := Option.some.inj ha
  have hob : (sampleObs l)[j]? = some ⟨some b.sal, some b.pos.lat, some b.pos.long⟩ := by
    unfold sampleObs
    rw [List.getElem?_map, hb]; rfl
  simp only [Function.comp, hob, Option.bind_some]
  rw [hg a (List.mem_of_getElem? hi.1) b hab]

theorem neighbour_perm {l l' : List Sample} (h : l.Perm l') (a b : Sample) : Neighbour l a b ↔ Neighbour l' a b := by
  unfold Neighbour
  rw [h.mem_iff]
  refine and_congr_right fun _ => and_congr_right fun _ => forall_congr' fun x => ?_
  rw [h.mem_iff]

/-- Without undecided neighbours the noise variance is determined by the samples, in any order. -/
theorem noise_perm {l l' : List Sample} (h : l.Perm l') (hc : ClearNeighbours l) (v v' : ℝ) (hv : IsNoiseVariance (sampleObs l) v)
    (hv' : IsNoiseVariance (sampleObs l') v') : v = v' := by
  have hobs : (sampleObs l).Perm (sampleObs l') := h.map _
  have hco : Coincide (sampleObs l) ↔ Coincide (sampleObs l') := by
    unfold Coincide
    simp only [hobs.mem_iff]
  rcases hv with ⟨c1, v1⟩ | ⟨c1, p, p1, p2, -, p4⟩ <;> rcases hv' with ⟨c2, v2⟩ | ⟨c2, q, q1, q2, -, q4⟩
  · rw [v1, v2]
  · exact absurd (hco.1 c1) c2
  · exact absurd (hco.2 c2) c1
  · classical
    let g : Sample → ℝ := fun a => if hx : ∃ b, Neighbour l a b then hx.choose.sal else 0
    have hg : ∀ a ∈ l, ∀ b, Neighbour l a b → b.sal = g a := by
      intro a ha b hb
      have hx : ∃ b, Neighbour l a b := ⟨b, hb⟩
      change b.sal = dite _ _ _
      rw [dif_pos hx]
      exact hc a ha b _ hb hx.choose_spec
    rw [p4, q4, squares_neighbour l g hg p p1 p2, squares_neighbour l' g (fun a ha b hb => hg a (h.mem_iff.2 ha) b ((neighbour_perm h a b).2 hb)) q q1 q2,
      List.length_map, List.length_map, h.length_eq, (h.map _).sum_eq]

/-- C161. The value mapped at a level, its error, the noise and the signal do not depend on the order of the casts, as long as casts that are equally near to
another cast have the same salinity. -/
theorem level_order (c : MapConfig) (hc : ProperConfig c) (f : FloatPos) (l l' : List Sample) (h : l.Perm l') (pres pres' : List ℝ)
    (hp : pres.length = l.length) (hp' : pres'.length = l'.length) (hz : c.usePv = 1 → f.z ≠ 0 ∧ ∀ a ∈ l, a.pos.z ≠ 0) (hn : ClearNeighbours (inliers l)) :
    (mapCasts c f (arraysOf l pres)).map Prod.snd = (mapCasts c f (arraysOf l' pres')).map Prod.snd := by
  by_cases hne : l = []
  · subst hne
    obtain rfl := h.nil_eq
    simp [arraysOf] at hp hp' ⊢
    rw [hp, hp']
  · have hal : ∀ (k : List Sample) (q : List ℝ), q.length = k.length → HistAligned k.length (arraysOf k q) ∧ Arrays k (arraysOf k q) := by
      intro k q hq
      exact ⟨⟨by simp [arraysOf], by simpa [arraysOf] using hq, by simp [arraysOf], by simp [arraysOf], by simp [arraysOf], by simp [arraysOf]⟩, rfl, rfl, rfl, rfl, rfl⟩
    have hd : ∀ (k : List Sample) (q : List ℝ), l.Perm k → ProperDepths c f (arraysOf k q) := by
      intro k q hk hpv
      obtain ⟨z1, z2⟩ := hz hpv
      refine ⟨z1, ?_⟩
      intro z hzm
      obtain ⟨a, ha, rfl⟩ := List.mem_map.1 hzm
      exact z2 a (hk.mem_iff.2 ha)
    have hne' : l' ≠ [] := by rintro rfl; exact hne h.eq_nil
    obtain ⟨nv, a1, a2, a3, a4⟩ := samples_mapped c hc f l _ (hal l pres hp).1 (hal l pres hp).2 (List.length_pos_iff.2 hne) (hd l pres (List.Perm.refl l))
    obtain ⟨nv', b1, b2, b3, b4⟩ := samples_mapped c hc f l' _ (hal l' pres' hp').1 (hal l' pres' hp').2 (List.length_pos_iff.2 hne') (hd l' pres' h)
    have hin := inliers_perm h
    obtain rfl : nv = nv' := noise_perm hin hn nv nv' a1 b1
    rcases a2.eq_or_lt with h0 | h0
    · rw [a3 h0.symm, b3 h0.symm]
    · obtain ⟨v, e, k, t1, t2⟩ := a4 h0
      obtain ⟨v', e', k', u1, u2⟩ := b4 h0
      have hni : inliers l ≠ [] := by
        intro hnil
        rw [hnil] at t1
        obtain ⟨w1, -, -, -, -, -, g1, -⟩ := t1
        have := g1.1
        simp at this
      obtain ⟨rfl, rfl⟩ := twoStage_unique c f _ hni nv h0 v e v' e' t1 (twoStage_perm c f hin nv v' e' u1)
      rw [t2, u2, populationVariance_perm (hin.map Sample.sal)]
      rfl

/-! ## Examples -/

/-- A sample at the latitude `y` and the longitude 0. -/
def orderSample (s y : ℝ) : Sample := ⟨s, y, 0, 0, 0⟩

/-- Three casts in a row, the middle one twice as far from the third as from the second. -/
noncomputable def orderRow : List Sample := [orderSample 35 0, orderSample 36 1, orderSample 34 (-2)]

theorem apart_orderSample (s y s' y' : ℝ) : apart (orderSample s y) (orderSample s' y') = (y - y') ^ 2 := by
  simp [apart, orderSample]

theorem inliers_few (l : List Sample) (h : l.length ≤ 10) : inliers l = l := by
  classical
  unfold inliers
  rw [List.filter_eq_self]
  intro a ha
  obtain ⟨j, hj⟩ := List.mem_iff_getElem?.1 ha
  have := no_outlier_among_ten (l.map Sample.sal) (by simpa using h) j
  simp only [decide_eq_true_eq]
  by_contra hcon
  exact this ⟨a.sal, by rw [List.getElem?_map, hj]; rfl, not_le.1 hcon⟩

/-- The hypotheses of `level_order` can be met: these casts give the same in any order. -/
example (c : MapConfig) (hc : ProperConfig c) (hpv : c.usePv ≠ 1) (f : FloatPos) :
    (mapCasts c f (arraysOf orderRow [100, 100, 100])).map Prod.snd =
      (mapCasts c f (arraysOf [orderSample 34 (-2), orderSample 36 1, orderSample 35 0] [100, 100, 100])).map Prod.snd := by
  refine level_order c hc f _ _ ?_ _ _ rfl rfl (fun h => absurd h hpv) ?_
  · unfold orderRow
    exact (List.reverse_perm [orderSample 34 (-2), orderSample 36 1, orderSample 35 0])
  · rw [inliers_few _ (by simp [orderRow])]
    intro a ha b b' ⟨h1, h2, h3⟩ ⟨k1, k2, k3⟩
    have e1 := h3 b' k1 k2
    have e2 := k3 b h1 h2
    simp only [orderRow, List.mem_cons, List.not_mem_nil, or_false] at ha h1 k1
    rcases ha with rfl | rfl | rfl <;> rcases h1 with rfl | rfl | rfl <;> rcases k1 with rfl | rfl | rfl <;>
      simp only [apart_orderSample] at e1 e2 h2 k2 <;> first | rfl | (exfalso; revert e1 e2 h2 k2; norm_num)

/-- Three casts in a row at equal distances, and three others. -/
noncomputable def tieRow (s t y : ℝ) : List Sample :=
  [orderSample 35 0, orderSample s y, orderSample t (-y), orderSample 35 10, orderSample 35 11, orderSample 35 13]

theorem tieRow_nearest (s t y : ℝ) (hy : y = 1 ∨ y = -1) (i j : ℕ) (h : IsNearest (sampleObs (tieRow s t y)) i j) : [1, 0, 0, 4, 3, 4][i]? = some j := by
  have hi : i < 6 := by
    obtain ⟨a, b, d, h1, -⟩ := h
    simpa [sampleObs, tieRow] using (List.getElem?_eq_some_iff.1 h1).1
  have key : ∀ (i j : ℕ) (a b : Sample), (tieRow s t y)[i]? = some a → (tieRow s t y)[j]? = some b → apart a b ≠ 0 →
      (∀ (k : ℕ) (x : Sample), (tieRow s t y)[k]? = some x → apart a x ≠ 0 → apart a b ≤ apart a x ∧ (k < j → apart a b < apart a x)) →
      IsNearest (sampleObs (tieRow s t y)) i j := by
    intro i j a b ha hb hne hall
    have get : ∀ (k : ℕ) (x : Sample), (tieRow s t y)[k]? = some x → (sampleObs (tieRow s t y))[k]? = some ⟨some x.sal, some x.pos.lat, some x.pos.long⟩ := by
      intro k x hx
      unfold sampleObs
      rw [List.getElem?_map, hx]; rfl
    refine ⟨_, _, apart a b, get i a ha, get j b hb, (sqDist_apart a b _).2 rfl, hne, ?_⟩
    intro k o e ho he hne'
    obtain ⟨x, hx, rfl⟩ := sampleObs_get _ _ _ ho
    rw [sqDist_apart] at he
    subst he
    exact hall k x hx hne'
  have go : ∀ (i j : ℕ) (a b : Sample), (tieRow s t y)[i]? = some a → (tieRow s t y)[j]? = some b → apart a b ≠ 0 →
      (∀ (k : ℕ) (x : Sample), k < 6 → (tieRow s t y)[k]? = some x → apart a x ≠ 0 → apart a b ≤ apart a x ∧ (k < j → apart a b < apart a x)) →
      IsNearest (sampleObs (tieRow s t y)) i j := by
    intro i j a b ha hb hne hall
    exact key i j a b ha hb hne fun k x hx => hall k x (by simpa [tieRow] using (List.getElem?_eq_some_iff.1 hx).1) hx
  have hall : IsNearest (sampleObs (tieRow s t y)) i ([1, 0, 0, 4, 3, 4].getD i 0) := by
    rcases hy with rfl | rfl <;> interval_cases i <;>
      refine go _ _ _ _ rfl rfl (by simp only [apart_orderSample]; norm_num) ?_ <;> intro k x hk hx hne <;> interval_cases k <;>
      (obtain rfl := Option.some.inj hx
       simp only [apart_orderSample] at hne ⊢
       revert hne
       norm_num)
  rw [isNearest_unique h hall]
  interval_cases i <;> rfl

theorem tieRow_noise (s t y v : ℝ) (hy : y = 1 ∨ y = -1) (h : IsNoiseVariance (sampleObs (tieRow s t y)) v) :
    v = (2 * (s - 35) ^ 2 + (t - 35) ^ 2) / 12 := by
  rcases h with ⟨h, -⟩ | ⟨-, p, p1, p2, -, rfl⟩
  · have := h ⟨some 35, some 0, some 0⟩ (by simp [sampleObs, tieRow, orderSample]) ⟨some 35, some 10, some 0⟩ (by simp [sampleObs, tieRow, orderSample])
    obtain ⟨_, _, _, _, h1, h2, h3, h4, h5⟩ := this
    cases h1; cases h2; cases h3; cases h4
    norm_num at h5
  · have hp : p = [1, 0, 0, 4, 3, 4] := by
      apply List.ext_getElem?
      intro i
      cases hi : p[i]? with
      | none =>
        rw [List.getElem?_eq_none_iff] at hi
        rw [p1] at hi
        rw [eq_comm, List.getElem?_eq_none_iff]
        simpa [sampleObs, tieRow] using hi
      | some j => exact (tieRow_nearest s t y hy i j (p2 i j hi)).symm
    subst hp
    simp [noiseSquares, sampleObs, tieRow, orderSample]
    ring

/-- C161. With casts that are equally near to another one but differ in salinity, the order matters: the noise of one list of casts differs from that of the
same casts in another order. -/
theorem level_order_matters (c : MapConfig) (hc : ProperConfig c) (hpv : c.usePv ≠ 1) (f : FloatPos) :
    ∃ (l l' : List Sample) (pres : List ℝ) (r r' : HistData ℝ × LevelResult), l.Perm l' ∧ l.length = 6 ∧ pres.length = 6 ∧
      mapCasts c f (arraysOf l pres) = .ok r ∧ mapCasts c f (arraysOf l' pres) = .ok r' ∧ r.2.noise ≠ r'.2.noise := by
  have run : ∀ s t y : ℝ, (y = 1 ∨ y = -1) → s ≠ 35 → ∃ r : HistData ℝ × LevelResult, mapCasts c f (arraysOf (tieRow s t y) [1, 1, 1, 1, 1, 1]) = .ok r ∧
      r.2.noise = some ((2 * (s - 35) ^ 2 + (t - 35) ^ 2) / 12) := by
    intro s t y hy hs
    obtain ⟨nv, a1, -, -, a4⟩ := samples_mapped c hc f (tieRow s t y) (arraysOf (tieRow s t y) [1, 1, 1, 1, 1, 1]) ⟨rfl, rfl, rfl, rfl, rfl, rfl⟩
      ⟨rfl, rfl, rfl, rfl, rfl⟩ (by simp [tieRow]) (fun h => absurd h hpv)
    rw [inliers_few _ (by simp [tieRow])] at a1 a4
    obtain rfl := tieRow_noise s t y nv hy a1
    have : s - 35 ≠ 0 := sub_ne_zero.2 hs
    obtain ⟨v, e, k, -, t2⟩ := a4 (by positivity)
    exact ⟨_, t2, rfl⟩
  obtain ⟨r, r1, r2⟩ := run 36 37 1 (.inl rfl) (by norm_num)
  obtain ⟨r', k1, k2⟩ := run 37 36 (-1) (.inr rfl) (by norm_num)
  refine ⟨tieRow 36 37 1, tieRow 37 36 (-1), [1, 1, 1, 1, 1, 1], r, r', ?_, rfl, rfl, r1, k1, ?_⟩
  · unfold tieRow
    rw [neg_neg]
    exact (List.Perm.swap _ _ _).cons _
  · rw [r2, k2]
    norm_num

end Verif.Props
