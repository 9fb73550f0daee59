import Verif.Lemmas.Shift

/-!
# Lemmas: runs whose dates are moved, and whose depths differ while they are not used, from the casts to the saved file
-/

set_option linter.unusedSectionVars false

namespace Verif.Lemmas.Shift

open Verif.Np Verif.Helper Verif.Region Verif.Profile Verif.Update Verif.Spec Verif.Level Verif.Saf Verif.Utilities Verif.Finders Verif.Stats Verif.Mapping Verif.Topo

/-! ### Depths -/

/-- Equally many depths, and the same ones if they are used. -/
def ZL (pv : ℤ) (z z' : List ℝ) : Prop := z.length = z'.length ∧ (pv = 1 → z = z')

theorem exRel_top_mapM {ι α β : Type} (l : List ι) (f : ι → Except PyErr α) (g : ι → Except PyErr β) (h : ∀ i, ExRel (fun _ _ => True) (f i) (g i)) :
    ExRel (fun _ _ => True) (l.mapM f) (l.mapM g) := by
  induction l with
  | nil => trivial
  | cons a l ih =>
    rw [List.mapM_cons, List.mapM_cons]
    exact ExRel.bind (h a) fun _ _ _ => ExRel.bind ih fun _ _ _ => trivial

theorem readRow_len (file file' : List ℤ) (h : file.length = file'.length) (pos : ℤ) (n : ℕ) : ExRel (fun _ _ => True) (readRow file pos n) (readRow file' pos n) := by
  unfold readRow
  split_ifs
  · rfl
  · apply exRel_top_mapM
    intro j
    rcases lt_or_ge (pos.toNat + j) file.length with hi | hi
    · rw [List.getElem?_eq_getElem hi, List.getElem?_eq_getElem (h ▸ hi)]; trivial
    · rw [List.getElem?_eq_none hi, List.getElem?_eq_none (h ▸ hi)]; rfl

theorem readRows_len (file file' : List ℤ) (h : file.length = file'.length) (a b c d : ℤ) : ExRel (fun _ _ => True) (readRows file a b c d) (readRows file' a b c d) := by
  unfold readRows
  exact ExRel.bind (ExRel.refl (R := fun _ _ => True) (fun _ => trivial) _) fun _ _ _ => exRel_top_mapM _ _ _ fun i => readRow_len file file' h _ _

theorem topoGrid_len (file file' : List ℤ) (h : file.length = file'.length) (a b c d : ℝ) : ExRel (fun _ _ => True) (topoGrid file a b c d) (topoGrid file' a b c d) := by
  unfold topoGrid
  dsimp only
  refine ExRel.bind (R := fun _ _ => True) ?_ fun _ _ _ => trivial
  split_ifs
  · exact ExRel.bind (readRows_len file file' h _ _ _ _) fun _ _ _ => ExRel.bind (readRows_len file file' h _ _ _ _) fun _ _ _ => trivial
  · exact readRows_len file file' h _ _ _ _

/-- The depths are read from the same data, or they are not used and the file has the same size. -/
def SameSea (E E' : Env) : Prop := (E'.topo = E.topo ∧ E'.interp2 = E.interp2) ∨ (E.cfg.usePv ≠ 1 ∧ E.topo.length = E'.topo.length)

theorem floatDepth_rel (E E' : Env) (h : SameSea E E') (lat long : ℝ) : ExRel (fun z z' => E.cfg.usePv = 1 → z = z') (floatDepth E lat long) (floatDepth E' lat long) := by
  unfold floatDepth
  rcases h with ⟨h1, h2⟩ | ⟨h1, h2⟩
  · rw [h1, h2]; exact ExRel.refl (fun _ _ => rfl) _
  · exact ExRel.bind (topoGrid_len _ _ h2 _ _ _ _) fun _ _ _ hc => absurd hc h1

theorem gridDepths_rel (E E' : Env) (h : SameSea E E') (lat long : List (Option ℝ)) : ExRel (ZL E.cfg.usePv) (gridDepths E lat long) (gridDepths E' lat long) := by
  unfold gridDepths
  rcases h with ⟨h1, h2⟩ | ⟨h1, h2⟩
  · rw [h1, h2]; exact ExRel.refl (fun _ => ⟨rfl, fun _ => rfl⟩) _
  · cases lat.mapM id with
    | none => rfl
    | some ys =>
      cases long.mapM id with
      | none => rfl
      | some xs =>
        dsimp only
        cases (xs.map tbase).min? with
        | none => rfl
        | some x0 =>
          cases (xs.map tbase).max? with
          | none => rfl
          | some x1 =>
            cases ys.min? with
            | none => rfl
            | some y0 =>
              cases ys.max? with
              | none => rfl
              | some y1 => exact ExRel.bind (topoGrid_len _ _ h2 _ _ _ _) fun _ _ _ => ⟨by simp, fun hc => absurd hc h1⟩

theorem gather_exRel_len {α β : Type} (l : List α) (l' : List β) (h : l.length = l'.length) (idx : List ℕ) :
    ExRel (fun a b => a.length = b.length) (gather l idx) (gather l' idx) := by
  have : List.Forall₂ (fun (_ : α) (_ : β) => True) l l' := by rw [List.forall₂_iff_get]; exact ⟨h, fun _ _ _ => trivial⟩
  exact (gatherFa_rel this idx).mono fun a b hab => hab.length_eq

theorem gather_ZL {pv : ℤ} {z z' : List ℝ} (h : ZL pv z z') (idx : List ℕ) : ExRel (ZL pv) (gather z idx) (gather z' idx) := by
  by_cases hp : pv = 1
  · rw [h.2 hp]; exact ExRel.refl (fun _ => ⟨rfl, fun _ => rfl⟩) _
  · exact (gather_exRel_len z z' h.1 idx).mono fun a b hab => ⟨hab, fun hc => absurd hc hp⟩

theorem npDelete_ZL {pv : ℤ} {z z' : List ℝ} (h : ZL pv z z') (idx : List ℕ) : ExRel (ZL pv) (npDelete z idx) (npDelete z' idx) := by
  by_cases hp : pv = 1
  · rw [h.2 hp]; exact ExRel.refl (fun _ => ⟨rfl, fun _ => rfl⟩) _
  · unfold npDelete
    rw [h.1]
    split
    · refine ⟨?_, fun hc => absurd hc hp⟩
      have hl : ∀ (l : List ℝ) (is : List ℕ), (∀ i ∈ is, i < l.length) → (is.filterMap fun i => l[i]?).length = is.length := by
        intro l is hi
        induction is with
        | nil => rfl
        | cons i is ih =>
          rw [List.filterMap_cons, List.getElem?_eq_getElem (hi i (by simp))]
          simp [ih (fun j hj => hi j (by simp [hj]))]
      rw [hl, hl]
      · intro i hi; simp at hi; exact hi.1
      · intro i hi; simp at hi; rw [h.1]; exact hi.1
    · rfl

/-! ### The choice of casts -/

/-- Casts with moved dates. -/
def CR (T : ℝ) (pv : ℤ) (c c' : Cast) : Prop := c'.long = c.long ∧ c'.lat = c.lat ∧ c'.date = c.date.map (· + T) ∧ (pv = 1 → c'.z = c.z)

theorem castsOf_rel (T : ℝ) (pv : ℤ) (lat long : List (Option ℝ)) (dates z z' : List ℝ) (h : ZL pv z z') :
    List.Forall₂ (CR T pv) (Profile.castsOf lat long dates z) (Profile.castsOf lat long (dates.map (· + T)) z') := by
  unfold Profile.castsOf
  rw [List.forall₂_iff_get]
  refine ⟨by simp [h.1], ?_⟩
  intro i h1 h2
  simp only [List.get_eq_getElem, List.getElem_map, List.getElem_zip]
  refine ⟨rfl, rfl, rfl, fun hp => ?_⟩
  have := h.2 hp
  subst this
  rfl

section Besthist
variable (T : ℝ) (A : BesthistArgs) (z' : ℝ) (hz : A.mapPvUse = 1 → z' = A.z)

/-- The arguments of the moved call. -/
def moveArgs : BesthistArgs := { A with date := A.date + T, z := z' }

include hz in
theorem pvFloat_moved : pvFloat (moveArgs T A z') = pvFloat A := by
  unfold pvFloat moveArgs
  dsimp only
  split_ifs with h
  · rw [hz h]
  · rfl

theorem pvHist_moved (c c' : Cast) (h : CR T A.mapPvUse c c') : pvHist (moveArgs T A z') c' = pvHist A c := by
  unfold pvHist moveArgs
  dsimp only
  split_ifs with hp
  · rw [h.2.1, h.2.2.2 hp]
  · rfl

include hz in
theorem ellipseOf_moved (c c' : Cast) (h : CR T A.mapPvUse c c') : ellipseOf (moveArgs T A z') c' = ellipseOf A c := by
  unfold ellipseOf
  rw [pvFloat_moved T A z' hz, pvHist_moved T A z' c c' h, h.1, h.2.1]
  rfl

theorem spatial_moved (a b c d e f t u g p q r : ℝ) : spatialCorrelation a b c d e f (t + T) (u + T) g p q r = spatialCorrelation a b c d e f t u g p q r := by
  unfold spatialCorrelation
  rw [add_sub_add_right_eq_sub]

include hz in
theorem corrLarge_moved (c c' : Cast) (h : CR T A.mapPvUse c c') : corrLarge (moveArgs T A z') c' = corrLarge A c := by
  unfold corrLarge
  rw [pvFloat_moved T A z' hz, pvHist_moved T A z' c c' h, h.1, h.2.1, h.2.2.1]
  cases c.long <;> cases c.lat <;> cases c.date <;> try rfl
  simp only [Option.map_some, Option.bind_eq_bind, Option.bind_some, moveArgs, spatial_moved]

include hz in
theorem corrSmall_moved (c c' : Cast) (h : CR T A.mapPvUse c c') : corrSmall (moveArgs T A z') c' = corrSmall A c := by
  unfold corrSmall
  rw [pvFloat_moved T A z' hz, pvHist_moved T A z' c c' h, h.1, h.2.1, h.2.2.1]
  cases c.long <;> cases c.lat <;> cases c.date <;> try rfl
  simp only [Option.map_some, Option.bind_eq_bind, Option.bind_some, moveArgs, spatial_moved]

theorem forall₂_map_eq {α β γ : Type} {R : α → β → Prop} {f : α → γ} {g : β → γ} {l : List α} {l' : List β} (h : List.Forall₂ R l l') (hfg : ∀ a b, R a b → g b = f a) :
    l'.map g = l.map f := by
  induction h with
  | nil => rfl
  | cons hab _ ih => rw [List.map_cons, List.map_cons, ih, hfg _ _ hab]

theorem vectorize_rel {α β γ : Type} {R : α → β → Prop} {f : α → γ} {g : β → γ} {l : List α} {l' : List β} (h : List.Forall₂ R l l') (hfg : ∀ a b, R a b → g b = f a) :
    vectorize g l' = vectorize f l := by
  unfold vectorize
  rw [forall₂_map_eq h hfg]
  cases h <;> simp

include hz in
theorem selectBest_moved (argsort : List (Option ℝ) → List ℕ) (hist hist' : List Cast) (h : List.Forall₂ (CR T A.mapPvUse) hist hist') (idx : List ℕ) (us : List ℝ) :
    selectBest (moveArgs T A z') argsort hist' idx us = selectBest A argsort hist idx us := by
  unfold selectBest
  rw [← h.length_eq]
  have hm : (moveArgs T A z').maxCasts = A.maxCasts := rfl
  rw [hm]
  dsimp only
  rw [← exRel_eq]
  have sw : ∀ {α : Type} {x y : Except PyErr α}, ExRel (· = ·) x y → ExRel (· = ·) y x := fun h => exRel_eq.2 (exRel_eq.1 h).symm
  apply sw
  refine ExRel.bind (gatherFa_rel h _) fun r r' hr => ?_
  rw [vectorize_rel hr (fun a b hab => corrLarge_moved T A z' hz a b hab)]
  refine ExRel.bind (exRel_eq.2 rfl) fun cl cl' hcl => ?_
  subst hcl
  refine ExRel.bind (gatherFa_rel hr _) fun zr zr' hzr => ?_
  rw [hzr.length_eq]
  refine ExRel.bind (gatherFa_rel hzr _) fun sr sr' hsr => ?_
  rw [vectorize_rel hsr (fun a b hab => corrSmall_moved T A z' hz a b hab)]
  exact exRel_eq.2 rfl

include hz in
theorem inside_moved (c c' : Cast) (h : CR T A.mapPvUse c c') : inside (moveArgs T A z') c' = inside A c := by
  unfold inside
  rw [ellipseOf_moved T A z' hz c c' h]

theorem argwhereFrom_rel {α β : Type} {R : α → β → Prop} {p : α → Bool} {q : β → Bool} {l : List α} {l' : List β} (h : List.Forall₂ R l l') (hpq : ∀ a b, R a b → q b = p a) (s : ℕ) :
    argwhereFrom q s l' = argwhereFrom p s l := by
  induction h generalizing s with
  | nil => rfl
  | cons hab _ ih => simp only [argwhereFrom, ih, hpq _ _ hab]

include hz in
theorem findBesthist_moved (argsort : List (Option ℝ) → List ℕ) (rand : ℕ → ℕ → List ℝ) (casts casts' : List Cast) (h : List.Forall₂ (CR T A.mapPvUse) casts casts') :
    findBesthist (moveArgs T A z') argsort rand casts' = findBesthist A argsort rand casts := by
  unfold findBesthist
  have h1 : casts' = [] ↔ casts = [] := by cases h <;> simp
  have h2 : zeroDepth (moveArgs T A z') casts' ↔ zeroDepth A casts := by
    unfold zeroDepth
    refine and_congr_right fun hp => ?_
    have hp : A.mapPvUse = 1 := hp
    constructor
    · rintro ⟨c', hc', hz'⟩
      obtain ⟨c, hc, hr⟩ : ∃ c ∈ casts, CR T A.mapPvUse c c' := by
        clear h1
        induction h with
        | nil => simp at hc'
        | @cons a b _ _ hab _ ih =>
          rcases List.mem_cons.1 hc' with rfl | hc'
          · exact ⟨a, by simp, hab⟩
          · obtain ⟨c, hc, hr⟩ := ih hc'; exact ⟨c, by simp [hc], hr⟩
      exact ⟨c, hc, by rw [← hr.2.2.2 hp]; exact hz'⟩
    · rintro ⟨c, hc, hz'⟩
      obtain ⟨c', hc', hr⟩ : ∃ c' ∈ casts', CR T A.mapPvUse c c' := by
        clear h1
        induction h with
        | nil => simp at hc
        | @cons a b _ _ hab _ ih =>
          rcases List.mem_cons.1 hc with rfl | hc
          · exact ⟨b, by simp, hab⟩
          · obtain ⟨c', hc', hr⟩ := ih hc; exact ⟨c', by simp [hc'], hr⟩
      exact ⟨c', hc', by rw [hr.2.2.2 hp]; exact hz'⟩
  have h3 : indexEllipse (moveArgs T A z') casts' = indexEllipse A casts := argwhereFrom_rel h (fun a b hab => inside_moved T A z' hz a b hab) 0
  have hm : (moveArgs T A z').maxCasts = A.maxCasts := rfl
  have sw : ∀ {α : Type} {x y : Except PyErr α}, ExRel (· = ·) x y → ExRel (· = ·) y x := fun h => exRel_eq.2 (exRel_eq.1 h).symm
  rw [h3, hm]
  by_cases k1 : casts = []
  · rw [if_pos k1, if_pos (h1.2 k1)]
  rw [if_neg k1, if_neg (fun h => k1 (h1.1 h))]
  by_cases k2 : zeroDepth A casts
  · rw [if_pos k2, if_pos (h2.2 k2)]
  rw [if_neg k2, if_neg (fun h => k2 (h2.1 h))]
  dsimp only
  rw [← exRel_eq]
  apply sw
  refine ExRel.bind (gatherFa_rel h _) fun r r' hr => ?_
  by_cases k3 : (indexEllipse A casts).length > A.maxCasts
  · rw [if_pos k3, if_pos k3, selectBest_moved T A z' hz argsort r r' hr]
    exact exRel_eq.2 rfl
  · rw [if_neg k3, if_neg k3]
    exact exRel_eq.2 rfl

end Besthist

/-! ### The front -/

/-- Casts with moved dates and with depths. -/
def GR (T : ℝ) (pv : ℤ) (g g' : SafGrid ℝ) : Prop := g'.data = moveRegion T g.data ∧ ZL pv g.z g'.z

theorem selectCasts_rel (T : ℝ) (pv : ℤ) (g g' : SafGrid ℝ) (h : GR T pv g g') (idx : List ℕ) : ExRel (GR T pv) (selectCasts g idx) (selectCasts g' idx) := by
  unfold selectCasts
  rw [h.1]
  dsimp only [moveRegion]
  have rf : ∀ {α : Type} (x : Except PyErr α), ExRel (· = ·) x x := fun x => exRel_eq.2 rfl
  refine ExRel.bind (rf _) fun a _ h1 => ?_
  subst h1
  refine ExRel.bind (rf _) fun b _ h1 => ?_
  subst h1
  refine ExRel.bind (rf _) fun c _ h1 => ?_
  subst h1
  refine ExRel.bind (rf _) fun d _ h1 => ?_
  subst h1
  refine ExRel.bind (rf _) fun e _ h1 => ?_
  subst h1
  rw [gatherMap_rel]
  refine ExRel.bind (exRel_map _ _) fun f _ h1 => ?_
  subst h1
  exact ExRel.bind (gather_ZL h.2 idx) fun z z' hz => ⟨rfl, hz⟩

theorem gridClasses_moved (T : ℝ) (pv : ℤ) (interp : Interp ℝ) (temperature : Temperature ℝ) (g g' : SafGrid ℝ) (h : GR T pv g g') (crit : ℤ) :
    gridClasses interp temperature g' crit = gridClasses interp temperature g crit := by
  unfold gridClasses
  rw [h.1]
  rfl

theorem applySaf_rel (T : ℝ) (pv : ℤ) (interp : Interp ℝ) (temperature : Temperature ℝ) (s : SafProfiles ℝ) (use : Bool) (g g' : SafGrid ℝ) (h : GR T pv g g') (f : SafFloat ℝ) :
    ExRel (GR T pv) (applySaf interp temperature s use g f) (applySaf interp temperature s use g' f) := by
  have hf : ExRel (GR T pv) (frontalConstraint interp temperature s g f) (frontalConstraint interp temperature s g' f) := by
    unfold frontalConstraint
    split_ifs
    · refine ExRel.bind (exRel_eq.2 rfl) fun c _ h1 => ?_
      subst h1
      rw [gridClasses_moved T pv interp temperature g g' h]
      refine ExRel.bind (exRel_eq.2 rfl) fun cs _ h1 => ?_
      subst h1
      exact selectCasts_rel T pv g g' h _
    · exact h
  unfold applySaf
  split_ifs
  · refine ExRel.bind hf fun a b hab => ?_
    have e : b.data.sal = a.data.sal := by rw [hab.1]; rfl
    rw [e]
    by_cases k1 : (a.data.sal.headD []).length = 0 ∧ a.data.sal.length > 0
    · simp only [if_pos k1]; rfl
    · simp only [if_neg k1]
      by_cases k2 : a.data.sal.length > 5
      · simp only [if_pos k2]; exact hab
      · simp only [if_neg k2]; exact h
  · exact h

/-! ### One profile -/

/-- The environment of the moved run. -/
def moveEnv (E : Env) (m : List Char → List Char) (topo : List ℤ) (interp2 : List ℝ → List ℝ → List (List ℤ) → ℝ → ℝ → ℝ) : Env :=
  { E with disk := redateDisk m E.disk, topo := topo, interp2 := interp2 }

/-- The profile at another date. -/
def moveProfile (T : ℝ) (f : FloatProfile) : FloatProfile := { f with date := f.date + T }

section Run
variable (T : ℝ) (E : Env) (m : List Char → List Char) (topo : List ℤ) (interp2 : List ℝ → List ℝ → List (List ℤ) → ℝ → ℝ → ℝ)
  (hm : MovedBy T m E.disk) (hs : SameSea E (moveEnv E m topo interp2))

include hm hs in
theorem chosenCasts_rel (f : FloatProfile) (lat long z z' : ℝ) (hz : E.cfg.usePv = 1 → z = z') :
    ExRel (GR T E.cfg.usePv) (chosenCasts E f lat long z) (chosenCasts (moveEnv E m topo interp2) (moveProfile T f) lat long z') := by
  unfold chosenCasts
  refine ExRel.bind (R := (· = ·)) (exRel_eq.2 rfl) fun boxes _ h1 => ?_
  subst h1
  refine ExRel.bind (histLocations_moved hm E.name boxes) fun h _ h1 => ?_
  subst h1
  refine ExRel.bind (gridDepths_rel E _ hs _ _) fun gz gz' hgz => ?_
  refine ExRel.bind (R := (· = ·)) (exRel_eq.2 ?_) fun idx _ h1 => ?_
  · exact (findBesthist_moved T (besthistArgs E lat (matchLongitude h.2.1 long) f.date z) z' (fun hp => (hz hp).symm) E.argsort E.rand _ _
      (castsOf_rel T E.cfg.usePv _ _ _ _ _ hgz)).symm
  subst h1
  refine ExRel.bind (regionData_moved hm E.name boxes idx f.pres E.cfg.pDelta) fun d _ h1 => ?_
  subst h1
  exact ExRel.bind (gather_ZL hgz idx) fun bz bz' hbz => applySaf_rel T E.cfg.usePv _ _ _ _ _ _ ⟨rfl, hbz⟩ _

/-- What is prepared, with moved dates. -/
def PR (T : ℝ) (pv : ℤ) (p p' : Prepared) : Prop :=
  p'.pos.lat = p.pos.lat ∧ p'.pos.long = p.pos.long ∧ p'.pos.date = p.pos.date + T ∧ (pv = 1 → p.pos.z = p'.pos.z) ∧ p'.grid.long = p.grid.long ∧ p'.grid.lat = p.grid.lat ∧
    p'.grid.dates = p.grid.dates.map (· + T) ∧ ZL pv p.grid.z p'.grid.z ∧ p'.interpSal = p.interpSal ∧ p'.interpPres = p.interpPres

include hm hs in
theorem prepare_rel (f : FloatProfile) (lat long : ℝ) :
    ExRel (PR T E.cfg.usePv) (prepare E f lat long) (prepare (moveEnv E m topo interp2) (moveProfile T f) lat long) := by
  unfold prepare
  refine ExRel.bind (floatDepth_rel E _ hs lat long) fun z z' hz => ?_
  refine ExRel.bind (chosenCasts_rel T E m topo interp2 hm hs f lat long z z' hz) fun b b' hb => ?_
  rw [hb.1]
  refine ExRel.bind (R := (· = ·)) (exRel_eq.2 rfl) fun s _ h1 => ?_
  subst h1
  exact ⟨rfl, rfl, rfl, hz, rfl, rfl, rfl, hb.2, rfl, rfl⟩

/-- The casts used at a level, with moved dates. -/
def HR (T : ℝ) (pv : ℤ) (h h' : HistData ℝ) : Prop :=
  h'.sal = h.sal ∧ h'.pres = h.pres ∧ h'.long = h.long ∧ h'.lat = h.lat ∧ h'.dates = h.dates.map (· + T) ∧ ZL pv h.z h'.z

theorem processProfileHist_rel (pv : ℤ) (g g' : GridData ℝ) (h1 : g'.long = g.long) (h2 : g'.lat = g.lat) (h3 : g'.dates = g.dates.map (· + T)) (h4 : ZL pv g.z g'.z)
    (pres : List (Option ℝ)) (S P : List (List (Option ℝ))) (n : ℕ) (delta : ℝ) :
    ExRel (HR T pv) (processProfileHist g pres S P n delta) (processProfileHist g' pres S P n delta) := by
  unfold processProfileHist
  rw [h1, h2, h3]
  have rf : ∀ {α : Type} (x : Except PyErr α), ExRel (· = ·) x x := fun x => exRel_eq.2 rfl
  refine ExRel.bind (rf _) fun a _ e => ?_
  subst e
  refine ExRel.bind (rf _) fun a _ e => ?_
  subst e
  refine ExRel.bind (rf _) fun a _ e => ?_
  subst e
  refine ExRel.bind (rf _) fun a _ e => ?_
  subst e
  refine ExRel.bind (rf _) fun a _ e => ?_
  subst e
  rw [gatherMap_rel]
  refine ExRel.bind (exRel_map _ _) fun a _ e => ?_
  subst e
  refine ExRel.bind (gather_ZL h4 _) fun z z' hz => ?_
  refine ExRel.bind (rf _) fun a _ e => ?_
  subst e
  refine ExRel.bind (rf _) fun a _ e => ?_
  subst e
  refine ExRel.bind (rf _) fun a _ e => ?_
  subst e
  refine ExRel.bind (rf _) fun a _ e => ?_
  subst e
  rw [gatherMap_rel]
  refine ExRel.bind (exRel_map _ _) fun a _ e => ?_
  subst e
  exact ExRel.bind (gather_ZL hz _) fun z z' hz => ⟨rfl, rfl, rfl, rfl, rfl, hz⟩

theorem removeOutliers_rel (pv : ℤ) (h h' : HistData ℝ) (hr : HR T pv h h') (o : List ℕ) : ExRel (HR T pv) (removeOutliers o h) (removeOutliers o h') := by
  unfold removeOutliers
  split_ifs
  · obtain ⟨h1, h2, h3, h4, h5, h6⟩ := hr
    rw [h1, h2, h3, h4, h5]
    have rf : ∀ {α : Type} (x : Except PyErr α), ExRel (· = ·) x x := fun x => exRel_eq.2 rfl
    refine ExRel.bind (rf _) fun a _ e => ?_
    subst e
    refine ExRel.bind (rf _) fun a _ e => ?_
    subst e
    refine ExRel.bind (rf _) fun a _ e => ?_
    subst e
    refine ExRel.bind (rf _) fun a _ e => ?_
    subst e
    rw [npDelete_comp]
    refine ExRel.bind (exRel_map _ _) fun a _ e => ?_
    subst e
    exact ExRel.bind (npDelete_ZL h6 o) fun z z' hz => ⟨rfl, rfl, rfl, rfl, rfl, hz⟩
  · exact hr

/-- Positions with moved dates. -/
def XR (T : ℝ) (pv : ℤ) (p p' : Pos) : Prop := p'.c0 = p.c0 ∧ p'.c1 = p.c1 ∧ p'.c2 = p.c2 + T ∧ (pv = 1 → p.c3 = p'.c3)

theorem columnStack_rel (pv : ℤ) (a b c d d' : List ℝ) (h : ZL pv d d') :
    ExRel (List.Forall₂ (XR T pv)) (columnStack a b c d) (columnStack a b (c.map (· + T)) d') := by
  induction a generalizing b c d d' with
  | nil =>
    cases b <;> cases c <;> cases d <;> cases d' <;> first | exact .nil | rfl | (have := h.1; simp at this)
  | cons x a ih =>
    cases b with
    | nil => cases c <;> cases d <;> cases d' <;> first | rfl | (have := h.1; simp at this)
    | cons y b =>
      cases c with
      | nil => cases d <;> cases d' <;> first | rfl | (have := h.1; simp at this)
      | cons t c =>
        cases d with
        | nil => cases d' <;> first | rfl | (have := h.1; simp at this)
        | cons z d =>
          cases d' with
          | nil => have := h.1; simp at this
          | cons z' d' =>
            simp only [List.map_cons, columnStack]
            refine ExRel.bind (ih b c d d' ⟨by simpa using h.1, fun hp => (List.cons.inj (h.2 hp)).2⟩) fun r r' hr => ?_
            exact .cons ⟨rfl, rfl, rfl, fun hp => (List.cons.inj (h.2 hp)).1⟩ hr

theorem covarEntry_moved (S : Scales) (p p' q q' : Pos) (hp : XR T S.pvUse p p') (hq : XR T S.pvUse q q') : covarEntry S p' q' = covarEntry S p q := by
  unfold covarEntry pvTerm
  rw [hp.1, hp.2.1, hp.2.2.1, hq.1, hq.2.1, hq.2.2.1, add_sub_add_right_eq_sub]
  dsimp only
  by_cases h : S.pvUse = 1
  · rw [if_pos h, if_pos h, hp.2.2.2 h, hq.2.2.2 h]
  · rw [if_neg h, if_neg h]

theorem covarXytPv_moved {k n : ℕ} (S : Scales) (p p' : Fin k → Pos) (q q' : Fin n → Pos) (hp : ∀ i, XR T S.pvUse (p i) (p' i)) (hq : ∀ i, XR T S.pvUse (q i) (q' i)) :
    covarXytPv p' q' S = covarXytPv p q S := by
  unfold covarXytPv
  have e1 : (S.pvUse = 1 ∧ ∃ i, (p' i).c3 = 0) ↔ (S.pvUse = 1 ∧ ∃ i, (p i).c3 = 0) := and_congr_right fun h => exists_congr fun i => by rw [(hp i).2.2.2 h]
  have e2 : (S.pvUse = 1 ∧ ∃ i, (q' i).c3 = 0) ↔ (S.pvUse = 1 ∧ ∃ i, (q i).c3 = 0) := and_congr_right fun h => exists_congr fun i => by rw [(hq i).2.2.2 h]
  simp only [e1, e2, fun i j => covarEntry_moved T S (p i) (p' i) (q j) (q' j) (hp i) (hq j)]

theorem mapDataGrid_moved {n : ℕ} (S : Scales) (sal : Fin n → ℝ) (g g' : Pos) (p p' : Fin n → Pos) (hg : XR T S.pvUse g g') (hp : ∀ i, XR T S.pvUse (p i) (p' i)) (signal noise : ℝ) :
    mapDataGrid sal g' p' S signal noise = mapDataGrid sal g p S signal noise := by
  unfold mapDataGrid
  rw [covarXytPv_moved T S p p' p p' hp hp, covarXytPv_moved T S p p' (fun _ : Fin 1 => g) (fun _ => g') hp (fun _ => hg)]

theorem mapStages_moved (c : MapConfig) {n : ℕ} (sal : Fin n → ℝ) (g g' : Pos) (p p' : Fin n → Pos) (hg : XR T c.usePv g g') (hp : ∀ i, XR T c.usePv (p i) (p' i)) (signal noise : ℝ) :
    mapStages c g' sal p' signal noise = mapStages c g sal p signal noise := by
  unfold mapStages
  rw [mapDataGrid_moved T (largeScales c) sal g g' p p' hg hp]
  simp only [mapDataGrid_moved T (smallScales c) _ g g' p p' hg hp]

theorem mapCasts_rel (c : MapConfig) (f f' : FloatPos) (h1 : f'.lat = f.lat) (h2 : f'.long = f.long) (h3 : f'.date = f.date + T) (h4 : c.usePv = 1 → f.z = f'.z)
    (h h' : HistData ℝ) (hr : HR T c.usePv h h') :
    ExRel (fun a b => HR T c.usePv a.1 b.1 ∧ b.2 = a.2) (mapCasts c f h) (mapCasts c f' h') := by
  unfold mapCasts
  rw [hr.1]
  refine ExRel.bind (R := (· = ·)) (exRel_eq.2 rfl) fun s0 _ e => ?_
  subst e
  refine ExRel.bind (removeOutliers_rel T c.usePv h h' hr _) fun k k' hk => ?_
  obtain ⟨k1, k2, k3, k4, k5, k6⟩ := id hk
  have ho : observations k' = observations k := by unfold observations; rw [k1, k3, k4]
  rw [ho, k1]
  refine ExRel.bind (R := (· = ·)) (exRel_eq.2 rfl) fun nv _ e => ?_
  subst e
  refine ExRel.bind (R := (· = ·)) (exRel_eq.2 rfl) fun sg _ e => ?_
  subst e
  rw [k3, k4, k5]
  refine ExRel.bind (columnStack_rel T c.usePv _ _ _ _ _ k6) fun pos pos' hpos => ?_
  have hl := hpos.length_eq
  by_cases hlen : k.sal.length = pos.length
  · rw [if_pos hlen, if_pos (hl ▸ hlen)]
    cases nv with
    | none => rfl
    | some nv =>
      dsimp only
      rw [List.forall₂_iff_get] at hpos
      have key : mapStages c ⟨f'.lat, f'.long, f'.date, f'.z⟩ (fun i : Fin pos'.length => k.sal.getD i 0) (fun i => pos'[(i : ℕ)]) sg nv =
          mapStages c ⟨f.lat, f.long, f.date, f.z⟩ (fun i : Fin pos.length => k.sal.getD i 0) (fun i => pos[(i : ℕ)]) sg nv := by
        have gen : ∀ (q : List Pos) (hq : pos.length = q.length), (∀ i (h₁ : i < pos.length) (h₂ : i < q.length), XR T c.usePv pos[i] q[i]) →
            mapStages c ⟨f'.lat, f'.long, f'.date, f'.z⟩ (fun i : Fin q.length => k.sal.getD i 0) (fun i => q[(i : ℕ)]) sg nv =
              mapStages c ⟨f.lat, f.long, f.date, f.z⟩ (fun i : Fin pos.length => k.sal.getD i 0) (fun i => pos[(i : ℕ)]) sg nv := by
          intro q hq hx
          have h5 : ∀ (N : ℕ) (hN : N = pos.length),
              mapStages c ⟨f.lat, f.long, f.date, f.z⟩ (fun i : Fin N => k.sal.getD i 0) (fun i => pos[(i : ℕ)]'(hN ▸ i.2)) sg nv =
                mapStages c ⟨f.lat, f.long, f.date, f.z⟩ (fun i : Fin pos.length => k.sal.getD i 0) (fun i => pos[(i : ℕ)]) sg nv := by
            intro N hN
            subst hN
            rfl
          rw [← h5 q.length hq.symm]
          exact mapStages_moved T c _ _ _ _ _ ⟨h1, h2, h3, h4⟩ (fun i => hx i (hq.symm ▸ i.2) i.2) sg nv
        exact gen pos' hpos.1 fun i h₁ h₂ => by simpa using hpos.2 i h₁ h₂
      rw [key]
      exact ExRel.bind (R := (· = ·)) (exRel_eq.2 rfl) fun r _ e => ⟨hk, e.symm⟩
  · rw [if_neg hlen, if_neg (hl ▸ hlen)]
    rfl

/-- What a level gives, with moved dates. -/
def OR (T : ℝ) (pv : ℤ) : Option (LevelOut ℝ) → Option (LevelOut ℝ) → Prop
  | none, none => True
  | some o, some o' => o'.values = o.values ∧ HR T pv o.points o'.points
  | _, _ => False

theorem mapLevel_rel (c : MapConfig) (p p' : Prepared) (hp : PR T c.usePv p p') (sal pres : List (Option ℝ)) (n : ℕ) :
    ExRel (fun a b => match a, b with
      | none, none => True
      | some x, some y => HR T c.usePv x.1 y.1 ∧ y.2 = x.2
      | _, _ => False) (mapLevel c p.pos p.grid sal pres p.interpSal p.interpPres n) (mapLevel c p'.pos p'.grid sal pres p'.interpSal p'.interpPres n) := by
  obtain ⟨p1, p2, p3, p4, p5, p6, p7, p8, p9, p10⟩ := hp
  rw [p9, p10]
  unfold mapLevel
  refine ExRel.bind (R := (· = ·)) (exRel_eq.2 rfl) fun s _ e => ?_
  subst e
  refine ExRel.bind (R := (· = ·)) (exRel_eq.2 rfl) fun q _ e => ?_
  subst e
  cases s with
  | none => trivial
  | some s =>
    cases q with
    | none => trivial
    | some q =>
      dsimp only
      split_ifs
      · refine ExRel.bind (processProfileHist_rel T c.usePv p.grid p'.grid p5 p6 p7 p8 pres _ _ n _) fun h h' hh => ?_
        rw [hh.1]
        split_ifs
        · exact ExRel.bind (mapCasts_rel T c p.pos p'.pos p1 p2 p3 p4 h h' hh) fun a b hab => hab
        · trivial
      · trivial

theorem levelOf_rel (f : FloatProfile) (p p' : Prepared) (hp : PR T E.cfg.usePv p p') (n : ℕ) :
    ExRel (OR T E.cfg.usePv) (levelOf E f p n) (levelOf (moveEnv E m topo interp2) (moveProfile T f) p' n) := by
  unfold levelOf
  refine ExRel.bind (mapLevel_rel T E.cfg p p' hp f.sal f.pres n) fun a b hab => ?_
  cases a with
  | none =>
    cases b with
    | none => trivial
    | some y => exact hab.elim
  | some x =>
    cases b with
    | none => exact hab.elim
    | some y =>
      obtain ⟨h, r⟩ := x
      obtain ⟨h', r'⟩ := y
      obtain ⟨h1, h2⟩ := hab
      dsimp only at h1 h2
      subst h2
      exact ExRel.bind (R := (· = ·)) (exRel_eq.2 rfl) fun t _ e => by subst e; exact ⟨rfl, h1⟩

/-- What a profile gives, with moved dates. -/
def FR (T : ℝ) (pv : ℤ) : Option (ℕ → Except PyErr (Option (LevelOut ℝ))) → Option (ℕ → Except PyErr (Option (LevelOut ℝ))) → Prop
  | none, none => True
  | some f, some f' => ∀ n, ExRel (OR T pv) (f n) (f' n)
  | _, _ => False

include hm hs in
theorem profileOf_rel (f : FloatProfile) : ExRel (FR T E.cfg.usePv) (profileOf E f) (profileOf (moveEnv E m topo interp2) (moveProfile T f)) := by
  unfold profileOf
  have hu : usable (moveProfile T f) = usable f := rfl
  rw [hu]
  split_ifs
  · have h1 : (moveProfile T f).lat = f.lat := rfl
    have h2 : (moveProfile T f).long = f.long := rfl
    rw [h1, h2]
    cases f.lat with
    | none => trivial
    | some lat =>
      cases f.long with
      | none => trivial
      | some long =>
        dsimp only
        exact ExRel.bind (prepare_rel T E m topo interp2 hm hs f lat long) fun p p' hp n => levelOf_rel T E m topo interp2 f p p' hp n
  · trivial

end Run

/-! ### The run -/

theorem selected_moved (T : ℝ) (pv : ℤ) (no : ℝ) (sel : List (Selected ℝ)) (h h' : HistData ℝ) (hr : HR T pv h h') :
    selectedHistoricalPoints no sel h' = selectedHistoricalPoints no sel h := by
  unfold selectedHistoricalPoints
  rw [hr.2.2.1, hr.2.2.2.1]

theorem levelLoop_moved (T : ℝ) (pv : ℤ) (cfg : Setting → ℝ) (k : ℕ) (f f' : ℕ → Except PyErr (Option (LevelOut ℝ))) (hf : ∀ n, ExRel (OR T pv) (f n) (f' n)) (ns : List ℕ) (d : Update.Mapped ℝ) :
    levelLoop cfg k f' ns d = levelLoop cfg k f ns d := by
  induction ns generalizing d with
  | nil => rfl
  | cons n ns ih =>
    simp only [levelLoop]
    have h := hf n
    cases h1 : f n with
    | error e =>
      cases h2 : f' n with
      | error e' => rw [h1, h2] at h; rw [show e = e' from h]; rfl
      | ok o' => rw [h1, h2] at h; exact h.elim
    | ok o =>
      cases h2 : f' n with
      | error e' => rw [h1, h2] at h; exact h.elim
      | ok o' =>
        rw [h1, h2] at h
        cases o with
        | none =>
          cases o' with
          | none => exact ih d
          | some o' => exact h.elim
        | some o =>
          cases o' with
          | none => exact h.elim
          | some o' =>
            obtain ⟨hv, hp⟩ : o'.values = o.values ∧ HR T pv o.points o'.points := h
            have hst : storeLevel cfg k n d o' = storeLevel cfg k n d o := by
              unfold storeLevel
              simp only [hv, selected_moved T pv _ _ _ _ hp]
            simp only [bind, Except.bind, hst]
            cases storeLevel cfg k n d o with
            | error e => rfl
            | ok d' => exact ih d'

theorem processProfile_moved (T : ℝ) (pv : ℤ) (cfg : Setting → ℝ) (P P' : Update.Profile ℝ) (hP : ∀ i, ExRel (FR T pv) (P i) (P' i)) (no : List ℝ) (levels : ℕ) (d : Update.Mapped ℝ) (k i : ℕ) :
    processProfile cfg P' no levels d k i = processProfile cfg P no levels d k i := by
  unfold processProfile
  have h := hP i
  cases h1 : P i with
  | error e =>
    cases h2 : P' i with
    | error e' => rw [h1, h2] at h; rw [show e = e' from h]
    | ok o' => rw [h1, h2] at h; exact h.elim
  | ok o =>
    cases h2 : P' i with
    | error e' => rw [h1, h2] at h; exact h.elim
    | ok o' =>
      rw [h1, h2] at h
      cases o with
      | none =>
        cases o' with
        | none => rfl
        | some f' => exact h.elim
      | some f =>
        cases o' with
        | none => exact h.elim
        | some f' =>
          simp only [bind, Except.bind]
          simp only [levelLoop_moved T pv cfg k f f' h]

theorem profileLoop_moved (T : ℝ) (pv : ℤ) (cfg : Setting → ℝ) (P P' : Update.Profile ℝ) (hP : ∀ i, ExRel (FR T pv) (P i) (P' i)) (no : List ℝ) (levels : ℕ) (is : List ℕ) (k : ℕ)
    (d : Update.Mapped ℝ) : profileLoop cfg P' no levels is k d = profileLoop cfg P no levels is k d := by
  induction is generalizing k d with
  | nil => rfl
  | cons i is ih => simp only [profileLoop, processProfile_moved T pv cfg P P' hP, ih]

theorem updateMapping_moved (T : ℝ) (pv : ℤ) (A : RunArgs ℝ) (P' : Update.Profile ℝ) (hP : ∀ i, ExRel (FR T pv) (A.P i) (P' i)) (fs : Fs ℝ) :
    updateMapping { A with P := P' } fs = updateMapping A fs := by
  unfold updateMapping
  simp only [profileLoop_moved T pv A.cfg A.P P' hP]

end Verif.Lemmas.Shift
