import Verif.Spec.Shift
import Verif.Spec.Region
import Verif.Lemmas.Utilities
import Verif.Lemmas.Region
import Verif.Lemmas.Topo
import Verif.Props.Region

/-!
# Lemmas: runs whose dates are moved, and whose depths differ while they are not used
-/

set_option linter.unusedSectionVars false

namespace Verif.Lemmas.Shift

open Verif.Np Verif.Helper Verif.Region Verif.Profile Verif.Update Verif.Spec Verif.Level Verif.Saf Verif.Utilities Verif.Finders Verif.Stats Verif.Mapping Verif.Topo

/-! ### Exceptions -/

/-- The same exception, or related results. -/
def ExRel {α β : Type} (R : α → β → Prop) : Except PyErr α → Except PyErr β → Prop
  | .ok a, .ok b => R a b
  | .error e, .error e' => e = e'
  | _, _ => False

theorem ExRel.bind {α β γ δ : Type} {R : α → β → Prop} {S : γ → δ → Prop} {x : Except PyErr α} {y : Except PyErr β} {f : α → Except PyErr γ} {g : β → Except PyErr δ}
    (h : ExRel R x y) (hf : ∀ a b, R a b → ExRel S (f a) (g b)) : ExRel S (x >>= f) (y >>= g) := by
  cases x <;> cases y
  · exact h
  · exact h.elim
  · exact h.elim
  · exact hf _ _ h

theorem ExRel.refl {α : Type} {R : α → α → Prop} (hr : ∀ a, R a a) (x : Except PyErr α) : ExRel R x x := by
  cases x
  · rfl
  · exact hr _

theorem exRel_eq {α : Type} {x y : Except PyErr α} : ExRel (· = ·) x y ↔ x = y := by
  cases x <;> cases y <;> simp [ExRel]

theorem ExRel.mono {α β : Type} {R S : α → β → Prop} (h : ∀ a b, R a b → S a b) {x : Except PyErr α} {y : Except PyErr β} (hx : ExRel R x y) : ExRel S x y := by
  cases x <;> cases y
  · exact hx
  · exact hx.elim
  · exact hx.elim
  · exact h _ _ hx

theorem exRel_map {α β : Type} (f : α → β) (x : Except PyErr α) : ExRel (fun a b => b = f a) x (x.map f) := by
  cases x <;> rfl

theorem exRel_of_map {α β : Type} {f : α → β} {x : Except PyErr α} {y : Except PyErr β} (h : y = x.map f) : ExRel (fun a b => b = f a) x y := h ▸ exRel_map f x

theorem exmap_bind {α β γ : Type} (g : β → γ) (x : Except PyErr α) (f : α → Except PyErr β) : (x >>= f).map g = x >>= fun a => (f a).map g := by
  cases x <;> rfl

theorem exmap_pure {α β : Type} (g : α → β) (a : α) : Except.map g (pure a : Except PyErr α) = pure (g a) := rfl

/-! ### Lists -/

theorem gatherFa_rel {α β : Type} {R : α → β → Prop} {l : List α} {l' : List β} (h : List.Forall₂ R l l') (idx : List ℕ) :
    ExRel (List.Forall₂ R) (gather l idx) (gather l' idx) := by
  unfold gather
  rw [List.forall₂_iff_get] at h
  induction idx with
  | nil => exact .nil
  | cons i idx ih =>
    rw [List.mapM_cons, List.mapM_cons]
    refine ExRel.bind (R := R) ?_ fun a b hab => ExRel.bind ih fun as bs habs => .cons hab habs
    rcases lt_or_ge i l.length with hi | hi
    · rw [List.getElem?_eq_getElem hi, List.getElem?_eq_getElem (h.1 ▸ hi)]
      exact h.2 i hi (h.1 ▸ hi)
    · rw [List.getElem?_eq_none hi, List.getElem?_eq_none (h.1 ▸ hi)]
      rfl

theorem gatherMap_rel {α β : Type} (g : α → β) (l : List α) (idx : List ℕ) : gather (l.map g) idx = (gather l idx).map (List.map g) := by
  have h := gatherFa_rel (R := fun a b => b = g a) (l := l) (l' := l.map g) (by rw [List.forall₂_map_right_iff, List.forall₂_same]; simp) idx
  cases h1 : gather l idx <;> cases h2 : gather (l.map g) idx <;> rw [h1, h2] at h
  · rw [show _ = _ from h]; rfl
  · exact h.elim
  · exact h.elim
  · refine congrArg _ ?_
    replace h : List.Forall₂ (fun a b => b = g a) _ _ := h
    clear h1 h2
    induction h with
    | nil => rfl
    | cons hab _ ih => exact List.cons_eq_cons.2 ⟨hab, ih ⟩

theorem argwhereFrom_comp {α β : Type} (p : β → Bool) (g : α → β) (l : List α) (s : ℕ) : argwhereFrom p s (l.map g) = argwhereFrom (fun a => p (g a)) s l := by
  induction l generalizing s with
  | nil => rfl
  | cons a l ih => simp only [List.map_cons, argwhereFrom, ih]

theorem argwhere_comp {α β : Type} (p : β → Bool) (g : α → β) (l : List α) : argwhere p (l.map g) = argwhere (fun a => p (g a)) l := argwhereFrom_comp p g l 0

theorem npDelete_comp {α β : Type} (g : α → β) (l : List α) (idx : List ℕ) : npDelete (l.map g) idx = (npDelete l idx).map (List.map g) := by
  unfold npDelete
  rw [List.length_map]
  split
  · simp only [Except.map, List.getElem?_map, List.map_filterMap]
  · rfl

/-! ### Reference data with other dates -/

def redateLoaded (m : List Char → List Char) (L : Loaded ℝ) : Loaded ℝ := ⟨L.casts.map (redate m), L.levels, L.scalar⟩

theorem getData_redate (m : List Char → List Char) (d : Disk ℝ) (name : List Char) (b : WmoBox) (t : ℕ) :
    getData (redateDisk m d) name b t = (getData d name b t).map (Option.map (redateLoaded m)) := by
  unfold getData redateDisk
  cases b.number with
  | none => rfl
  | some n =>
    dsimp only
    by_cases h1 : b.flag t = 1
    · rw [if_pos h1, if_pos h1]
      cases d t n with
      | none => rfl
      | some F =>
        simp only [Option.map_some]
        split_ifs with h2 h3
        · simp [readCtd, redateLoaded, Except.map]
        · unfold readBottle
          simp only [List.length_map]
          split_ifs <;> rfl
        · unfold readArgo
          simp only [List.length_map]
          split_ifs
          · rfl
          · rfl
          · rw [argwhere_comp, npDelete_comp]
            have : (fun a => hasName name (redate m a)) = (hasName name : RefCast ℝ → Bool) := rfl
            rw [this]
            cases npDelete F.casts (argwhere (hasName name) F.casts) <;> rfl
    · rw [if_neg h1, if_neg h1]; rfl

def GoodDates (T : ℝ) (m : List Char → List Char) (l : List (List Char)) : Prop := ∀ s ∈ l, dateValue (K := ℝ) (m s) = dateValue s + T

theorem movedBy_getData {T : ℝ} {m : List Char → List Char} {d : Disk ℝ} (h : MovedBy T m d) (name : List Char) (b : WmoBox) (t : ℕ) (L : Loaded ℝ)
    (hL : getData d name b t = .ok (some L)) : GoodDates T m (L.casts.map (·.date)) := by
  unfold getData at hL
  cases hb : b.number with
  | none => rw [hb] at hL; simp at hL
  | some n =>
    rw [hb] at hL
    dsimp only at hL
    by_cases h1 : b.flag t = 1
    · rw [if_pos h1] at hL
      cases hd : d t n with
      | none => rw [hd] at hL; simp at hL
      | some F =>
        rw [hd] at hL
        have key : ∀ c ∈ L.casts, c ∈ F.casts := by
          dsimp only at hL
          by_cases h2 : t = 1
          · rw [if_pos h2] at hL
            simp [readCtd, Except.map] at hL; subst hL; exact fun c hc => hc
          · rw [if_neg h2] at hL
            by_cases h3 : t = 2
            · rw [if_pos h3] at hL
              unfold readBottle at hL; split_ifs at hL <;> simp [Except.map] at hL; subst hL; exact fun c hc => hc
            · rw [if_neg h3] at hL
              unfold readArgo at hL
              split_ifs at hL
              · simp [Except.map] at hL
              · simp [Except.map] at hL
              · unfold npDelete at hL
                dsimp only at hL
                split_ifs at hL
                · simp [Except.map, bind, Except.bind] at hL
                  subst hL
                  intro c hc
                  simp only [List.mem_filterMap] at hc
                  obtain ⟨i, _, hi⟩ := hc
                  exact List.mem_of_getElem? hi
                · simp [Except.map, bind, Except.bind] at hL
        intro s hs
        obtain ⟨c, hc, rfl⟩ := List.mem_map.1 hs
        have := h t n F hd c (key c hc)
        rwa [Verif.Props.decimalDate_eq, Verif.Props.decimalDate_eq] at this
    · rw [if_neg h1] at hL; simp at hL

theorem changeDates_moved {T : ℝ} {m : List Char → List Char} {l : List (List Char)} (h : GoodDates T m l) :
    changeDates (K := ℝ) (l.map m) = (changeDates l).map (List.map (· + T)) := by
  rw [changeDates_eq, changeDates_eq]
  simp only [Except.map, List.map_map]
  congr 1
  exact List.map_congr_left fun s hs => h s hs

theorem GoodDates.append {T : ℝ} {m : List Char → List Char} {a b : List (List Char)} (ha : GoodDates T m a) (hb : GoodDates T m b) : GoodDates T m (a ++ b) := by
  intro s hs
  rcases List.mem_append.1 hs with h | h
  · exact ha s h
  · exact hb s h

/-- What is loaded, with dates that can be moved. -/
def GoodLoad (T : ℝ) (m : List Char → List Char) (x : Except PyErr (Option (Loaded ℝ))) : Prop := ∀ L, x = .ok (some L) → GoodDates T m (L.casts.map (·.date))

theorem histFold_moved (T : ℝ) (m : List Char → List Char) (loads : List (Except PyErr (Option (Loaded ℝ)))) (hg : ∀ x ∈ loads, GoodLoad T m x) (st : Locations ℝ)
    (hst : GoodDates T m st.2.2) :
    (loads.map fun x => x.map (Option.map (redateLoaded m))).foldl histStep (st.1, st.2.1, st.2.2.map m) =
      ((loads.foldl histStep st).1, (loads.foldl histStep st).2.1, (loads.foldl histStep st).2.2.map m) ∧ GoodDates T m (loads.foldl histStep st).2.2 := by
  induction loads generalizing st with
  | nil => exact ⟨rfl, hst⟩
  | cons x loads ih =>
    rw [List.map_cons, List.foldl_cons, List.foldl_cons]
    have hx := hg x (by simp)
    have hstep : histStep (st.1, st.2.1, st.2.2.map m) (x.map (Option.map (redateLoaded m))) =
        ((histStep st x).1, (histStep st x).2.1, (histStep st x).2.2.map m) ∧ GoodDates T m (histStep st x).2.2 := by
      cases x with
      | error e => exact ⟨rfl, hst⟩
      | ok o =>
        cases o with
        | none => exact ⟨rfl, hst⟩
        | some L =>
          simp only [Except.map, Option.map_some, histStep, redateLoaded]
          cases L.scalar with
          | true => exact ⟨rfl, hst⟩
          | false => exact ⟨by simp [redate, List.map_map, Function.comp_def], hst.append (hx L rfl)⟩
    rw [hstep.1]
    exact ih (fun y hy => hg y (by simp [hy])) (histStep st x) hstep.2

theorem loads_good {T : ℝ} {m : List Char → List Char} {d : Disk ℝ} (h : MovedBy T m d) (name : List Char) (boxes : List WmoBox) :
    (∀ x ∈ (visits boxes).map (fun v => getData d name v.1 v.2), GoodLoad T m x) ∧
      (visits boxes).map (fun v => getData (redateDisk m d) name v.1 v.2) =
        ((visits boxes).map (fun v => getData d name v.1 v.2)).map fun x => x.map (Option.map (redateLoaded m)) := by
  constructor
  · intro x hx
    obtain ⟨v, _, rfl⟩ := List.mem_map.1 hx
    exact fun L hL => movedBy_getData h name v.1 v.2 L hL
  · rw [List.map_map]
    exact List.map_congr_left fun v _ => getData_redate m d name v.1 v.2

theorem histLocations_moved {T : ℝ} {m : List Char → List Char} {d : Disk ℝ} (h : MovedBy T m d) (name : List Char) (boxes : List WmoBox) :
    ExRel (fun a b => b = (a.1, a.2.1, a.2.2.map (· + T))) (histLocations d name boxes) (histLocations (redateDisk m d) name boxes) := by
  unfold histLocations histFrom
  obtain ⟨hg, he⟩ := loads_good h name boxes
  rw [he]
  obtain ⟨h1, h2⟩ := histFold_moved T m _ hg ([], [], []) (by intro s hs; simp at hs)
  dsimp only at h1
  rw [List.map_nil] at h1
  rw [h1]
  dsimp only
  split_ifs
  · rfl
  · rw [changeDates_moved h2]
    exact ExRel.bind (exRel_map _ _) fun a b hb => by rw [hb]; rfl

def moveState (m : List Char → List Char) (st : RegionState ℝ) : RegionState ℝ := { st with dates := st.dates.map m }

theorem castLevels_redate (m : List Char → List Char) (limit : Option ℝ) (c : RefCast ℝ) : castLevels limit (redate m c) = castLevels limit c := rfl

theorem loadCast_moved (m : List Char → List Char) (index : List ℕ) (limit : Option ℝ) (levels : ℕ) (st : RegionState ℝ) (c : RefCast ℝ) (k : ℕ) :
    loadCast index limit levels (moveState m st) (redate m c) k = (loadCast index limit levels st c k).map (moveState m) := by
  unfold loadCast
  split_ifs
  · rfl
  · rw [castLevels_redate]
    simp only [exmap_bind, moveState, redate, exmap_pure, List.map_append, List.map_cons, List.map_nil]
    rfl
  · rfl

theorem loadCast_good_dates (T : ℝ) (m : List Char → List Char) (index : List ℕ) (limit : Option ℝ) (levels : ℕ) (st st' : RegionState ℝ) (c : RefCast ℝ) (k : ℕ)
    (hs : GoodDates T m st.dates) (hc : dateValue (K := ℝ) (m c.date) = dateValue c.date + T) (h : loadCast index limit levels st c k = .ok st') :
    GoodDates T m st'.dates := by
  unfold loadCast at h
  split_ifs at h
  · cases hcl : castLevels limit c with
    | error e => rw [hcl] at h; simp [bind, Except.bind] at h
    | ok v =>
      rw [hcl] at h
      obtain ⟨p, t, s⟩ := v
      simp only [bind, Except.bind] at h
      split at h
      · exact absurd h (by simp)
      · split at h
        · exact absurd h (by simp)
        · split at h
          · exact absurd h (by simp)
          · simp only [pure, Except.pure, Except.ok.injEq] at h
            rw [← h]
            exact hs.append (by intro s' hs'; simp at hs'; rw [hs']; exact hc)
  · simp only [Except.ok.injEq] at h
    rw [← h]; exact hs

theorem loadCasts_moved (T : ℝ) (m : List Char → List Char) (index : List ℕ) (limit : Option ℝ) (levels : ℕ) (cs : List (RefCast ℝ)) (st : RegionState ℝ) (k : ℕ)
    (hs : GoodDates T m st.dates) (hc : GoodDates T m (cs.map (·.date))) :
    loadCasts index limit levels (moveState m st) (cs.map (redate m)) k = moveState m (loadCasts index limit levels st cs k) ∧
      GoodDates T m (loadCasts index limit levels st cs k).dates := by
  induction cs generalizing st k with
  | nil => exact ⟨rfl, hs⟩
  | cons c cs ih =>
    simp only [List.map_cons, loadCasts, loadCast_moved]
    cases h : loadCast index limit levels st c k with
    | error e => exact ⟨rfl, hs⟩
    | ok st' =>
      simp only [Except.map]
      exact ih st' (k + 1) (loadCast_good_dates T m index limit levels st st' c k hs (hc _ (by simp)) h) (fun s hs' => hc s (by simp at hs' ⊢; exact .inr hs'))

theorem regionFold_moved (T : ℝ) (m : List Char → List Char) (index : List ℕ) (limit : Option ℝ) (loads : List (Except PyErr (Option (Loaded ℝ))))
    (hg : ∀ x ∈ loads, GoodLoad T m x) (st : RegionState ℝ) (hst : GoodDates T m st.dates) :
    (loads.map fun x => x.map (Option.map (redateLoaded m))).foldl (regionStep index limit) (moveState m st) =
      moveState m (loads.foldl (regionStep index limit) st) ∧ GoodDates T m (loads.foldl (regionStep index limit) st).dates := by
  induction loads generalizing st with
  | nil => exact ⟨rfl, hst⟩
  | cons x loads ih =>
    rw [List.map_cons, List.foldl_cons, List.foldl_cons]
    have hx := hg x (by simp)
    have hstep : regionStep index limit (moveState m st) (x.map (Option.map (redateLoaded m))) = moveState m (regionStep index limit st x) ∧
        GoodDates T m (regionStep index limit st x).dates := by
      cases x with
      | error e => exact ⟨rfl, hst⟩
      | ok o =>
        cases o with
        | none => exact ⟨rfl, hst⟩
        | some L =>
          simp only [Except.map, Option.map_some, regionStep, redateLoaded]
          cases L.scalar with
          | true => exact ⟨rfl, hst⟩
          | false =>
            simp only [List.length_map]
            exact loadCasts_moved T m index limit L.levels L.casts { st with start := st.start + L.casts.length } st.start hst (hx L rfl)
    rw [hstep.1]
    exact ih (fun y hy => hg y (by simp [hy])) _ hstep.2

def moveRegion (T : ℝ) (r : RegionData ℝ) : RegionData ℝ := { r with dates := r.dates.map (· + T) }

theorem dropFold_moved (T : ℝ) (l : List ℕ) (r : RegionData ℝ) (k : ℕ) :
    l.foldl dropStep (moveRegion T r, k) = (moveRegion T (l.foldl dropStep (r, k)).1, (l.foldl dropStep (r, k)).2) := by
  induction l generalizing r k with
  | nil => rfl
  | cons a l ih =>
    rw [List.foldl_cons, List.foldl_cons]
    have : dropStep (moveRegion T r, k) a = (moveRegion T (dropStep (r, k) a).1, (dropStep (r, k) a).2) := by
      have e : ∀ r : RegionData ℝ, dropStep (r, k) a = if (((r.sal[a - k]?).getD []).all Option.isNone || ((r.pres[a - k]?).getD []).all Option.isNone) = true then
          (⟨r.sal.eraseIdx (a - k), r.ptmp.eraseIdx (a - k), r.pres.eraseIdx (a - k), r.lat.eraseIdx (a - k), r.long.eraseIdx (a - k), r.dates.eraseIdx (a - k)⟩, k + 1)
          else (r, k) := fun _ => rfl
      rw [e, e]
      by_cases hc : (((r.sal[a - k]?).getD []).all Option.isNone || ((r.pres[a - k]?).getD []).all Option.isNone) = true
      · rw [if_pos hc, if_pos (show (((moveRegion T r).sal[a - k]?.getD []).all Option.isNone || ((moveRegion T r).pres[a - k]?.getD []).all Option.isNone) = true from hc)]
        simp [moveRegion, List.eraseIdx_map]
      · rw [if_neg hc, if_neg (show ¬ (((moveRegion T r).sal[a - k]?.getD []).all Option.isNone || ((moveRegion T r).pres[a - k]?.getD []).all Option.isNone) = true from hc)]
    rw [this]
    exact ih _ _

theorem regionData_moved {T : ℝ} {m : List Char → List Char} {d : Disk ℝ} (h : MovedBy T m d) (name : List Char) (boxes : List WmoBox) (index : List ℕ)
    (pres : List (Option ℝ)) (delta : ℝ) :
    ExRel (fun a b => b = moveRegion T a) (regionData d name boxes index pres delta) (regionData (redateDisk m d) name boxes index pres delta) := by
  unfold regionData regionFrom
  obtain ⟨hg, he⟩ := loads_good h name boxes
  rw [he]
  obtain ⟨h1, h2⟩ := regionFold_moved T m index (maxPressure pres delta) _ hg ⟨[], [], [], [], [], [], 0, 0, 0⟩ (by intro s hs; simp at hs)
  have h0 : moveState m ⟨[], [], [], [], [], [], 0, 0, 0⟩ = ⟨[], [], [], [], [], [], 0, 0, 0⟩ := rfl
  rw [h0] at h1
  rw [h1]
  generalize List.foldl (regionStep index (maxPressure pres delta)) _ ((visits boxes).map fun v => getData d name v.1 v.2) = st at *
  dsimp only [moveState]
  split_ifs
  · rfl
  · rw [changeDates_moved h2, changeDates_eq]
    simp only [Except.map, bind, Except.bind, pure, Except.pure]
    show _ = _
    exact congrArg Prod.fst (dropFold_moved T _ ⟨_, _, _, _, _, st.dates.map dateValue⟩ 0)

end Verif.Lemmas.Shift
