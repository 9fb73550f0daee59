import Verif.Props.OrderRun
import Verif.Props.SavedExample

/-!
# A concrete case for C162

The reference data of `ProfileWorld` with the six casts of one file in the opposite order.
-/

set_option linter.unusedSectionVars false
set_option maxRecDepth 4000

namespace Verif.Props.Turned

open Verif.Np Verif.Helper Verif.Region Verif.Profile Verif.Update Verif.Spec Verif.Spec.Profile Verif.Level Verif.Finders
open Verif.Lemmas.Profile Verif.Utilities Verif.Saf Verif.Topo

/-- Six casts on the latitude of the float. -/
noncomputable def wSix (x0 : ℝ) : List (RefCast ℝ) :=
  [wCast (x0 + 5) 5 35.01, wCast (x0 + 4) 5 35, wCast (x0 + 3) 5 35.01, wCast (x0 + 2) 5 35, wCast (x0 + 1) 5 35.01, wCast x0 5 35]

noncomputable def wDisk (x0 e : ℝ) (n0 n1 : ℤ) : Disk ℝ := fun t n =>
  if t = 1 ∧ n = n0 then some ⟨wSix x0, 2⟩ else if t = 1 ∧ n = n1 then some ⟨wTwo e, 2⟩ else none

noncomputable def wEnv (x0 e : ℝ) (n0 n1 : ℤ) : Env where
  topo := wTopo
  table := wTable
  disk := wDisk x0 e n0 n1
  name := "3901960".toList
  saf := ⟨[], [], [], [], [], [], [], [], []⟩
  cfg := wConfig
  maxCasts := 100
  useSaf := 0
  interp2 := Verif.Lemmas.Depth.grid2
  argsort := fun l => stableArgsort (K := WithTop ℝ) l
  rand := fun _ k => List.replicate k 0
  interp := scan
  temperature := fun _ _ ptmp _ _ => ptmp

theorem wEnv_topo (x0 e : ℝ) (n0 n1 : ℤ) : (wEnv x0 e n0 n1).topo.length = 2160 * 4320 := by
  rw [show (wEnv x0 e n0 n1).topo = wTopo from rfl]
  exact wTopo_length

theorem wDisk_wellFormed (x0 e : ℝ) (n0 n1 : ℤ) : WellFormedDisk (wDisk x0 e n0 n1) := by
  intro t n f h
  unfold wDisk at h
  split_ifs at h
  · obtain rfl := Option.some.inj h
    simp [wSix, wCast]
  · obtain rfl := Option.some.inj h
    simp [wTwo, wCast]

theorem wBoxes_eq (x0 e F : ℝ) (n0 n1 cx : ℤ) (hx : 0 ≤ F ∧ F ≤ 360) (h1 : 10 * (cx : ℝ) < F + 0.01) (h2 : F + 0.01 ≤ 10 * (cx : ℝ) + 10) :
    boxesAt (wEnv x0 e n0 n1) F 5 = .ok (wBoxes cx) := by
  unfold boxesAt
  rw [show (wEnv x0 e n0 n1).table = wTable from rfl,
    boxes_are_neighbours wTable (by simp [wTable]) F 5 cx 0 ⟨by linarith [hx.1], by linarith [hx.2]⟩ h1 h2 (by norm_num) (by norm_num)]
  simp only [bind, Except.bind, pure, Except.pure, List.map_map]
  congr 1
  apply List.map_congr_left
  intro r hr
  have hlt : r < 648 := by
    unfold cells25 at hr
    simp only [List.mem_flatMap, List.mem_map] at hr
    obtain ⟨_, _, _, _, rfl⟩ := hr
    exact wmoRow_lt _ _
  simp [wTable, hlt]

theorem wCasts_open (x0 e : ℝ) : refCasts (wDisk x0 e 170 186) "3901960".toList (wBoxes 10) = wSix x0 ++ wTwo e := rfl

/-- The longitudes of the six casts. -/
noncomputable def wLongs (x0 : ℝ) : List ℝ := [x0 + 5, x0 + 4, x0 + 3, x0 + 2, x0 + 1, x0]

/-- What the two worlds have in common. -/
structure WorldOk (x0 e e' F : ℝ) (n0 n1 cx : ℤ) : Prop where
  boxes : boxesAt (wEnv x0 e n0 n1) F 5 = .ok (wBoxes cx)
  casts : refCasts (wDisk x0 e n0 n1) "3901960".toList (wBoxes cx) = wSix x0 ++ wTwo e
  wrap : wrapLongitude ((wSix x0 ++ wTwo e).map (·.long)) = (wLongs x0 ++ [e', e']).map some
  wrapSix : wrapLongitude ((wSix x0).map (·.long)) = (wLongs x0).map some
  matching : matchLongitude ((wLongs x0 ++ [e', e']).map some) F = x0 + 14
  range : 0 ≤ x0 ∧ x0 ≤ 500 ∧ 0 ≤ e' ∧ e' ≤ 540 ∧ 0 ≤ F ∧ F ≤ 360

/-- The reference data chosen. -/
noncomputable def wRegion (x0 : ℝ) : RegionData ℝ :=
  ⟨(wSix x0).map (·.sal), (wSix x0).map (·.ptmp), (wSix x0).map (·.pres), (wSix x0).map (·.lat), (wLongs x0).map some, (wSix x0).map decimalDate⟩

theorem wRegion_eq (x0 : ℝ) (hw : wrapLongitude ((wSix x0).map (·.long)) = (wLongs x0).map some) :
    regionResult (some 1250) (wSix x0) = wRegion x0 := by
  have hd : depthOf (some 1250) (wSix x0) = 2 := by
    simp [depthOf, wSix, wUsable]
  unfold regionResult
  rw [hw, hd]
  dsimp only
  have hk : ((wSix x0).zip ((wLongs x0).map some)).filter (fun p => @decide (HasData (some 1250) p.1) (Classical.propDecidable _)) =
      (wSix x0).zip ((wLongs x0).map some) := by
    rw [List.filter_eq_self]
    intro p hp
    have hm := (List.of_mem_zip hp).1
    simp only [decide_eq_true_eq]
    simp only [wSix, List.mem_cons, List.not_mem_nil, or_false] at hm
    rcases hm with h | h | h | h | h | h <;> rw [h] <;> exact wHasData _ _ _
  rw [hk]
  simp only [wRegion, wSix, wLongs, columnOf, wUsable, List.map_cons, List.map_nil, List.zip_cons_cons, List.zip_nil_left]
  rfl

theorem wChosen (x0 e e' F z : ℝ) (n0 n1 cx : ℤ) (h : WorldOk x0 e e' F n0 n1 cx) :
    ∃ bz : List ℝ, bz.length = 6 ∧ chosenCasts (wEnv x0 e n0 n1) (wFloat F) 5 F z = .ok ⟨wRegion x0, bz⟩ := by
  obtain ⟨r1, r2, r3, r4, r5, r6⟩ := h.range
  have hist := (hist_locations_spec (wDisk x0 e n0 n1) (wDisk_wellFormed _ _ _ _) "3901960".toList (wBoxes cx)).2
    (by rw [h.casts]; simp [wSix])
  rw [h.casts, h.wrap] at hist
  have hlat : (wSix x0 ++ wTwo e).map (·.lat) = ([5, 5, 5, 5, 5, 5, 28, 28] : List ℝ).map some := rfl
  rw [hlat] at hist
  obtain ⟨gz, hgz, hlen⟩ := grid_depths_defined (wEnv x0 e n0 n1) (wEnv_topo x0 e n0 n1) [5, 5, 5, 5, 5, 5, 28, 28] (wLongs x0 ++ [e', e'])
    (by simp [wLongs]) (by simp)
    (by intro y hy; simp only [List.mem_cons, List.not_mem_nil, or_false, or_self] at hy
        rcases hy with rfl | rfl | rfl | rfl | rfl | rfl | rfl <;> norm_num)
    (by intro x hx
        simp only [wLongs, List.cons_append, List.nil_append, List.mem_cons, List.not_mem_nil, or_false] at hx
        rcases hx with rfl | rfl | rfl | rfl | rfl | rfl | rfl | rfl <;> constructor <;> linarith)
  obtain ⟨g0, g1, g2, g3, g4, g5, g6, g7, rfl⟩ : ∃ g0 g1 g2 g3 g4 g5 g6 g7, gz = [g0, g1, g2, g3, g4, g5, g6, g7] := by
    match gz, hlen with
    | [g0, g1, g2, g3, g4, g5, g6, g7], _ => exact ⟨_, _, _, _, _, _, _, _, rfl⟩
  set casts := Verif.Profile.castsOf (([5, 5, 5, 5, 5, 5, 28, 28] : List ℝ).map some) ((wLongs x0 ++ [e', e']).map some)
    ((wSix x0 ++ wTwo e).map decimalDate) [g0, g1, g2, g3, g4, g5, g6, g7] with hcasts
  have hin : ∀ (x y : ℝ) (t : Option ℝ) (g : Option ℝ), InEllipse (besthistArgs (wEnv x0 e n0 n1) 5 (x0 + 14) (wFloat F).date z) ⟨some x, some y, t, g⟩ ↔
      ((x - (x0 + 14)) / 24) ^ 2 + ((y - 5) / 12) ^ 2 < 1 := by
    intro x y t g
    unfold InEllipse besthistArgs wEnv wConfig
    norm_num
  obtain ⟨out, o1, o2, o3⟩ := besthist_few_returns_all (besthistArgs (wEnv x0 e n0 n1) 5 (x0 + 14) (wFloat F).date z)
    (wEnv x0 e n0 n1).argsort (wEnv x0 e n0 n1).rand casts (by rw [hcasts]; exact List.cons_ne_nil _ _)
    (by intro h; change (0 : ℤ) = 1 at h; norm_num at h)
    (le_trans List.countP_le_length (show casts.length ≤ 100 by simp [hcasts, Verif.Profile.castsOf, wLongs, wSix, wTwo]))
  have hout : out = [0, 1, 2, 3, 4, 5] := by
    refine sorted_ext _ _ o2 (by simp) ?_
    intro i
    rw [o3]
    rcases i with _ | _ | _ | _ | _ | _ | _ | _ | i <;>
      simp only [hcasts, Verif.Profile.castsOf, wLongs, wSix, wTwo, List.cons_append, List.nil_append, List.map_cons, List.map_nil, List.zip_cons_cons, List.zip_nil_left,
        List.getElem?_cons_zero, List.getElem?_cons_succ, List.getElem?_nil, Nat.zero_add, Option.some.injEq, exists_eq_left', hin, reduceCtorEq, false_and, exists_false]
    all_goals (try norm_num)
    all_goals (try omega)
    all_goals (try (nlinarith [sq_nonneg ((e' - (x0 + 14)) / 24)]))
  subst hout
  have hsel : chosen [0, 1, 2, 3, 4, 5] (refCasts (wDisk x0 e n0 n1) "3901960".toList (wBoxes cx)) = wSix x0 := by
    rw [h.casts]; rfl
  have hreg := region_data_spec (wDisk x0 e n0 n1) (wDisk_wellFormed _ _ _ _) "3901960".toList (wBoxes cx) [0, 1, 2, 3, 4, 5] (wFloat F).pres 250
    _ _ hsel (by rw [wLimit, wUsable]; simp)
  rw [wLimit, hsel, wRegion_eq x0 h.wrapSix] at hreg
  refine ⟨[g0, g1, g2, g3, g4, g5], rfl, ?_⟩
  unfold chosenCasts
  rw [h.boxes]
  simp only [bind, Except.bind]
  rw [show histLocations (wEnv x0 e n0 n1).disk (wEnv x0 e n0 n1).name (wBoxes cx) = _ from hist]
  dsimp only
  rw [hgz]
  dsimp only
  rw [h.matching, ← hcasts, o1]
  dsimp only
  rw [show regionData (wEnv x0 e n0 n1).disk (wEnv x0 e n0 n1).name (wBoxes cx) [0, 1, 2, 3, 4, 5] (wFloat F).pres (wEnv x0 e n0 n1).cfg.pDelta = _
    from hreg]
  rfl

/-- The salinities of the six casts. -/
noncomputable def wSals : List ℝ := [35.01, 35, 35.01, 35, 35.01, 35]

theorem wStation (x0 s : ℝ) (c : ℕ) (hs : wSals[c]? = some s) :
    station (toGrid (wRegion x0).sal) (toGrid (wRegion x0).ptmp) (toGrid (wRegion x0).pres) c = [⟨s, 10, 900⟩, ⟨s, 0, 1100⟩] := by
  rcases c with _ | _ | _ | _ | _ | _ | c
  all_goals first
    | (obtain rfl := Option.some.inj hs; rfl)
    | (simp [wSals] at hs)

theorem wInterp (x0 F : ℝ) : ∃ S P, Interp.interpClimatology (toGrid (wRegion x0).sal) (toGrid (wRegion x0).ptmp) (toGrid (wRegion x0).pres)
      (floatLevels (wFloat F)) = .ok (S, P) ∧ ∀ (c : ℕ) (s : ℝ), wSals[c]? = some s → S 1 c = some s ∧ P 1 c = some 1000 := by
  have hshape : SameShape (toGrid (wRegion x0).sal) (toGrid (wRegion x0).ptmp) (toGrid (wRegion x0).pres) := ⟨rfl, rfl, rfl, rfl⟩
  have hcols : (toGrid (wRegion x0).sal).cols = 6 := rfl
  have hall : ∀ c < 6, ∃ s, wSals[c]? = some s := by
    intro c hc
    rw [List.getElem?_eq_getElem (by simpa [wSals] using hc)]
    exact ⟨_, rfl⟩
  cases hr : Interp.interpClimatology (toGrid (wRegion x0).sal) (toGrid (wRegion x0).ptmp) (toGrid (wRegion x0).pres) (floatLevels (wFloat F)) with
  | error e =>
    exfalso
    obtain ⟨-, h0 | ⟨-, fs, v, fp, hm, h1 | ⟨c, hc, -, h2⟩⟩⟩ := (interp_fails_iff _ _ _ hshape _ _).1 hr
    · rw [hcols] at h0; norm_num at h0
    · have := h1 0 (by rw [hcols]; norm_num)
      rw [wStation x0 35.01 0 rfl] at this
      simp at this
    · rw [hcols] at hc
      obtain ⟨s, hs⟩ := hall c hc
      rw [wStation x0 s c hs] at h2
      have e1 := h2 _ List.mem_cons_self
      have e2 := h2 _ (List.mem_cons_of_mem _ List.mem_cons_self)
      dsimp only at e1 e2
      linarith
  | ok r =>
    obtain ⟨S, P⟩ := r
    refine ⟨S, P, rfl, ?_⟩
    intro c s hs
    have hc : c < 6 := by
      have := (List.getElem?_eq_some_iff.1 hs).1
      simpa [wSals] using this
    have key := (interp_spec _ _ _ hshape _ S P hr 1 ⟨some 35, some 5, some 1000⟩ rfl c (by rw [hcols]; exact hc)).2 35 5 1000 rfl
    rw [wStation x0 s c hs] at key
    have hx : ∀ k w s' p', Crossing [⟨s, 10, 900⟩, ⟨s, 0, 1100⟩] (5 : ℝ) k w s' p' → s' = s ∧ p' = 1000 := by
      rintro k w s' p' ⟨a, b, ha, hb, -, -, -, hv, h1, h2⟩
      rcases k with _ | _ | k
      · obtain rfl := Option.some.inj ha
        obtain rfl := Option.some.inj hb
        dsimp only at hv h1 h2
        have hw : w = 1 / 2 := by linarith
        rw [hw] at h1 h2
        constructor <;> linarith
      · cases hb
      · cases hb
    rcases key with ⟨k, w, s', p', hn, h1, h2⟩ | ⟨hno, -⟩
    · obtain ⟨rfl, rfl⟩ := hx _ _ _ _ hn.1
      exact ⟨h1, h2⟩
    · exfalso
      exact hno ⟨0, 1 / 2, s, 1000, _, _, rfl, rfl, by norm_num, by norm_num, by norm_num, by norm_num, by norm_num, by norm_num⟩

theorem wPrepared (x0 e e' F : ℝ) (n0 n1 cx : ℤ) (h : WorldOk x0 e e' F n0 n1 cx) :
    ∃ p, prepare (wEnv x0 e n0 n1) (wFloat F) 5 F = .ok p ∧ p.pos.long = matchLongitude ((wLongs x0).map some) F ∧
      p.grid.long = wLongs x0 ∧ p.grid.lat = [5, 5, 5, 5, 5, 5] ∧ p.grid.dates.length = 6 ∧ p.grid.z.length = 6 ∧
      p.interpSal[1]? = some (wSals.map some) ∧ p.interpPres[1]? = some (List.replicate 6 (some 1000)) := by
  obtain ⟨z, hz⟩ := float_depth_defined (wEnv x0 e n0 n1) (wEnv_topo x0 e n0 n1) 5 F (by norm_num) (by norm_num) (by linarith [h.range.2.2.2.2.1])
    (by linarith [h.range.2.2.2.2.2])
  obtain ⟨bz, hbz, hch⟩ := wChosen x0 e e' F z n0 n1 cx h
  obtain ⟨S, P, hi, hv⟩ := wInterp x0 F
  unfold prepare
  rw [hz]
  simp only [bind, Except.bind, hch, hi]
  refine ⟨_, rfl, rfl, ?_, ?_, ?_, hbz, ?_, ?_⟩
  · simp [wRegion, wLongs]
  · simp [wRegion, wSix, wCast]
  · simp [wRegion, wSix]
  · rw [show (wFloat F).sal.length = 2 from rfl, show (wRegion x0).sal.length = 6 from rfl, rowsOf_get _ _ _ _ (by norm_num)]
    refine congrArg some (List.ext_getElem? fun i => ?_)
    by_cases hi6 : i < 6
    · have hs : wSals[i]? = some (wSals[i]'(by simpa [wSals] using hi6)) := List.getElem?_eq_getElem _
      simp [hi6, (hv i _ hs).1, hs]
    · rw [List.getElem?_eq_none (by simpa using hi6), List.getElem?_eq_none (by simpa [wSals] using hi6)]
  · rw [show (wFloat F).sal.length = 2 from rfl, show (wRegion x0).sal.length = 6 from rfl, rowsOf_get _ _ _ _ (by norm_num)]
    refine congrArg some (List.ext_getElem? fun i => ?_)
    by_cases hi6 : i < 6
    · have hs : wSals[i]? = some (wSals[i]'(by simpa [wSals] using hi6)) := List.getElem?_eq_getElem _
      rw [List.getElem?_replicate, if_pos hi6]
      simp [hi6, (hv i _ hs).2]
    · rw [List.getElem?_eq_none (by simpa using hi6), List.getElem?_eq_none (by simpa using hi6)]

/-- The six casts at the level of the float. -/
theorem wMapCasts (c : FloatPos) (x0 : ℝ) (d z pr : List ℝ) (hd : d.length = 6) (hz : z.length = 6) (hpr : pr.length = 6) :
    ∃ v, mapCasts wConfig c ⟨wSals, pr, wLongs x0, [5, 5, 5, 5, 5, 5], d, z⟩ = .ok v := by
  set H : HistData ℝ := ⟨wSals, pr, wLongs x0, [5, 5, 5, 5, 5, 5], d, z⟩ with hH
  have hproper : ProperConfig wConfig := by constructor <;> norm_num [wConfig]
  have hw : WithoutOutliers H H := by
    refine ⟨[0, 1, 2, 3, 4, 5], by simp, ?_, ?_⟩
    · intro j
      have : ¬ IsOutlier H.sal j := no_outlier_among_ten _ (by simp [hH, wSals]) j
      simp only [this, not_false_eq_true, and_true]
      simp only [hH, wSals, List.length_cons, List.length_nil, List.mem_cons, List.not_mem_nil, or_false]
      omega
    · have hall : ∀ l : List ℝ, l.length = 6 → l.map some = [0, 1, 2, 3, 4, 5].map fun (j : ℕ) => l[j]? := by
        intro l hl
        match l, hl with
        | [a, b, c, d, e, f], _ => rfl
      constructor
      · exact hall _ rfl
      · exact hall _ hpr
      · exact hall _ rfl
      · exact hall _ rfl
      · exact hall _ hd
      · exact hall _ hz
  have key := (level_fails_iff wConfig hproper c 6 H H ⟨rfl, hpr, rfl, rfl, hd, hz⟩ (by norm_num) (by intro h; change (0 : ℤ) = 1 at h; norm_num at h) hw).1
  have hobs : histObs H = [⟨some 35.01, some 5, some (x0 + 5)⟩, ⟨some 35, some 5, some (x0 + 4)⟩, ⟨some 35.01, some 5, some (x0 + 3)⟩,
      ⟨some 35, some 5, some (x0 + 2)⟩, ⟨some 35.01, some 5, some (x0 + 1)⟩, ⟨some 35, some 5, some x0⟩] := rfl
  cases hm : mapCasts wConfig c H with
  | ok v => exact ⟨v, rfl⟩
  | error e =>
    exfalso
    rcases key.1 ⟨e, hm⟩ with h | h
    · rw [hobs] at h
      obtain ⟨la, lb, xa, xb, e1, e2, e3, e4, e5⟩ := h _ (List.mem_cons_self) _ (List.mem_cons_of_mem _ List.mem_cons_self)
      simp only [Option.some.injEq] at e1 e2 e3 e4
      subst e1 e2 e3 e4
      norm_num at e5
    · have := h 0 1 ⟨some 35.01, some 5, some (x0 + 5)⟩ ⟨some 35, some 5, some (x0 + 4)⟩ 35.01 35 ?_ (by rw [hobs]; rfl) (by rw [hobs]; rfl) rfl rfl
      · norm_num at this
      · rw [hobs]
        refine ⟨⟨some 35.01, some 5, some (x0 + 5)⟩, ⟨some 35, some 5, some (x0 + 4)⟩, 1, rfl, rfl, ⟨5, 5, x0 + 5, x0 + 4, rfl, rfl, rfl, rfl, by ring⟩, by norm_num, ?_⟩
        intro k cc d hk hd hd0
        obtain ⟨la, lb, xa, xb, e1, e2, e3, e4, e5⟩ := hd
        rcases k with _ | _ | _ | _ | _ | _ | k
        · obtain rfl := Option.some.inj hk
          simp only [Option.some.injEq] at e1 e2 e3 e4
          subst e1 e2 e3 e4
          norm_num at e5
          exact absurd e5 hd0
        all_goals first
          | (obtain rfl := Option.some.inj hk
             simp only [Option.some.injEq] at e1 e2 e3 e4
             subst e1 e2 e3 e4
             exact ⟨by rw [e5]; ring_nf; norm_num, fun hlt => by omega⟩)
          | (simp at hk)

theorem wLevel (x0 e e' F : ℝ) (n0 n1 cx : ℤ) (h : WorldOk x0 e e' F n0 n1 cx) :
    ∃ p, prepare (wEnv x0 e n0 n1) (wFloat F) 5 F = .ok p ∧ p.pos.long = matchLongitude ((wLongs x0).map some) F ∧ p.grid.long = wLongs x0 ∧
      levelOf (wEnv x0 e n0 n1) (wFloat F) p 0 = .ok none ∧ ∃ o, levelOf (wEnv x0 e n0 n1) (wFloat F) p 1 = .ok (some o) := by
  obtain ⟨p, hp, h1, h2, h3, h4, h5, h6, h7⟩ := wPrepared x0 e e' F n0 n1 cx h
  refine ⟨p, hp, h1, h2, ?_, ?_⟩
  · unfold levelOf mapLevel item
    have : ¬ (wEnv x0 e n0 n1).cfg.pExclude ≤ 500 := by
      change ¬ (600 : ℝ) ≤ 500
      norm_num
    simp [wFloat, bind, Except.bind, pure, Except.pure, this]
  · obtain ⟨hh, js, j1, j2, j3, j4, j5, j6, j7, j8, j9, j10⟩ := level_mapped (wEnv x0 e n0 n1).cfg p.pos p.grid (wFloat F).sal (wFloat F).pres
      p.interpSal p.interpPres 1 6 35 1000 (wSals.map some) (List.replicate 6 (some 1000)) rfl rfl h6 h7 rfl (by simp) (by rw [h2]; rfl)
      (by rw [h3]; rfl) h4 h5.ge (by change (600 : ℝ) ≤ 1000; norm_num)
    have hjs : js = [0, 1, 2, 3, 4, 5] := by
      refine sorted_ext _ _ j1 (by simp) ?_
      intro i
      rw [j2]
      have h6i : i ∈ [0, 1, 2, 3, 4, 5] ↔ i < 6 := by simp; omega
      rw [h6i]
      unfold ComparableCast
      constructor
      · rintro ⟨s, q, -, hq, -⟩
        have := (List.getElem?_eq_some_iff.1 hq).1
        simpa using this
      · intro hi
        have hs : (wSals.map some)[i]? = some (some (wSals[i]'(by simpa [wSals] using hi))) := by
          rw [List.getElem?_map, List.getElem?_eq_getElem (by simpa [wSals] using hi)]; rfl
        refine ⟨_, 1000, hs, by rw [List.getElem?_replicate, if_pos hi], ?_⟩
        change |(1000 : ℝ) - 1000| < 250
        norm_num
    subst hjs
    have inj : ∀ {a b : List ℝ}, a.map some = b.map some → a = b := fun h => (List.map_injective_iff.2 (Option.some_injective _)) h
    have e1 : hh.sal = wSals := inj (by rw [j4]; rfl)
    have e3 : hh.long = wLongs x0 := inj (by rw [j6, h2]; rfl)
    have e4 : hh.lat = [5, 5, 5, 5, 5, 5] := inj (by rw [j7, h3]; rfl)
    obtain ⟨v, hv⟩ := wMapCasts p.pos x0 hh.dates hh.z hh.pres j3.dates j3.z j3.pres
    rw [← e4, ← e3, ← e1] at hv
    have hm := j10 (by simp)
    rw [show mapCasts (wEnv x0 e n0 n1).cfg p.pos hh = .ok v from hv] at hm
    unfold levelOf
    rw [hm]
    exact ⟨_, rfl⟩

/-- A float at 105 E, casts from 91 E to 96 E. -/
theorem world_open : WorldOk 91 108 108 105 170 186 10 where
  boxes := wBoxes_eq 91 108 105 170 186 10 (by norm_num) (by norm_num) (by norm_num)
  casts := wCasts_open 91 108
  wrap := by
    have hl : (wSix 91 ++ wTwo 108).map (·.long) = (wLongs 91 ++ [108, 108]).map some := rfl
    rw [hl]
    refine wrapLongitude_id (wLongs 91 ++ [108, 108]) ?_
    intro x hx
    simp only [wLongs, List.cons_append, List.nil_append, List.mem_cons, List.not_mem_nil, or_false] at hx
    rcases hx with rfl | rfl | rfl | rfl | rfl | rfl | rfl | rfl <;> norm_num
  wrapSix := wrapLongitude_id (wLongs 91) (by
    intro x hx
    simp only [wLongs, List.mem_cons, List.not_mem_nil, or_false] at hx
    rcases hx with rfl | rfl | rfl | rfl | rfl | rfl <;> norm_num)
  matching := by
    have : matchLongitude ((wLongs 91 ++ [108, 108]).map some) 105 = 105 := by
      refine (matchLongitude_spec _ _).2 (Or.inl ?_)
      intro x hx
      simp only [wLongs, List.cons_append, List.nil_append, List.map_cons, List.map_nil, List.mem_cons, List.not_mem_nil, or_false, Option.some.injEq] at hx
      rcases hx with rfl | rfl | rfl | rfl | rfl | rfl | rfl | rfl <;> norm_num
    rw [this]; norm_num
  range := by norm_num

/-- Runs in the two worlds succeed. -/
theorem world_runs (x0 e e' F : ℝ) (n0 n1 cx : ℤ) (h : WorldOk x0 e e' F n0 n1 cx) (source : List FloatProfile) (no : List ℝ)
    (hlen : no.length = source.length) (hs : ∀ f ∈ source, f = wFloat F ∨ f = wLost) (hm : wFloat F ∈ source) (fs : Fs ℝ) (hfs : fs "in" = none) :
    (updateMapping (wRun (wEnv x0 e n0 n1) source no).args fs).1 = none := by
  obtain ⟨p, hp, -, -, hl0, o, hl1⟩ := wLevel x0 e e' F n0 n1 cx h
  have hP : ∀ i, source[i]? = some (wFloat F) → profilesOf (wEnv x0 e n0 n1) source i = .ok (some (levelOf (wEnv x0 e n0 n1) (wFloat F) p)) := by
    intro i hi
    unfold profilesOf item
    rw [hi]
    simp only [bind, Except.bind]
    unfold profileOf
    rw [if_pos ((usable_iff _).2 (wFloat_placed F))]
    change (do let p ← prepare (wEnv x0 e n0 n1) (wFloat F) 5 F; pure (some (levelOf (wEnv x0 e n0 n1) (wFloat F) p))) = _
    rw [hp]
    rfl
  have hcomp : Computable (wRun (wEnv x0 e n0 n1) source no).args.P no.length 2 := by
    constructor
    · intro i hi
      have hi' : i < source.length := by omega
      have hget : source[i]? = some source[i] := List.getElem?_eq_getElem hi'
      change ∃ r, profilesOf (wEnv x0 e n0 n1) source i = .ok r ∧ _
      rcases hs source[i] (List.getElem_mem hi') with hw | hw
      · rw [hw] at hget
        refine ⟨_, hP i hget, ?_⟩
        rintro f hf n hn
        obtain rfl := Option.some.inj hf
        interval_cases n
        · exact ⟨_, hl0⟩
        · exact ⟨_, hl1⟩
      · rw [hw] at hget
        refine ⟨none, ?_, fun f hf => by cases hf⟩
        unfold profilesOf item
        rw [hget]
        simp only [bind, Except.bind]
        unfold profileOf
        rw [if_neg (fun hu => wLost_not_placed ((usable_iff _).1 hu))]
        rfl
    · intro i _ n _ o ho
      obtain ⟨f, lat, long, p, -, -, -, -, -, hl⟩ := levelOut_cases (wEnv x0 e n0 n1) source i n o ho
      exact levelOf_points (wEnv x0 e n0 n1) f p n o hl
  have hmap : SomethingMapped (wRun (wEnv x0 e n0 n1) source no).args.P no.length 2 := by
    obtain ⟨i, hi, hfi⟩ := List.mem_iff_getElem.1 hm
    refine ⟨i, by omega, 1, by norm_num, ?_⟩
    unfold levelOut
    rw [show (wRun (wEnv x0 e n0 n1) source no).args.P i = _ from hP i (by rw [List.getElem?_eq_getElem hi, hfi])]
    dsimp only
    rw [hl1]
    rfl
  obtain ⟨file, hf, -⟩ := fresh_run_file (wRun (wEnv x0 e n0 n1) source no).args fs hfs isArgsort_stable hcomp hmap
  rw [hf]

end Verif.Props.Turned

namespace Verif.Props

open Verif.Np Verif.Helper Verif.Region Verif.Profile Verif.Update Verif.Spec Verif.Spec.Profile Verif.Level Verif.Finders
open Verif.Lemmas.Profile Verif.Utilities Verif.Saf Verif.Topo

/-- The reference data with the six casts in one order and in the opposite order. -/
theorem wDisk_shuffled : Shuffled (wDisk 91 108 170 186) (Turned.wDisk 91 108 170 186) := by
  intro t n
  unfold wDisk Turned.wDisk
  split_ifs
  · refine .inr ⟨_, _, rfl, rfl, rfl, ?_⟩
    have : Turned.wSix 91 = (wSix 91).reverse := rfl
    rw [this]
    exact (List.reverse_perm _).symm
  · exact .inr ⟨_, _, rfl, rfl, rfl, .refl _⟩
  · exact .inl ⟨rfl, rfl⟩

theorem wAmong (cs : List (RefCast ℝ)) (h : ∀ c ∈ cs, ∃ x y s, c = wCast x y s ∧ 40 < x ∧ x < 320) (x : ℝ) (hx : 40 < x ∧ x < 320) : amongCasts cs x = x := by
  have he : ∀ x : ℝ, 40 < x ∧ x < 320 → eastward x = x := fun x hx => if_neg (by linarith)
  unfold amongCasts
  rw [if_neg, he x hx]
  rintro ⟨⟨c, hc, x', hx', h1⟩, -⟩
  obtain ⟨x'', y, s, rfl, h2⟩ := h c hc
  obtain rfl := Option.some.inj hx'
  rw [he _ h2] at h1
  linarith

theorem wFloatAmong (place : ℝ → ℝ) (cs : List (RefCast ℝ)) : floatAmong place cs 105 = 105 := by
  unfold floatAmong
  rw [if_neg]
  rintro ⟨-, -, h⟩
  norm_num at h

theorem wNear_casts : nearCasts wConfig 5 105 (wSix 91 ++ wTwo 108) = wSix 91 := by
  classical
  have hall : ∀ c ∈ wSix 91 ++ wTwo 108, ∃ x y s, c = wCast x y s ∧ 40 < x ∧ x < 320 := by
    intro c hc
    simp only [wSix, wTwo, List.cons_append, List.nil_append, List.mem_cons, List.not_mem_nil, or_false] at hc
    rcases hc with rfl | rfl | rfl | rfl | rfl | rfl | rfl | rfl <;> exact ⟨_, _, _, rfl, by norm_num, by norm_num⟩
  have hn : ∀ x y s, 40 < x ∧ x < 320 → (Near wConfig 5 105 (wSix 91 ++ wTwo 108) (wCast x y s) ↔ ((x - 105) / 24) ^ 2 + ((y - 5) / 12) ^ 2 < 1) := by
    intro x y s hx
    unfold Near
    rw [wFloatAmong]
    constructor
    · rintro ⟨x', y', h1, h2, h3⟩
      obtain rfl := Option.some.inj h1
      obtain rfl := Option.some.inj h2
      rw [wAmong _ hall x hx] at h3
      norm_num [wConfig] at h3
      exact h3
    · intro h
      refine ⟨x, y, rfl, rfl, ?_⟩
      rw [wAmong _ hall x hx]
      norm_num [wConfig]
      exact h
  unfold nearCasts
  have e : ∀ c ∈ wSix 91 ++ wTwo 108, decide (Near wConfig 5 105 (wSix 91 ++ wTwo 108) c) = decide (c.lat = some 5) := by
    intro c hc
    simp only [wSix, wTwo, List.cons_append, List.nil_append, List.mem_cons, List.not_mem_nil, or_false] at hc
    rw [decide_eq_decide]
    rcases hc with rfl | rfl | rfl | rfl | rfl | rfl | rfl | rfl <;> rw [hn _ _ _ (by norm_num)] <;> norm_num [wCast]
  rw [List.filter_congr e]
  simp [wSix, wTwo, wCast]

/-- The samples of the level at 1000 dbar. -/
noncomputable def wSamples : List Sample :=
  [⟨35, 5, 91, decimalDate (wCast 91 5 35), 0⟩, ⟨35.01, 5, 91 + 1, decimalDate (wCast 91 5 35), 0⟩, ⟨35, 5, 91 + 2, decimalDate (wCast 91 5 35), 0⟩,
    ⟨35.01, 5, 91 + 3, decimalDate (wCast 91 5 35), 0⟩, ⟨35, 5, 91 + 4, decimalDate (wCast 91 5 35), 0⟩, ⟨35.01, 5, 91 + 5, decimalDate (wCast 91 5 35), 0⟩]

theorem wSamples_eq : samplesAt (some 1250) 250 (wSix 91) (some 5) 1000 = wSamples := by
  have hall : ∀ c ∈ wSix 91, ∃ x y s, c = wCast x y s ∧ 40 < x ∧ x < 320 := by
    intro c hc
    simp only [wSix, List.mem_cons, List.not_mem_nil, or_false] at hc
    rcases hc with rfl | rfl | rfl | rfl | rfl | rfl <;> exact ⟨_, _, _, rfl, by norm_num, by norm_num⟩
  have hs : ∀ x y s, 40 < x ∧ x < 320 → sampleOf (some 1250) 250 5 1000 (amongCasts (wSix 91)) (wCast x y s) = some ⟨s, y, x, decimalDate (wCast 91 5 35), 0⟩ := by
    intro x y s hx
    have hex : ∃ s', Meets (some 1250) (wCast x y s) 5 1000 250 s' := ⟨s, (wMeets x y s s).2 rfl⟩
    unfold sampleOf
    rw [dif_pos hex, (wMeets x y s _).1 hex.choose_spec]
    change some (⟨s, y, amongCasts (wSix 91) x, _, 0⟩ : Sample) = _
    rw [wAmong _ hall x hx]
    rfl
  unfold samplesAt
  dsimp only
  generalize hF : sampleOf (some 1250) 250 5 1000 (amongCasts (wSix 91)) = F at *
  unfold wSix wSamples
  simp only [List.filterMap_cons, List.filterMap_nil]
  rw [hs _ _ _ (by norm_num), hs _ _ _ (by norm_num), hs _ _ _ (by norm_num), hs _ _ _ (by norm_num), hs _ _ _ (by norm_num), hs _ _ _ (by norm_num)]

theorem wSamples_neighbour : ∀ a ∈ wSamples, ∀ b, Neighbour wSamples a b → b.sal = 70.01 - a.sal := by
  intro a ha b ⟨hb, h0, hmin⟩
  have h1 : apart a b ≤ 1 := by
    have h91 := hmin ⟨35, 5, 91, decimalDate (wCast 91 5 35), 0⟩ (by simp [wSamples])
    have h92 := hmin ⟨35.01, 5, 91 + 1, decimalDate (wCast 91 5 35), 0⟩ (by simp [wSamples])
    have h93 := hmin ⟨35, 5, 91 + 2, decimalDate (wCast 91 5 35), 0⟩ (by simp [wSamples])
    have h94 := hmin ⟨35.01, 5, 91 + 3, decimalDate (wCast 91 5 35), 0⟩ (by simp [wSamples])
    have h95 := hmin ⟨35, 5, 91 + 4, decimalDate (wCast 91 5 35), 0⟩ (by simp [wSamples])
    clear h0 hb hmin
    simp only [wSamples, List.mem_cons, List.not_mem_nil, or_false] at ha
    generalize apart a b = d at *
    rcases ha with rfl | rfl | rfl | rfl | rfl | rfl
    · clear h91 h93 h94 h95; norm_num [apart] at h92; exact h92
    · clear h92 h93 h94 h95; norm_num [apart] at h91; exact h91
    · clear h91 h93 h94 h95; norm_num [apart] at h92; exact h92
    · clear h91 h92 h94 h95; norm_num [apart] at h93; exact h93
    · clear h91 h92 h93 h95; norm_num [apart] at h94; exact h94
    · clear h91 h92 h93 h94; norm_num [apart] at h95; exact h95
  clear hmin
  simp only [wSamples, List.mem_cons, List.not_mem_nil, or_false] at ha hb
  rcases ha with rfl | rfl | rfl | rfl | rfl | rfl <;> rcases hb with rfl | rfl | rfl | rfl | rfl | rfl <;>
    first
      | (norm_num; done)
      | (exfalso; norm_num [apart] at h0; done)
      | (exfalso; norm_num [apart] at h1; done)

theorem wSamples_clear : ClearNeighbours wSamples := by
  intro a ha b b' hb hb'
  rw [wSamples_neighbour a ha b hb, wSamples_neighbour a ha b' hb']

theorem wClear : Clear (wRun (wEnv 91 108 170 186) [wLost, wFloat 105] [1, 2]) (wFloat 105) 5 105 := by
  have hsur : surrounding (wRun (wEnv 91 108 170 186) [wLost, wFloat 105] [1, 2]).env 105 5 = wSix 91 ++ wTwo 108 := by
    change surrounding (wEnv 91 108 170 186) 105 5 = _
    unfold surrounding
    rw [world_open.boxes]
    exact world_open.casts
  refine ⟨by norm_num, by norm_num, ?_, ?_, ?_⟩
  · rw [hsur]
    intro c hc y x hy hx
    simp only [wSix, wTwo, List.cons_append, List.nil_append, List.mem_cons, List.not_mem_nil, or_false] at hc
    rcases hc with rfl | rfl | rfl | rfl | rfl | rfl | rfl | rfl <;>
      (obtain rfl := Option.some.inj hy
       obtain rfl := Option.some.inj hx
       norm_num)
  · rw [hsur]
    change (nearCasts wConfig 5 105 (wSix 91 ++ wTwo 108)).length ≤ 100
    rw [wNear_casts]
    simp [wSix]
  · rw [hsur]
    intro n t q ht hq hex
    change ClearNeighbours (inliers (samplesAt (pressureLimit (wFloat 105).pres 250) 250 (nearCasts wConfig 5 105 (wSix 91 ++ wTwo 108)) t q))
    rw [wLimit, wNear_casts]
    rcases n with _ | _ | n
    · obtain rfl := Option.some.inj (Option.some.inj hq)
      change (600 : ℝ) ≤ 500 at hex
      norm_num at hex
    · obtain rfl := Option.some.inj (Option.some.inj hq)
      obtain rfl := Option.some.inj ht
      rw [wSamples_eq, inliers_few _ (by simp [wSamples])]
      exact wSamples_clear
    · simp [wFloat] at ht

/-- C162 on a run over two profiles: with the six casts of one file in the opposite order the same matrices are saved, and the entry for the level at 1000 dbar
is not missing. -/
example : ∃ file file' : MapFile ℝ, finalFs (wRun (wEnv 91 108 170 186) [wLost, wFloat 105] [1, 2]).args (fun _ => none) "out" = some (.whole file) ∧
    finalFs (wRun (Turned.wEnv 91 108 170 186) [wLost, wFloat 105] [1, 2]).args (fun _ => none) "out" = some (.whole file') ∧
    ∀ m, file.mats m = file'.mats m := by
  have hrun := world_runs 91 108 108 105 170 186 10 world_open [wLost, wFloat 105] [1, 2] rfl (by simp) (by simp) (fun _ => none) rfl
  have hrun' := Turned.world_runs 91 108 108 105 170 186 10 Turned.world_open [wLost, wFloat 105] [1, 2] rfl (by simp) (by simp) (fun _ => none) rfl
  have hcfg : ProperConfig wConfig := by constructor <;> norm_num [wConfig]
  obtain ⟨file, file', h1, h2, -, h4⟩ := saved_order (wRun (wEnv 91 108 170 186) [wLost, wFloat 105] [1, 2]) (fun _ => none)
    Verif.Lemmas.Depth.grid2_isInterp2d (wEnv_topo _ _ _ _) (wDisk_wellFormed _ _ _ _) (by change (0 : ℤ) ≠ 1; norm_num) (by change (0 : ℤ) ≠ 1; norm_num) isArgsort_stable
    (wEnv_rand _ _ _ _) hcfg (by change 1 ≤ 100; norm_num) (by simp [wRun]) rfl rfl
    (by
      intro f hf
      change f ∈ [wLost, wFloat 105] at hf
      simp only [List.mem_cons, List.not_mem_nil, or_false] at hf
      rcases hf with rfl | rfl <;> exact ⟨rfl, rfl, rfl⟩)
    (by
      intro f hf hpl lat long hla hlo
      change f ∈ [wLost, wFloat 105] at hf
      simp only [List.mem_cons, List.not_mem_nil, or_false] at hf
      rcases hf with rfl | rfl
      · exact absurd hpl wLost_not_placed
      · obtain rfl := Option.some.inj hla
        obtain rfl := Option.some.inj hlo
        exact wClear)
    (Turned.wDisk 91 108 170 186) wDisk_shuffled hrun hrun'
  exact ⟨file, file', by rw [h1]; exact Function.update_self .., by
    rw [show (wRun (Turned.wEnv 91 108 170 186) [wLost, wFloat 105] [1, 2]) = runWith (wRun (wEnv 91 108 170 186) [wLost, wFloat 105] [1, 2])
      (Turned.wDisk 91 108 170 186) from rfl, h2]
    exact Function.update_self .., h4⟩

end Verif.Props
