import Verif.Props.ProfileMore
import Verif.Props.Boxes
import Verif.Props.Interp
import Verif.Props.LevelMore
import Verif.Lemmas.Depth
import Verif.Props.SafExamples

/-!
# Concrete reference data with which whole runs succeed

They meet the hypotheses of C91-C97, and show the silent error near Greenwich of C96.
-/

set_option linter.unusedSectionVars false
set_option maxRecDepth 4000

namespace Verif.Props

open Verif.Np Verif.Helper Verif.Region Verif.Profile Verif.Update Verif.Spec Verif.Spec.Profile Verif.Level Verif.Finders
open Verif.Lemmas.Profile Verif.Utilities Verif.Saf Verif.Topo

/-- A cast with two levels. -/
noncomputable def wCast (x y s : ℝ) : RefCast ℝ :=
  ⟨some y, some x, "20100615120000".toList, [], [some 900, some 1100], [some s, some s], [some 10, some 0]⟩

/-- Six casts on the latitude of the float. -/
noncomputable def wSix (x0 : ℝ) : List (RefCast ℝ) :=
  [wCast x0 5 35, wCast (x0 + 1) 5 35.01, wCast (x0 + 2) 5 35, wCast (x0 + 3) 5 35.01, wCast (x0 + 4) 5 35, wCast (x0 + 5) 5 35.01]

/-- Two casts far in the north. -/
noncomputable def wTwo (e : ℝ) : List (RefCast ℝ) := [wCast e 28 35, wCast e 28 35]

/-- The table of boxes: each box has CTD data and has its own row as number. -/
def wTable : List WmoBox := (List.range 648).map fun (i : ℕ) => ⟨some (i : ℤ), 1, 0, 0⟩

noncomputable def wDisk (x0 e : ℝ) (n0 n1 : ℤ) : Disk ℝ := fun t n =>
  if t = 1 ∧ n = n0 then some ⟨wSix x0, 2⟩ else if t = 1 ∧ n = n1 then some ⟨wTwo e, 2⟩ else none

noncomputable def wConfig : MapConfig := ⟨8, 4, 4, 2, 0.1, 0.02, 20, 5, 0, 250, 600⟩

/-- The bottom falls to the east: 1 m for each node. -/
@[irreducible] def wTopo : List ℤ := (List.range (2160 * 4320)).map fun (k : ℕ) => -((k % 4320 : ℕ) : ℤ)

theorem wTopo_length : wTopo.length = 2160 * 4320 := by
  unfold wTopo
  rw [List.length_map, List.length_range]

noncomputable def wEnv (x0 e : ℝ) (n0 n1 : ℤ) : Env where
  topo := wTopo
  table := wTable
  disk := wDisk x0 e n0 n1
  name := "3901960".toList
  saf := ⟨[], [], [], [], [], [], [], [], []⟩
  cfg := wConfig
  maxCasts := 100
  useSaf := 0
  interp2 := Verif.Lemmas.Depth.grid2
  argsort := fun l => stableArgsort (K := WithTop ℝ) l
  rand := fun _ k => List.replicate k 0
  interp := scan
  temperature := fun _ _ ptmp _ _ => ptmp

theorem wEnv_topo (x0 e : ℝ) (n0 n1 : ℤ) : (wEnv x0 e n0 n1).topo.length = 2160 * 4320 := by
  rw [show (wEnv x0 e n0 n1).topo = wTopo from rfl]
  exact wTopo_length

noncomputable def wFloat (F : ℝ) : FloatProfile :=
  ⟨some 5, some F, 2010, [some 35, some 35], [some 8, some 5], [some 8, some 5], [some 500, some 1000]⟩

theorem wDisk_wellFormed (x0 e : ℝ) (n0 n1 : ℤ) : WellFormedDisk (wDisk x0 e n0 n1) := by
  intro t n f h
  unfold wDisk at h
  split_ifs at h
  · obtain rfl := Option.some.inj h
    simp [wSix, wCast]
  · obtain rfl := Option.some.inj h
    simp [wTwo, wCast]

/-- The boxes around the float. -/
def wBoxes (cx : ℤ) : List WmoBox := (cells25 cx 0).map fun (r : ℕ) => ⟨some (r : ℤ), 1, 0, 0⟩

theorem wBoxes_eq (x0 e F : ℝ) (n0 n1 cx : ℤ) (hx : 0 ≤ F ∧ F ≤ 360) (h1 : 10 * (cx : ℝ) < F + 0.01) (h2 : F + 0.01 ≤ 10 * (cx : ℝ) + 10) :
    boxesAt (wEnv x0 e n0 n1) F 5 = .ok (wBoxes cx) := by
  unfold boxesAt
  rw [show (wEnv x0 e n0 n1).table = wTable from rfl,
    boxes_are_neighbours wTable (by simp [wTable]) F 5 cx 0 ⟨by linarith [hx.1], by linarith [hx.2]⟩ h1 h2 (by norm_num) (by norm_num)]
  simp only [bind, Except.bind, pure, Except.pure, List.map_map]
  congr 1
  apply List.map_congr_left
  intro r hr
  have hlt : r < 648 := by
    unfold cells25 at hr
    simp only [List.mem_flatMap, List.mem_map] at hr
    obtain ⟨_, _, _, _, rfl⟩ := hr
    exact wmoRow_lt _ _
  simp [wTable, hlt]

theorem wCasts_open (x0 e : ℝ) : refCasts (wDisk x0 e 170 186) "3901960".toList (wBoxes 10) = wSix x0 ++ wTwo e := rfl

theorem wCasts_greenwich (x0 e : ℝ) : refCasts (wDisk x0 e 638 6) "3901960".toList (wBoxes 0) = wSix x0 ++ wTwo e := rfl

/-- The longitudes of the six casts. -/
noncomputable def wLongs (x0 : ℝ) : List ℝ := [x0, x0 + 1, x0 + 2, x0 + 3, x0 + 4, x0 + 5]

/-- What the two worlds have in common. -/
structure WorldOk (x0 e e' F : ℝ) (n0 n1 cx : ℤ) : Prop where
  boxes : boxesAt (wEnv x0 e n0 n1) F 5 = .ok (wBoxes cx)
  casts : refCasts (wDisk x0 e n0 n1) "3901960".toList (wBoxes cx) = wSix x0 ++ wTwo e
  wrap : wrapLongitude ((wSix x0 ++ wTwo e).map (·.long)) = (wLongs x0 ++ [e', e']).map some
  wrapSix : wrapLongitude ((wSix x0).map (·.long)) = (wLongs x0).map some
  matching : matchLongitude ((wLongs x0 ++ [e', e']).map some) F = x0 + 14
  range : 0 ≤ x0 ∧ x0 ≤ 500 ∧ 0 ≤ e' ∧ e' ≤ 540 ∧ 0 ≤ F ∧ F ≤ 360

/-- The reference data chosen. -/
noncomputable def wRegion (x0 : ℝ) : RegionData ℝ :=
  ⟨(wSix x0).map (·.sal), (wSix x0).map (·.ptmp), (wSix x0).map (·.pres), (wSix x0).map (·.lat), (wLongs x0).map some, (wSix x0).map decimalDate⟩

theorem wLimit (F : ℝ) : pressureLimit (wFloat F).pres 250 = some 1250 := by
  have : max (500 : ℝ) 1000 = 1000 := max_eq_right (by norm_num)
  simp [pressureLimit, wFloat, List.max?_cons, this]
  norm_num

theorem wUsable (x y s : ℝ) : usableLevels (some 1250) (wCast x y s) = [(some 900, some 10, some s), (some 1100, some 0, some s)] := by
  unfold usableLevels
  change List.filter _ (levelsOf (wCast x y s)) = levelsOf (wCast x y s)
  rw [List.filter_eq_self]
  intro l hl
  simp only [levelsOf, wCast, List.zip_cons_cons, List.zip_nil_left, List.mem_cons, List.not_mem_nil, or_false] at hl
  simp only [decide_eq_true_eq]
  rcases hl with rfl | rfl
  · exact ⟨900, rfl, fun m hm => by rw [← Option.some.inj hm]; norm_num⟩
  · exact ⟨1100, rfl, fun m hm => by rw [← Option.some.inj hm]; norm_num⟩

theorem wHasData (x y s : ℝ) : HasData (some 1250) (wCast x y s) := by
  refine ⟨(some 900, some 10, some s), ?_, _, _, _, rfl⟩
  rw [wUsable]
  simp

theorem wRegion_eq (x0 : ℝ) (hw : wrapLongitude ((wSix x0).map (·.long)) = (wLongs x0).map some) :
    regionResult (some 1250) (wSix x0) = wRegion x0 := by
  have hd : depthOf (some 1250) (wSix x0) = 2 := by
    simp [depthOf, wSix, wUsable]
  unfold regionResult
  rw [hw, hd]
  dsimp only
  have hk : ((wSix x0).zip ((wLongs x0).map some)).filter (fun p => @decide (HasData (some 1250) p.1) (Classical.propDecidable _)) =
      (wSix x0).zip ((wLongs x0).map some) := by
    rw [List.filter_eq_self]
    intro p hp
    have hm := (List.of_mem_zip hp).1
    simp only [decide_eq_true_eq]
    simp only [wSix, List.mem_cons, List.not_mem_nil, or_false] at hm
    rcases hm with h | h | h | h | h | h <;> rw [h] <;> exact wHasData _ _ _
  rw [hk]
  simp only [wRegion, wSix, wLongs, columnOf, wUsable, List.map_cons, List.map_nil, List.zip_cons_cons, List.zip_nil_left]
  rfl

theorem sorted_ext (a b : List ℕ) (ha : a.Pairwise (· < ·)) (hb : b.Pairwise (· < ·)) (h : ∀ i, i ∈ a ↔ i ∈ b) : a = b :=
  List.Perm.eq_of_pairwise (fun i j _ _ h1 h2 => absurd h1 (by omega)) ha hb
    ((List.perm_ext_iff_of_nodup (ha.imp (fun h => Nat.ne_of_lt h)) (hb.imp (fun h => Nat.ne_of_lt h))).2 h)

theorem wChosen (x0 e e' F z : ℝ) (n0 n1 cx : ℤ) (h : WorldOk x0 e e' F n0 n1 cx) :
    ∃ bz : List ℝ, bz.length = 6 ∧ chosenCasts (wEnv x0 e n0 n1) (wFloat F) 5 F z = .ok ⟨wRegion x0, bz⟩ := by
  obtain ⟨r1, r2, r3, r4, r5, r6⟩ := h.range
  have hist := (hist_locations_spec (wDisk x0 e n0 n1) (wDisk_wellFormed _ _ _ _) "3901960".toList (wBoxes cx)).2
    (by rw [h.casts]; simp [wSix])
  rw [h.casts, h.wrap] at hist
  have hlat : (wSix x0 ++ wTwo e).map (·.lat) = ([5, 5, 5, 5, 5, 5, 28, 28] : List ℝ).map some := rfl
  rw [hlat] at hist
  obtain ⟨gz, hgz, hlen⟩ := grid_depths_defined (wEnv x0 e n0 n1) (wEnv_topo x0 e n0 n1) [5, 5, 5, 5, 5, 5, 28, 28] (wLongs x0 ++ [e', e'])
    (by simp [wLongs]) (by simp)
    (by intro y hy; simp only [List.mem_cons, List.not_mem_nil, or_false, or_self] at hy
        rcases hy with rfl | rfl | rfl | rfl | rfl | rfl | rfl <;> norm_num)
    (by intro x hx
        simp only [wLongs, List.cons_append, List.nil_append, List.mem_cons, List.not_mem_nil, or_false] at hx
        rcases hx with rfl | rfl | rfl | rfl | rfl | rfl | rfl | rfl <;> constructor <;> linarith)
  obtain ⟨g0, g1, g2, g3, g4, g5, g6, g7, rfl⟩ : ∃ g0 g1 g2 g3 g4 g5 g6 g7, gz = [g0, g1, g2, g3, g4, g5, g6, g7] := by
    match gz, hlen with
    | [g0, g1, g2, g3, g4, g5, g6, g7], _ => exact ⟨_, _, _, _, _, _, _, _, rfl⟩
  set casts := Verif.Profile.castsOf (([5, 5, 5, 5, 5, 5, 28, 28] : List ℝ).map some) ((wLongs x0 ++ [e', e']).map some)
    ((wSix x0 ++ wTwo e).map decimalDate) [g0, g1, g2, g3, g4, g5, g6, g7] with hcasts
  have hin : ∀ (x y : ℝ) (t : Option ℝ) (g : Option ℝ), InEllipse (besthistArgs (wEnv x0 e n0 n1) 5 (x0 + 14) (wFloat F).date z) ⟨some x, some y, t, g⟩ ↔
      ((x - (x0 + 14)) / 24) ^ 2 + ((y - 5) / 12) ^ 2 < 1 := by
    intro x y t g
    unfold InEllipse besthistArgs wEnv wConfig
    norm_num
  obtain ⟨out, o1, o2, o3⟩ := besthist_few_returns_all (besthistArgs (wEnv x0 e n0 n1) 5 (x0 + 14) (wFloat F).date z)
    (wEnv x0 e n0 n1).argsort (wEnv x0 e n0 n1).rand casts (by rw [hcasts]; exact List.cons_ne_nil _ _)
    (by intro h; change (0 : ℤ) = 1 at h; norm_num at h)
    (le_trans List.countP_le_length (show casts.length ≤ 100 by simp [hcasts, Verif.Profile.castsOf, wLongs, wSix, wTwo]))
  have hout : out = [0, 1, 2, 3, 4, 5] := by
    refine sorted_ext _ _ o2 (by simp) ?_
    intro i
    rw [o3]
    rcases i with _ | _ | _ | _ | _ | _ | _ | _ | i <;>
      simp only [hcasts, Verif.Profile.castsOf, wLongs, wSix, wTwo, List.cons_append, List.nil_append, List.map_cons, List.map_nil, List.zip_cons_cons, List.zip_nil_left,
        List.getElem?_cons_zero, List.getElem?_cons_succ, List.getElem?_nil, Nat.zero_add, Option.some.injEq, exists_eq_left', hin, reduceCtorEq, false_and, exists_false]
    all_goals (try norm_num)
    all_goals (try omega)
    all_goals (try (nlinarith [sq_nonneg ((e' - (x0 + 14)) / 24)]))
  subst hout
  have hsel : chosen [0, 1, 2, 3, 4, 5] (refCasts (wDisk x0 e n0 n1) "3901960".toList (wBoxes cx)) = wSix x0 := by
    rw [h.casts]; rfl
  have hreg := region_data_spec (wDisk x0 e n0 n1) (wDisk_wellFormed _ _ _ _) "3901960".toList (wBoxes cx) [0, 1, 2, 3, 4, 5] (wFloat F).pres 250
    _ _ hsel (by rw [wLimit, wUsable]; simp)
  rw [wLimit, hsel, wRegion_eq x0 h.wrapSix] at hreg
  refine ⟨[g0, g1, g2, g3, g4, g5], rfl, ?_⟩
  unfold chosenCasts
  rw [h.boxes]
  simp only [bind, Except.bind]
  rw [show histLocations (wEnv x0 e n0 n1).disk (wEnv x0 e n0 n1).name (wBoxes cx) = _ from hist]
  dsimp only
  rw [hgz]
  dsimp only
  rw [h.matching, ← hcasts, o1]
  dsimp only
  rw [show regionData (wEnv x0 e n0 n1).disk (wEnv x0 e n0 n1).name (wBoxes cx) [0, 1, 2, 3, 4, 5] (wFloat F).pres (wEnv x0 e n0 n1).cfg.pDelta = _
    from hreg]
  rfl

/-- The salinities of the six casts. -/
noncomputable def wSals : List ℝ := [35, 35.01, 35, 35.01, 35, 35.01]

theorem wStation (x0 s : ℝ) (c : ℕ) (hs : wSals[c]? = some s) :
    station (toGrid (wRegion x0).sal) (toGrid (wRegion x0).ptmp) (toGrid (wRegion x0).pres) c = [⟨s, 10, 900⟩, ⟨s, 0, 1100⟩] := by
  rcases c with _ | _ | _ | _ | _ | _ | c
  all_goals first
    | (obtain rfl := Option.some.inj hs; rfl)
    | (simp [wSals] at hs)

theorem wInterp (x0 F : ℝ) : ∃ S P, Interp.interpClimatology (toGrid (wRegion x0).sal) (toGrid (wRegion x0).ptmp) (toGrid (wRegion x0).pres)
      (floatLevels (wFloat F)) = .ok (S, P) ∧ ∀ (c : ℕ) (s : ℝ), wSals[c]? = some s → S 1 c = some s ∧ P 1 c = some 1000 := by
  have hshape : SameShape (toGrid (wRegion x0).sal) (toGrid (wRegion x0).ptmp) (toGrid (wRegion x0).pres) := ⟨rfl, rfl, rfl, rfl⟩
  have hcols : (toGrid (wRegion x0).sal).cols = 6 := rfl
  have hall : ∀ c < 6, ∃ s, wSals[c]? = some s := by
    intro c hc
    rw [List.getElem?_eq_getElem (by simpa [wSals] using hc)]
    exact ⟨_, rfl⟩
  cases hr : Interp.interpClimatology (toGrid (wRegion x0).sal) (toGrid (wRegion x0).ptmp) (toGrid (wRegion x0).pres) (floatLevels (wFloat F)) with
  | error e =>
    exfalso
    obtain ⟨-, h0 | ⟨-, fs, v, fp, hm, h1 | ⟨c, hc, -, h2⟩⟩⟩ := (interp_fails_iff _ _ _ hshape _ _).1 hr
    · rw [hcols] at h0; norm_num at h0
    · have := h1 0 (by rw [hcols]; norm_num)
      rw [wStation x0 35 0 rfl] at this
      simp at this
    · rw [hcols] at hc
      obtain ⟨s, hs⟩ := hall c hc
      rw [wStation x0 s c hs] at h2
      have e1 := h2 _ List.mem_cons_self
      have e2 := h2 _ (List.mem_cons_of_mem _ List.mem_cons_self)
      dsimp only at e1 e2
      linarith
  | ok r =>
    obtain ⟨S, P⟩ := r
    refine ⟨S, P, rfl, ?_⟩
    intro c s hs
    have hc : c < 6 := by
      have := (List.getElem?_eq_some_iff.1 hs).1
      simpa [wSals] using this
    have key := (interp_spec _ _ _ hshape _ S P hr 1 ⟨some 35, some 5, some 1000⟩ rfl c (by rw [hcols]; exact hc)).2 35 5 1000 rfl
    rw [wStation x0 s c hs] at key
    have hx : ∀ k w s' p', Crossing [⟨s, 10, 900⟩, ⟨s, 0, 1100⟩] (5 : ℝ) k w s' p' → s' = s ∧ p' = 1000 := by
      rintro k w s' p' ⟨a, b, ha, hb, -, -, -, hv, h1, h2⟩
      rcases k with _ | _ | k
      · obtain rfl := Option.some.inj ha
        obtain rfl := Option.some.inj hb
        dsimp only at hv h1 h2
        have hw : w = 1 / 2 := by linarith
        rw [hw] at h1 h2
        constructor <;> linarith
      · cases hb
      · cases hb
    rcases key with ⟨k, w, s', p', hn, h1, h2⟩ | ⟨hno, -⟩
    · obtain ⟨rfl, rfl⟩ := hx _ _ _ _ hn.1
      exact ⟨h1, h2⟩
    · exfalso
      exact hno ⟨0, 1 / 2, s, 1000, _, _, rfl, rfl, by norm_num, by norm_num, by norm_num, by norm_num, by norm_num, by norm_num⟩

theorem rowsOf_get (n c i : ℕ) (a : ℕ → ℕ → Option ℝ) (hi : i < n) : (rowsOf n c a)[i]? = some ((List.range c).map (a i)) := by
  unfold rowsOf
  simp [hi]

theorem wPrepared (x0 e e' F : ℝ) (n0 n1 cx : ℤ) (h : WorldOk x0 e e' F n0 n1 cx) :
    ∃ p, prepare (wEnv x0 e n0 n1) (wFloat F) 5 F = .ok p ∧ p.pos.long = matchLongitude ((wLongs x0).map some) F ∧
      p.grid.long = wLongs x0 ∧ p.grid.lat = [5, 5, 5, 5, 5, 5] ∧ p.grid.dates.length = 6 ∧ p.grid.z.length = 6 ∧
      p.interpSal[1]? = some (wSals.map some) ∧ p.interpPres[1]? = some (List.replicate 6 (some 1000)) := by
  obtain ⟨z, hz⟩ := float_depth_defined (wEnv x0 e n0 n1) (wEnv_topo x0 e n0 n1) 5 F (by norm_num) (by norm_num) (by linarith [h.range.2.2.2.2.1])
    (by linarith [h.range.2.2.2.2.2])
  obtain ⟨bz, hbz, hch⟩ := wChosen x0 e e' F z n0 n1 cx h
  obtain ⟨S, P, hi, hv⟩ := wInterp x0 F
  unfold prepare
  rw [hz]
  simp only [bind, Except.bind, hch, hi]
  refine ⟨_, rfl, rfl, ?_, ?_, ?_, hbz, ?_, ?_⟩
  · simp [wRegion, wLongs]
  · simp [wRegion, wSix, wCast]
  · simp [wRegion, wSix]
  · rw [show (wFloat F).sal.length = 2 from rfl, show (wRegion x0).sal.length = 6 from rfl, rowsOf_get _ _ _ _ (by norm_num)]
    refine congrArg some (List.ext_getElem? fun i => ?_)
    by_cases hi6 : i < 6
    · have hs : wSals[i]? = some (wSals[i]'(by simpa [wSals] using hi6)) := List.getElem?_eq_getElem _
      simp [hi6, (hv i _ hs).1, hs]
    · rw [List.getElem?_eq_none (by simpa using hi6), List.getElem?_eq_none (by simpa [wSals] using hi6)]
  · rw [show (wFloat F).sal.length = 2 from rfl, show (wRegion x0).sal.length = 6 from rfl, rowsOf_get _ _ _ _ (by norm_num)]
    refine congrArg some (List.ext_getElem? fun i => ?_)
    by_cases hi6 : i < 6
    · have hs : wSals[i]? = some (wSals[i]'(by simpa [wSals] using hi6)) := List.getElem?_eq_getElem _
      rw [List.getElem?_replicate, if_pos hi6]
      simp [hi6, (hv i _ hs).2]
    · rw [List.getElem?_eq_none (by simpa using hi6), List.getElem?_eq_none (by simpa using hi6)]

/-- The six casts at the level of the float. -/
theorem wMapCasts (c : FloatPos) (x0 : ℝ) (d z pr : List ℝ) (hd : d.length = 6) (hz : z.length = 6) (hpr : pr.length = 6) :
    ∃ v, mapCasts wConfig c ⟨wSals, pr, wLongs x0, [5, 5, 5, 5, 5, 5], d, z⟩ = .ok v := by
  set H : HistData ℝ := ⟨wSals, pr, wLongs x0, [5, 5, 5, 5, 5, 5], d, z⟩ with hH
  have hproper : ProperConfig wConfig := by constructor <;> norm_num [wConfig]
  have hw : WithoutOutliers H H := by
    refine ⟨[0, 1, 2, 3, 4, 5], by simp, ?_, ?_⟩
    · intro j
      have : ¬ IsOutlier H.sal j := no_outlier_among_ten _ (by simp [hH, wSals]) j
      simp only [this, not_false_eq_true, and_true]
      simp only [hH, wSals, List.length_cons, List.length_nil, List.mem_cons, List.not_mem_nil, or_false]
      omega
    · have hall : ∀ l : List ℝ, l.length = 6 → l.map some = [0, 1, 2, 3, 4, 5].map fun (j : ℕ) => l[j]? := by
        intro l hl
        match l, hl with
        | [a, b, c, d, e, f], _ => rfl
      constructor
      · exact hall _ rfl
      · exact hall _ hpr
      · exact hall _ rfl
      · exact hall _ rfl
      · exact hall _ hd
      · exact hall _ hz
  have key := (level_fails_iff wConfig hproper c 6 H H ⟨rfl, hpr, rfl, rfl, hd, hz⟩ (by norm_num) (by intro h; change (0 : ℤ) = 1 at h; norm_num at h) hw).1
  have hobs : histObs H = [⟨some 35, some 5, some x0⟩, ⟨some 35.01, some 5, some (x0 + 1)⟩, ⟨some 35, some 5, some (x0 + 2)⟩,
      ⟨some 35.01, some 5, some (x0 + 3)⟩, ⟨some 35, some 5, some (x0 + 4)⟩, ⟨some 35.01, some 5, some (x0 + 5)⟩] := rfl
  cases hm : mapCasts wConfig c H with
  | ok v => exact ⟨v, rfl⟩
  | error e =>
    exfalso
    rcases key.1 ⟨e, hm⟩ with h | h
    · rw [hobs] at h
      obtain ⟨la, lb, xa, xb, e1, e2, e3, e4, e5⟩ := h _ (List.mem_cons_self) _ (List.mem_cons_of_mem _ List.mem_cons_self)
      simp only [Option.some.injEq] at e1 e2 e3 e4
      subst e1 e2 e3 e4
      norm_num at e5
    · have := h 0 1 ⟨some 35, some 5, some x0⟩ ⟨some 35.01, some 5, some (x0 + 1)⟩ 35 35.01 ?_ (by rw [hobs]; rfl) (by rw [hobs]; rfl) rfl rfl
      · norm_num at this
      · rw [hobs]
        refine ⟨⟨some 35, some 5, some x0⟩, ⟨some 35.01, some 5, some (x0 + 1)⟩, 1, rfl, rfl, ⟨5, 5, x0, x0 + 1, rfl, rfl, rfl, rfl, by ring⟩, by norm_num, ?_⟩
        intro k cc d hk hd hd0
        obtain ⟨la, lb, xa, xb, e1, e2, e3, e4, e5⟩ := hd
        rcases k with _ | _ | _ | _ | _ | _ | k
        · obtain rfl := Option.some.inj hk
          simp only [Option.some.injEq] at e1 e2 e3 e4
          subst e1 e2 e3 e4
          norm_num at e5
          exact absurd e5 hd0
        all_goals first
          | (obtain rfl := Option.some.inj hk
             simp only [Option.some.injEq] at e1 e2 e3 e4
             subst e1 e2 e3 e4
             exact ⟨by rw [e5]; ring_nf; norm_num, fun hlt => by omega⟩)
          | (simp at hk)

theorem wLevel (x0 e e' F : ℝ) (n0 n1 cx : ℤ) (h : WorldOk x0 e e' F n0 n1 cx) :
    ∃ p, prepare (wEnv x0 e n0 n1) (wFloat F) 5 F = .ok p ∧ p.pos.long = matchLongitude ((wLongs x0).map some) F ∧ p.grid.long = wLongs x0 ∧
      levelOf (wEnv x0 e n0 n1) (wFloat F) p 0 = .ok none ∧ ∃ o, levelOf (wEnv x0 e n0 n1) (wFloat F) p 1 = .ok (some o) := by
  obtain ⟨p, hp, h1, h2, h3, h4, h5, h6, h7⟩ := wPrepared x0 e e' F n0 n1 cx h
  refine ⟨p, hp, h1, h2, ?_, ?_⟩
  · unfold levelOf mapLevel item
    have : ¬ (wEnv x0 e n0 n1).cfg.pExclude ≤ 500 := by
      change ¬ (600 : ℝ) ≤ 500
      norm_num
    simp [wFloat, bind, Except.bind, pure, Except.pure, this]
  · obtain ⟨hh, js, j1, j2, j3, j4, j5, j6, j7, j8, j9, j10⟩ := level_mapped (wEnv x0 e n0 n1).cfg p.pos p.grid (wFloat F).sal (wFloat F).pres
      p.interpSal p.interpPres 1 6 35 1000 (wSals.map some) (List.replicate 6 (some 1000)) rfl rfl h6 h7 rfl (by simp) (by rw [h2]; rfl)
      (by rw [h3]; rfl) h4 h5.ge (by change (600 : ℝ) ≤ 1000; norm_num)
    have hjs : js = [0, 1, 2, 3, 4, 5] := by
      refine sorted_ext _ _ j1 (by simp) ?_
      intro i
      rw [j2]
      have h6i : i ∈ [0, 1, 2, 3, 4, 5] ↔ i < 6 := by simp; omega
      rw [h6i]
      unfold ComparableCast
      constructor
      · rintro ⟨s, q, -, hq, -⟩
        have := (List.getElem?_eq_some_iff.1 hq).1
        simpa using this
      · intro hi
        have hs : (wSals.map some)[i]? = some (some (wSals[i]'(by simpa [wSals] using hi))) := by
          rw [List.getElem?_map, List.getElem?_eq_getElem (by simpa [wSals] using hi)]; rfl
        refine ⟨_, 1000, hs, by rw [List.getElem?_replicate, if_pos hi], ?_⟩
        change |(1000 : ℝ) - 1000| < 250
        norm_num
    subst hjs
    have inj : ∀ {a b : List ℝ}, a.map some = b.map some → a = b := fun h => (List.map_injective_iff.2 (Option.some_injective _)) h
    have e1 : hh.sal = wSals := inj (by rw [j4]; rfl)
    have e3 : hh.long = wLongs x0 := inj (by rw [j6, h2]; rfl)
    have e4 : hh.lat = [5, 5, 5, 5, 5, 5] := inj (by rw [j7, h3]; rfl)
    obtain ⟨v, hv⟩ := wMapCasts p.pos x0 hh.dates hh.z hh.pres j3.dates j3.z j3.pres
    rw [← e4, ← e3, ← e1] at hv
    have hm := j10 (by simp)
    rw [show mapCasts (wEnv x0 e n0 n1).cfg p.pos hh = .ok v from hv] at hm
    unfold levelOf
    rw [hm]
    exact ⟨_, rfl⟩

end Verif.Props
