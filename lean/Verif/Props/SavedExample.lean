import Verif.Props.Saved
import Verif.Props.DepthExamples

/-!
# A concrete case for C133
-/

set_option linter.unusedSectionVars false
set_option maxRecDepth 4000

namespace Verif.Props

open Verif.Np Verif.Utilities Verif.Helper Verif.Region Verif.Profile Verif.Spec Verif.Spec.Profile Verif.Topo Verif.Finders Verif.Level Verif.Stats
open Verif.Lemmas.Profile Verif.Lemmas.Depth Verif.Update

theorem wEnv_rand (x0 e : ℝ) (n0 n1 : ℤ) : ValidRand (wEnv x0 e n0 n1).rand := by
  intro seed k
  refine ⟨List.length_replicate, ?_⟩
  intro u hu
  rw [List.eq_of_mem_replicate hu]
  norm_num

theorem wComplete (x y s : ℝ) : completeLevels (some 1250) (wCast x y s) = [⟨s, 10, 900⟩, ⟨s, 0, 1100⟩] := by
  unfold completeLevels
  rw [wUsable]
  rfl

theorem wMeets (x y s s' : ℝ) : Meets (some 1250) (wCast x y s) 5 1000 250 s' ↔ s' = s := by
  unfold Meets
  rw [wComplete]
  have hx : ∀ k w s' p', Crossing [⟨s, 10, 900⟩, ⟨s, 0, 1100⟩] (5 : ℝ) k w s' p' → k = 0 ∧ s' = s ∧ p' = 1000 := by
    rintro k w s' p' ⟨a, b, ha, hb, -, -, -, hv, h1, h2⟩
    rcases k with _ | _ | k
    · obtain rfl := Option.some.inj ha
      obtain rfl := Option.some.inj hb
      dsimp only at hv h1 h2
      have hw : w = 1 / 2 := by linarith
      rw [hw] at h1 h2
      exact ⟨rfl, by linarith, by linarith⟩
    · cases hb
    · cases hb
  constructor
  · rintro ⟨k, w, p, hn, -⟩
    exact (hx _ _ _ _ hn.1).2.1
  · rintro rfl
    refine ⟨0, 1 / 2, 1000, ⟨⟨_, _, rfl, rfl, by norm_num, by norm_num, by norm_num, by norm_num, by norm_num, by norm_num⟩, ?_⟩, by norm_num⟩
    intro k' w' s'' p' h
    obtain ⟨rfl, -, rfl⟩ := hx _ _ _ _ h
    exact ⟨le_refl _, fun h => by omega⟩

/-- C133 on a run over two profiles: at the second level of the second profile the six casts in the ellipse are used, none of them is an outlier, and the
entries saved are those of the two-stage estimate. -/
theorem world_saved : ∃ file : MapFile ℝ, finalFs (wRun (wEnv 91 108 170 186) [wLost, wFloat 105] [1, 2]).args (fun _ => none) "out" = some (.whole file) ∧
    storedAt file .ptmp 1 1 = some (some 5) ∧ ∃ (here : FloatPos) (samples : List Sample) (nv value err : ℝ), samples.map Sample.sal = wSals ∧
      here.lat = 5 ∧ here.z = 1260 ∧ TwoStage wConfig here (inliers samples) nv value err ∧ storedAt file .mapErrors 1 1 = some (some err) := by
  have hrun := world_runs 91 108 108 105 170 186 10 world_open [wLost, wFloat 105] [1, 2] rfl (by simp) (by simp) (fun _ => none) rfl
  have hsur : surrounding (wEnv 91 108 170 186) 105 5 = wSix 91 ++ wTwo 108 := by
    unfold surrounding
    rw [world_open.boxes]
    exact world_open.casts
  have hcfg : ProperConfig wConfig := by constructor <;> norm_num [wConfig]
  obtain ⟨file, h1, -, h3⟩ := saved_value (wRun (wEnv 91 108 170 186) [wLost, wFloat 105] [1, 2]) (fun _ => none) grid2_isInterp2d (wEnv_topo _ _ _ _)
    (wDisk_wellFormed _ _ _ _) (by change (0 : ℤ) ≠ 1; norm_num) isArgsort_stable (wEnv_rand _ _ _ _) hcfg (by change 1 ≤ 100; norm_num) (by simp [wRun]) rfl rfl hrun
  refine ⟨file, by rw [h1]; exact Function.update_self .., ?_⟩
  obtain ⟨index, kept, here, there, hk, ⟨⟨f1, f2, f3, f4⟩, ⟨xs, view, c1, c2, c3, c4⟩, c5, c6, c7⟩, key⟩ := h3 1 (wFloat 105) 5 105 rfl (wFloat_placed _) rfl rfl (by norm_num) (by norm_num) rfl rfl
    (by
      rw [show (wRun (wEnv 91 108 170 186) [wLost, wFloat 105] [1, 2]).env = wEnv 91 108 170 186 from rfl, hsur]
      intro c hc y x hy hx
      simp only [wSix, wTwo, List.cons_append, List.nil_append, List.mem_cons, List.not_mem_nil, or_false] at hc
      rcases hc with rfl | rfl | rfl | rfl | rfl | rfl | rfl | rfl <;>
        (obtain rfl := Option.some.inj hy
         obtain rfl := Option.some.inj hx
         norm_num))
  rw [show (wRun (wEnv 91 108 170 186) [wLost, wFloat 105] [1, 2]).env = wEnv 91 108 170 186 from rfl] at *
  rw [hsur] at hk c1 c2 c3 c6 c7 key
  rw [show (wEnv 91 108 170 186).cfg.pDelta = 250 from rfl, wLimit] at hk key
  -- the choice
  have hxs : xs = [91, 91 + 1, 91 + 2, 91 + 3, 91 + 4, 91 + 5, 108, 108] := by
    refine List.map_injective_iff.2 (Option.some_injective _) (c1.symm.trans rfl)
  have hun : unwrapped xs = xs := by
    have := wrapLongitude_unwrapped xs
    rw [← c1, world_open.wrap] at this
    exact (List.map_injective_iff.2 (Option.some_injective _) (this.symm.trans (by rw [hxs]; rfl)))
  have hbe : besideCasts (unwrapped xs) 105 = 105 := by
    unfold besideCasts
    rw [if_neg (by rintro ⟨-, -, h⟩; norm_num at h)]
  rw [hbe] at c4
  rw [hun] at c3
  have hv : ∀ (n : ℕ) (x : ℝ) (c : RefCast ℝ), (wSix 91 ++ wTwo 108)[n]? = some c → xs[n]? = some x → ∃ (y : ℝ) (t d : Option ℝ), c.lat = some y ∧ view[n]? = some (⟨some x, some y, t, d⟩ : Cast) := by
    intro n x c hc hx
    obtain ⟨y, d, e1, -, e2⟩ := c3 n c x hc hx
    exact ⟨y, _, _, e1, by rw [e2, hx]⟩
  have hin : ∀ (x y z : ℝ) (t g : Option ℝ), InEllipse ⟨5, 105, (wFloat 105).date, z, (wEnv 91 108 170 186).cfg.latLarge, (wEnv 91 108 170 186).cfg.latSmall,
      (wEnv 91 108 170 186).cfg.longLarge, (wEnv 91 108 170 186).cfg.longSmall, (wEnv 91 108 170 186).cfg.phiLarge, (wEnv 91 108 170 186).cfg.phiSmall,
      (wEnv 91 108 170 186).cfg.ageLarge, (wEnv 91 108 170 186).cfg.ageSmall, (wEnv 91 108 170 186).cfg.usePv, (wEnv 91 108 170 186).maxCasts⟩
        ⟨some x, some y, t, g⟩ ↔ ((x - 105) / 24) ^ 2 + ((y - 5) / 12) ^ 2 < 1 := by
    intro x y z t g
    unfold InEllipse wEnv wConfig
    norm_num
  have hcount : view.length ≤ 100 := by rw [c2]; change 8 ≤ 100; norm_num
  obtain ⟨i1, i2⟩ := c4.few (le_trans List.countP_le_length hcount)
  have hidx : ∀ n, n ∈ index ↔ n < 6 := by
    intro n
    constructor
    · intro hn
      obtain ⟨c, hc, hc2⟩ := c4.inside n hn
      have hn8 : n < 8 := by
        have := (List.getElem?_eq_some_iff.1 hc).1
        rw [c2] at this
        exact this
      by_contra h6
      have hx : xs[n]? = some 108 := by
        rw [hxs]
        rcases (show n = 6 ∨ n = 7 by omega) with rfl | rfl <;> rfl
      have hw : (wSix 91 ++ wTwo 108)[n]? = some (wCast 108 28 35) := by
        rcases (show n = 6 ∨ n = 7 by omega) with rfl | rfl <;> rfl
      obtain ⟨y, t, d, e1, e2⟩ := hv n 108 _ hw hx
      obtain rfl := Option.some.inj e1
      rw [e2] at hc
      obtain rfl := Option.some.inj hc
      rw [hin] at hc2
      norm_num at hc2
    · intro hn
      have hx : ∃ x, xs[n]? = some x ∧ 91 ≤ x ∧ x ≤ 96 := by
        rw [hxs]
        rcases (show n = 0 ∨ n = 1 ∨ n = 2 ∨ n = 3 ∨ n = 4 ∨ n = 5 by omega) with rfl | rfl | rfl | rfl | rfl | rfl <;>
          exact ⟨_, rfl, by norm_num, by norm_num⟩
      have hw : ∃ c, (wSix 91 ++ wTwo 108)[n]? = some c ∧ c.lat = some 5 := by
        rcases (show n = 0 ∨ n = 1 ∨ n = 2 ∨ n = 3 ∨ n = 4 ∨ n = 5 by omega) with rfl | rfl | rfl | rfl | rfl | rfl <;>
          exact ⟨_, rfl, rfl⟩
      obtain ⟨x, x1, x2, x3⟩ := hx
      obtain ⟨c, w1, w2⟩ := hw
      obtain ⟨y, t, d, e1, e2⟩ := hv n x c w1 x1
      rw [w2] at e1
      obtain rfl := Option.some.inj e1
      refine i2 n _ e2 ?_
      rw [hin]
      nlinarith
  have hkept : kept = [0, 1, 2, 3, 4, 5] := by
    rw [hk]
    refine sorted_ext _ _ ?_ (by simp) ?_
    · exact List.pairwise_lt_range.filter _
    · intro n
      simp only [keptNumbers, List.mem_filter, List.mem_range, decide_eq_true_eq, hidx]
      constructor
      · rintro ⟨-, h, -⟩
        simp; omega
      · intro hn
        have : n < 6 := by simp at hn; omega
        refine ⟨by change n < 8; omega, this, ?_⟩
        rcases (show n = 0 ∨ n = 1 ∨ n = 2 ∨ n = 3 ∨ n = 4 ∨ n = 5 by omega) with rfl | rfl | rfl | rfl | rfl | rfl <;>
          exact ⟨_, rfl, wHasData _ _ _⟩
  obtain ⟨used, u1, u2, -, u4⟩ := key 1 35 1000 (by change 1 < 2; norm_num) rfl rfl (by change (600 : ℝ) ≤ 1000; norm_num)
  have hused : ∀ k s, (k, s) ∈ used ↔ wSals[k]? = some s := by
    intro k s
    rw [u2, hkept]
    constructor
    · rintro ⟨j, c, v, e1, e2, e3, e4⟩
      obtain rfl := Option.some.inj (Option.some.inj e3)
      have hk6 : k < 6 := by simpa using (List.getElem?_eq_some_iff.1 e1).1
      rcases (show k = 0 ∨ k = 1 ∨ k = 2 ∨ k = 3 ∨ k = 4 ∨ k = 5 by omega) with rfl | rfl | rfl | rfl | rfl | rfl <;>
        (obtain rfl := Option.some.inj e1
         obtain rfl := Option.some.inj e2
         rw [(wMeets _ _ _ _).1 e4]
         rfl)
    · intro h
      have hk6 : k < 6 := by simpa [wSals] using (List.getElem?_eq_some_iff.1 h).1
      rcases (show k = 0 ∨ k = 1 ∨ k = 2 ∨ k = 3 ∨ k = 4 ∨ k = 5 by omega) with rfl | rfl | rfl | rfl | rfl | rfl <;>
        exact ⟨_, _, _, rfl, rfl, rfl, (wMeets _ _ _ _).2 (Option.some.inj h).symm⟩
  have hul : used = [(0, 35), (1, 35.01), (2, 35), (3, 35.01), (4, 35), (5, 35.01)] := by
    have hp : List.Pairwise (fun a b : ℕ × ℝ => a.1 < b.1) [(0, 35), (1, 35.01), (2, 35), (3, 35.01), (4, 35), (5, 35.01)] := by simp
    refine List.Perm.eq_of_pairwise (fun a b _ _ h1 h2 => absurd h1 (by omega)) u1 hp
      ((List.perm_ext_iff_of_nodup (u1.imp fun h e => ?_) (hp.imp fun h e => ?_)).2 ?_)
    · rw [e] at h; omega
    · rw [e] at h; omega
    · rintro ⟨k, s⟩
      rw [hused]
      rcases k with _ | _ | _ | _ | _ | _ | k <;> simp [wSals, eq_comm]
  obtain ⟨samples, nv, value, err, s1, -, -, s3, s4, -, -, s5, -⟩ := u4 (by rw [hul]; simp)
  refine ⟨s4, here, samples, nv, value, err, ?_, f1, ?_, s3, s5⟩
  · rw [hul] at s1
    have hl : there.length = 6 := by rw [c5, hkept]; rfl
    match there, hl with
    | [a0, a1, a2, a3, a4, a5], _ =>
      have : samples = [⟨35, a0⟩, ⟨35.01, a1⟩, ⟨35, a2⟩, ⟨35.01, a3⟩, ⟨35, a4⟩, ⟨35.01, a5⟩] :=
        List.map_injective_iff.2 (Option.some_injective _) (s1.trans rfl)
      rw [this]
      rfl
  · have h := wTopo_depth (max 5 (-1079 / 12)) 105 (by norm_num) (by norm_num) (by norm_num) (by norm_num)
    rw [depth_unique _ _ _ _ _ f4 h]
    norm_num

end Verif.Props
