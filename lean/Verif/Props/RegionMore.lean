import Verif.Props.Region
import Verif.Props.Utilities
import Verif.Props.Besthist

/-!
# C43, C45: numbering of the casts, and the depths attached to them
-/

set_option linter.unusedSectionVars false

namespace Verif.Props

open Verif.Np Verif.Utilities Verif.Helper Verif.Spec Verif.Region Verif.Finders

variable {K : Type} [Field K] [LinearOrder K] [IsStrictOrderedRing K]

theorem chosen_concat (index : List ℕ) (casts : List (RefCast K)) (c : RefCast K) :
    chosen index (casts ++ [c]) = chosen index casts ++ if casts.length ∈ index then [c] else [] := by
  rw [chosen_eq, selFrom_append, selFrom_cons, selFrom_nil, List.append_nil, Nat.zero_add]
  rfl

open Classical in
theorem keptNumbers_concat (limit : Option K) (index : List ℕ) (casts : List (RefCast K)) (c : RefCast K) :
    keptNumbers limit index (casts ++ [c]) = keptNumbers limit index casts ++
      if casts.length ∈ index ∧ HasData limit c then [casts.length] else [] := by
  unfold keptNumbers
  rw [List.length_append, List.length_singleton, List.range_succ, List.filter_append]
  congr 1
  · apply List.filter_congr
    intro k hk
    rw [List.getElem?_append_left (List.mem_range.1 hk)]
  · by_cases h : casts.length ∈ index ∧ HasData limit c
    · rw [if_pos h, List.filter_cons_of_pos]
      · rfl
      · simpa using h
    · rw [if_neg h, List.filter_cons_of_neg]
      · rfl
      · simpa using h

open Classical in
theorem kept_casts (limit : Option K) (index : List ℕ) (casts : List (RefCast K)) :
    ((chosen index casts).filter fun c => decide (HasData limit c)).map some =
      (keptNumbers limit index casts).map fun (k : ℕ) => casts[k]? := by
  induction casts using List.reverseRecOn with
  | nil => rfl
  | append_singleton casts c ih =>
    rw [chosen_concat, keptNumbers_concat, List.filter_append, List.map_append, List.map_append, ih]
    congr 1
    · apply List.map_congr_left
      intro k hk
      have : k < casts.length := List.mem_range.1 (List.mem_filter.1 hk).1
      rw [List.getElem?_append_left this]
    · by_cases h1 : casts.length ∈ index
      · by_cases h2 : HasData limit c <;> simp [h1, h2]
      · simp [h1]

theorem zip_filter_fst {α β : Type} (l : List α) (m : List β) (h : l.length = m.length) (q : α → Bool) :
    ((l.zip m).filter fun p => q p.1).map (·.1) = l.filter q := by
  induction l generalizing m with
  | nil => simp
  | cons a l ih =>
    cases m with
    | nil => simp at h
    | cons b m =>
      rw [List.zip_cons_cons, List.filter_cons, List.filter_cons]
      by_cases hq : q a = true
      · simp only [hq, if_true, List.map_cons]
        rw [ih m (by simpa using h)]
      · simp only [hq]
        exact ih m (by simpa using h)

/-- Two longitudes, possibly missing, are equal up to whole turns. -/
def SameLongitude (o o' : Option K) : Prop :=
  (o = none ∧ o' = none) ∨ ∃ (x y : K) (n : ℤ), o = some x ∧ o' = some y ∧ x = y + 360 * n

theorem wrap_pair (l : List (RefCast K)) (p : RefCast K × Option K) (hp : p ∈ l.zip (wrapLongitude (l.map (·.long)))) :
    SameLongitude p.2 p.1.long := by
  have h := wrap_longitude_congruent (l.map (·.long))
  obtain ⟨i, hi⟩ := List.mem_iff_getElem?.1 hp
  rw [List.getElem?_zip_eq_some] at hi
  obtain ⟨h1, h2⟩ := hi
  have hl : i < l.length := by
    by_contra hc
    rw [List.getElem?_eq_none (not_lt.1 hc)] at h1; cases h1
  rw [List.forall₂_iff_get] at h
  have := h.2 i (by simpa using hl) (by rw [← h.1]; simpa using hl)
  rw [List.get_eq_getElem, List.get_eq_getElem] at this
  have e1 : (l.map (·.long))[i]'(by simpa using hl) = p.1.long := by
    rw [List.getElem?_eq_getElem hl] at h1
    simp [Option.some.inj h1]
  have e2 : (wrapLongitude (l.map (·.long)))[i]'(by rw [← h.1]; simpa using hl) = p.2 := by
    rw [List.getElem?_eq_getElem (by rw [← h.1]; simpa using hl)] at h2
    exact Option.some.inj h2
  rw [e1, e2] at this
  rcases this with ⟨a, b⟩ | ⟨x, n, a, b⟩
  · exact Or.inl ⟨b, a⟩
  · exact Or.inr ⟨x + 360 * n, x, n, b, a, by push_cast; ring⟩

theorem sameLongitude_trans {a b c : Option K} (h1 : SameLongitude a b) (h2 : SameLongitude c b) : SameLongitude a c := by
  rcases h1 with ⟨rfl, rfl⟩ | ⟨x, y, n, rfl, rfl, e⟩
  · rcases h2 with ⟨rfl, _⟩ | ⟨_, _, _, _, h, _⟩
    · exact Or.inl ⟨rfl, rfl⟩
    · cases h
  · rcases h2 with ⟨_, h⟩ | ⟨x', y', m, rfl, h, e'⟩
    · cases h
    · have : y = y' := Option.some.inj h
      subst this
      exact Or.inr ⟨x, x', n - m, rfl, rfl, by rw [e, e']; push_cast; ring⟩

open Classical in
/-- C43. The two functions number the casts in the same way. Let `lats`, `longs`, `dates` be what `get_region_hist_locations`
returns. The casts that `get_region_data(index)` returns are those with the numbers `keptNumbers`, in this order: latitude and date
are the entries of `lats` and `dates` under these numbers, the longitude is the entry of `longs` up to whole turns, and the column is that
of the cast with this number. -/
theorem region_data_numbering (disk : Disk K) (hw : WellFormedDisk disk) (name : List Char) (boxes : List WmoBox)
    (index : List ℕ) (floatPres : List (Option K)) (delta : K) (c0 : RefCast K) (l0 : List (RefCast K))
    (hsel : chosen index (refCasts disk name boxes) = c0 :: l0)
    (h0 : usableLevels (pressureLimit floatPres delta) c0 ≠ []) :
    ∃ (lats longs : List (Option K)) (dates : List K) (out : RegionData K),
      histLocations disk name boxes = .ok (lats, longs, dates) ∧
      regionData disk name boxes index floatPres delta = .ok out ∧
      out.lat.map some = (keptNumbers (pressureLimit floatPres delta) index (refCasts disk name boxes)).map (fun k => lats[k]?) ∧
      out.dates.map some = (keptNumbers (pressureLimit floatPres delta) index (refCasts disk name boxes)).map (fun k => dates[k]?) ∧
      out.long.length = (keptNumbers (pressureLimit floatPres delta) index (refCasts disk name boxes)).length ∧
      (∀ (j k : ℕ) (o o' : Option K), (keptNumbers (pressureLimit floatPres delta) index (refCasts disk name boxes))[j]? = some k →
        out.long[j]? = some o → longs[k]? = some o' → SameLongitude o o') ∧
      ∃ depth, depth = depthOf (pressureLimit floatPres delta) (chosen index (refCasts disk name boxes)) ∧
        (∀ k ∈ keptNumbers (pressureLimit floatPres delta) index (refCasts disk name boxes), ∀ c, (refCasts disk name boxes)[k]? = some c →
          (usableLevels (pressureLimit floatPres delta) c).length ≤ depth) ∧
        out.pres.map some = (keptNumbers (pressureLimit floatPres delta) index (refCasts disk name boxes)).map (fun (k : ℕ) =>
          ((refCasts disk name boxes)[k]?).map fun c => (columnOf (pressureLimit floatPres delta) depth c).map (·.1)) ∧
        out.ptmp.map some = (keptNumbers (pressureLimit floatPres delta) index (refCasts disk name boxes)).map (fun (k : ℕ) =>
          ((refCasts disk name boxes)[k]?).map fun c => (columnOf (pressureLimit floatPres delta) depth c).map (·.2.1)) ∧
        out.sal.map some = (keptNumbers (pressureLimit floatPres delta) index (refCasts disk name boxes)).map (fun (k : ℕ) =>
          ((refCasts disk name boxes)[k]?).map fun c => (columnOf (pressureLimit floatPres delta) depth c).map (·.2.2)) := by
  have hne : refCasts disk name boxes ≠ [] := by
    intro h; rw [h] at hsel; cases hsel
  refine ⟨_, _, _, _, (hist_locations_spec disk hw name boxes).2 hne,
    region_data_spec disk hw name boxes index floatPres delta c0 l0 hsel h0, ?_⟩
  clear hsel h0 hne
  generalize pressureLimit floatPres delta = limit
  generalize refCasts disk name boxes = casts
  have hk := kept_casts limit index casts
  have hz := zip_filter_fst (chosen index casts) (wrapLongitude ((chosen index casts).map (·.long)))
    (by rw [wrapLongitude_len, List.length_map]) (fun c => decide (HasData limit c))
  have hf : ∀ {β : Type} (f : RefCast K → β),
      (((chosen index casts).zip (wrapLongitude ((chosen index casts).map (·.long)))).filter
        (fun p => decide (HasData limit p.1))).map (fun p => some (f p.1)) =
      (keptNumbers limit index casts).map fun (k : ℕ) => (casts[k]?).map f := by
    intro β f
    have e1 : (fun p : RefCast K × Option K => some (f p.1)) = (fun o : Option (RefCast K) => o.map f) ∘ some ∘ Prod.fst := rfl
    rw [e1, ← List.map_map, ← List.map_map]
    erw [hz, hk]
    rw [List.map_map]
    rfl
  unfold regionResult
  dsimp only
  simp only [List.map_map]
  refine ⟨?_, ?_, ?_, ?_, ⟨_, rfl, ?_, hf fun c => (columnOf limit (depthOf limit (chosen index casts)) c).map (fun (l : CastLevel K) => l.1),
    hf fun c => (columnOf limit (depthOf limit (chosen index casts)) c).map (fun (l : CastLevel K) => l.2.1),
    hf fun c => (columnOf limit (depthOf limit (chosen index casts)) c).map (fun (l : CastLevel K) => l.2.2)⟩⟩
  · refine (hf fun c => c.lat).trans ?_
    apply List.map_congr_left
    intro k _
    rw [List.getElem?_map]
  · refine (hf fun c => (decimalDate c : K)).trans ?_
    apply List.map_congr_left
    intro k _
    rw [List.getElem?_map]
  · have := congrArg List.length (hf fun c => c)
    simpa using this
  · intro j k o o' hj ho ho'
    rw [List.getElem?_map, Option.map_eq_some_iff] at ho
    obtain ⟨p, hp, rfl⟩ := ho
    have hmem := (List.mem_filter.1 (List.mem_of_getElem? hp)).1
    have h1 := wrap_pair _ p hmem
    have hc : casts[k]? = some p.1 := by
      have := congrArg (fun l => l[j]?) (hf fun c => c)
      simp only [List.getElem?_map, hp, hj, Option.map_some, Option.map_id'] at this
      exact (Option.some.inj this).symm
    have h2 : SameLongitude o' p.1.long := by
      apply wrap_pair casts (p.1, o')
      rw [List.mem_iff_getElem?]
      exact ⟨k, by rw [List.getElem?_zip_eq_some]; exact ⟨hc, ho'⟩⟩
    exact sameLongitude_trans h1 h2
  · intro k hk c hc
    refine le_depthOf limit _ c ?_
    have hm := (List.mem_filter.1 hk).2
    simp only [decide_eq_true_eq] at hm
    unfold chosen
    rw [List.mem_map]
    refine ⟨(c, k), List.mem_filter.2 ⟨?_, by simpa using hm.1⟩, rfl⟩
    rw [List.mem_zipIdx_iff_getElem?]
    exact hc

/-- C85, in part. If the first chosen cast has a usable level, a chosen cast without usable levels costs only itself: `get_region_data` returns
one column for every chosen cast that has data. Missing: the case that the first chosen cast has none, in which the property
is false (`region_data_first_cast_empty`). -/
theorem region_lost_casts_partial (disk : Disk K) (hw : WellFormedDisk disk) (name : List Char) (boxes : List WmoBox)
    (index : List ℕ) (floatPres : List (Option K)) (delta : K) (c0 : RefCast K) (l0 : List (RefCast K))
    (hsel : chosen index (refCasts disk name boxes) = c0 :: l0)
    (h0 : usableLevels (pressureLimit floatPres delta) c0 ≠ []) :
    ∃ out, regionData disk name boxes index floatPres delta = .ok out ∧
      ∀ k : ℕ, (k ∈ index ∧ ∃ c, (refCasts disk name boxes)[k]? = some c ∧ HasData (pressureLimit floatPres delta) c) ↔
        ∃ j : ℕ, j < out.sal.length ∧ (keptNumbers (pressureLimit floatPres delta) index (refCasts disk name boxes))[j]? = some k := by
  obtain ⟨lats, longs, dates, out, -, h2, -, -, -, -, depth, -, -, -, -, h8⟩ :=
    region_data_numbering disk hw name boxes index floatPres delta c0 l0 hsel h0
  refine ⟨out, h2, fun k => ?_⟩
  have hlen : out.sal.length = (keptNumbers (pressureLimit floatPres delta) index (refCasts disk name boxes)).length := by
    simpa using congrArg List.length h8
  constructor
  · rintro ⟨hk, c, hc, hd⟩
    have : k ∈ keptNumbers (pressureLimit floatPres delta) index (refCasts disk name boxes) := by
      unfold keptNumbers
      refine List.mem_filter.2 ⟨List.mem_range.2 ?_, by simpa using ⟨hk, c, hc, hd⟩⟩
      by_contra hcon
      rw [List.getElem?_eq_none (not_lt.1 hcon)] at hc
      cases hc
    obtain ⟨j, hj, he⟩ := List.mem_iff_getElem.1 this
    exact ⟨j, by omega, by rw [List.getElem?_eq_getElem hj, he]⟩
  · rintro ⟨j, -, hj⟩
    have := (List.mem_filter.1 (List.mem_of_getElem? hj)).2
    simpa using this

/-! ## C45 -/

theorem keptNumbers_sorted (limit : Option K) (index : List ℕ) (casts : List (RefCast K)) :
    (keptNumbers limit index casts).Pairwise (· < ·) := by
  classical
  unfold keptNumbers
  exact List.Pairwise.filter _ List.pairwise_lt_range

theorem map_get_inj {α : Type} (zs : List α) (hn : zs.Nodup) (a b : List ℕ) (ha : ∀ k ∈ a, k < zs.length)
    (hb : ∀ k ∈ b, k < zs.length) (h : a.map (fun (k : ℕ) => zs[k]?) = b.map (fun (k : ℕ) => zs[k]?)) : a = b := by
  induction a generalizing b with
  | nil => cases b with
    | nil => rfl
    | cons y b => simp at h
  | cons x a ih => cases b with
    | nil => simp at h
    | cons y b =>
      simp only [List.map_cons, List.cons.injEq] at h
      have hx := ha x (by simp)
      have hy := hb y (by simp)
      rw [List.getElem?_eq_getElem hx, List.getElem?_eq_getElem hy] at h
      rw [ih b (fun k hk => ha k (by simp [hk])) (fun k hk => hb k (by simp [hk])) h.2,
        (hn.getElem_inj_iff).1 (Option.some.inj h.1)]

/-- C45. The depths that the mapping loop attaches (`grid_z[index]`, pyowc/calibration.py:216) to the casts returned by
`get_region_data` are the depths of these casts exactly if `index` is ascending, without duplicates, and every cast in it has data. Depths
of different casts are taken to be different; `zs` is `grid_z`, one depth per cast of `get_region_hist_locations`. -/
theorem attached_depths_partial (limit : Option K) (index : List ℕ) (casts : List (RefCast K)) (zs : List K)
    (hz : zs.length = casts.length) (hn : zs.Nodup) (hi : ∀ k ∈ index, k < casts.length) :
    ∃ depths, gather zs index = .ok depths ∧
      (depths.map some = (keptNumbers limit index casts).map (fun (k : ℕ) => zs[k]?) ↔
        index.Pairwise (· < ·) ∧ ∀ k ∈ index, ∃ c, casts[k]? = some c ∧ HasData limit c) := by
  haveI : Inhabited K := ⟨0⟩
  have hg : gather zs index = .ok (index.map (fun (i : ℕ) => zs[i]!)) := gather_ok zs index (fun i h => by rw [hz]; exact hi i h)
  refine ⟨_, hg, ?_⟩
  have hs : (index.map (fun (i : ℕ) => zs[i]!)).map some = index.map (fun (k : ℕ) => zs[k]?) := by
    rw [List.map_map]
    apply List.map_congr_left
    intro k hk
    have : k < zs.length := by rw [hz]; exact hi k hk
    simp [this]
  rw [hs]
  classical
  have hkl : ∀ k ∈ keptNumbers limit index casts, k < casts.length := by
    intro k hk
    exact List.mem_range.1 (List.mem_filter.1 hk).1
  constructor
  · intro h
    have he : index = keptNumbers limit index casts := by
      refine map_get_inj zs hn _ _ (fun k hk => by rw [hz]; exact hi k hk) (fun k hk => by rw [hz]; exact hkl k hk) h
    constructor
    · rw [he]; exact keptNumbers_sorted _ _ _
    · intro k hk
      rw [he] at hk
      have := (List.mem_filter.1 hk).2
      simpa using (of_decide_eq_true this).2
  · rintro ⟨h1, h2⟩
    have he : keptNumbers limit index casts = index := by
      apply List.Perm.eq_of_pairwise' (r := (· < ·)) (keptNumbers_sorted _ _ _) h1
      rw [List.perm_ext_iff_of_nodup ((keptNumbers_sorted limit index casts).imp (fun h => h.ne)) (h1.imp (fun h => h.ne))]
      intro k
      unfold keptNumbers
      simp only [List.mem_filter, List.mem_range, decide_eq_true_eq]
      exact ⟨fun h => h.2.1, fun h => ⟨hi k h, h, h2 k h⟩⟩
    rw [he]

/-- C45 is false of the code. If four or more casts lie in the ellipse, three are asked for, and the casts are listed by falling
distance, `find_besthist` never returns ascending numbers, whatever the random numbers and the sort; by
`attached_depths_partial` the depths are then attached to the wrong casts. -/
theorem besthist_not_ascending (A : BesthistArgs) (hpv : A.mapPvUse ≠ 1) (h3 : A.maxCasts = 3)
    (argsort : List (Option ℝ) → List ℕ) (hsort : IsArgsort argsort) (rand : ℕ → ℕ → List ℝ) (hrand : ValidRand rand)
    (casts : List Cast) (hm : 3 < numInside A casts)
    (hdist : ∀ (i j : ℕ) (ci cj : Cast), casts[i]? = some ci → casts[j]? = some cj → i < j →
      ∃ x y, distance A A.longLarge A.latLarge A.ageLarge ci = some x ∧
        distance A A.longLarge A.latLarge A.ageLarge cj = some y ∧ y < x) :
    ∃ out, findBesthist A argsort rand casts = .ok out ∧ out.Nodup ∧ out.length = 3 ∧ ¬ out.Pairwise (· < ·) := by
  obtain ⟨R, L, S, he, h1, h2, h4, h5, hL, _⟩ := besthist_closest_partial A hpv argsort hsort rand hrand casts (Or.inl h3)
    (by omega)
  obtain ⟨out, ho, hlen, hnd⟩ := besthist_many_exact_size A argsort hsort rand hrand casts (fun h => absurd h hpv) (Or.inl h3)
    (by omega)
  have hin := besthist_only_inside A argsort hsort rand hrand casts (by omega) out ho
  rw [he] at ho
  have hout : R ++ L ++ S = out := Except.ok.inj ho
  refine ⟨out, by rw [he, hout], hnd, by omega, ?_⟩
  rw [h3] at h2 h4 h5
  obtain ⟨i, rfl⟩ : ∃ i, L = [i] := List.length_eq_one_iff.1 (by omega)
  obtain ⟨j, rfl⟩ : ∃ j, S = [j] := List.length_eq_one_iff.1 (by omega)
  intro hp
  rw [← hout] at hp hnd hin
  have hij : i < j := by
    rw [List.append_assoc, List.pairwise_append] at hp
    simpa using hp.2.1
  obtain ⟨ci, hci, _⟩ := hin i (by simp)
  obtain ⟨cj, hcj, hej⟩ := hin j (by simp)
  have hjR : j ∉ R := by
    intro h
    rw [List.append_assoc, List.nodup_append] at hnd
    exact hnd.2.2 j h j (by simp) rfl
  have := hL i (by simp) j cj hcj hej hjR (by simpa using (by omega : ¬ j = i))
  obtain ⟨x, y, hx, hy, hlt⟩ := hdist i j ci cj hci hcj hij
  obtain ⟨x', hx', hle⟩ := this y hy
  rw [show casts[i]! = ci by simp [hci]] at hx'
  rw [hx] at hx'
  have := Option.some.inj hx'
  subst this
  exact absurd hlt (not_lt.2 hle)

end Verif.Props
