import Verif.Spec.Depth
import Mathlib.Tactic.Ring
import Mathlib.Tactic.FieldSimp
import Mathlib.Tactic.Linarith
import Mathlib.Tactic.NormNum

/-!
# Lemmas about depths
-/

set_option linter.unusedSectionVars false

namespace Verif.Lemmas.Depth

open Verif.Spec Verif.Topo

/-- A point between the ends of a list lies between two neighbours. -/
theorem between_neighbours (l : List ℝ) : ∀ (w e x : ℝ), l.head? = some w → l.getLast? = some e → w < e → w ≤ x → x ≤ e →
    ∃ (k : ℕ) (a b : ℝ), l[k]? = some a ∧ l[k + 1]? = some b ∧ a ≤ x ∧ x ≤ b := by
  induction l with
  | nil => intro w e x h; cases h
  | cons a l ih =>
    intro w e x hw he hwe h1 h2
    obtain rfl : a = w := Option.some.inj hw
    cases l with
    | nil =>
      obtain rfl : a = e := Option.some.inj he
      exact absurd hwe (lt_irrefl _)
    | cons b t =>
      by_cases hb : x ≤ b
      · exact ⟨0, a, b, rfl, rfl, h1, hb⟩
      · push Not at hb
        rw [List.getLast?_cons_cons] at he
        by_cases hbe : b < e
        · obtain ⟨k, a', b', g1, g2, g3, g4⟩ := ih b e x rfl he hbe hb.le h2
          exact ⟨k + 1, a', b', g1, g2, g3, g4⟩
        · linarith

/-- The same for a descending list. -/
theorem between_neighbours_desc (l : List ℝ) (n s y : ℝ) (hn : l.head? = some n) (hs : l.getLast? = some s) (hns : s < n) (h1 : y ≤ n) (h2 : s ≤ y) :
    ∃ (k : ℕ) (a b : ℝ), l[k]? = some a ∧ l[k + 1]? = some b ∧ b ≤ y ∧ y ≤ a := by
  obtain ⟨k, a, b, g1, g2, g3, g4⟩ := between_neighbours (l.map fun t => -t) (-n) (-s) (-y) (by rw [List.head?_map, hn]; rfl)
    (by rw [List.getLast?_map, hs]; rfl) (by linarith) (by linarith) (by linarith)
  rw [List.getElem?_map, Option.map_eq_some_iff] at g1 g2
  obtain ⟨a', e1, rfl⟩ := g1
  obtain ⟨b', e2, rfl⟩ := g2
  exact ⟨k, a', b', e1, e2, by linarith, by linarith⟩

/-- Steps of one sign make a list strictly monotone. -/
theorem pairwise_of_steps (r : ℝ → ℝ → Prop) [IsTrans ℝ r] (l : List ℝ) (h : ∀ (j : ℕ) (a b : ℝ), l[j]? = some a → l[j + 1]? = some b → r a b) :
    l.Pairwise r := by
  rw [← List.isChain_iff_pairwise]
  induction l with
  | nil => exact List.IsChain.nil
  | cons a l ih =>
    cases l with
    | nil => exact List.IsChain.singleton a
    | cons b t =>
      rw [List.isChain_cons_cons]
      exact ⟨h 0 a b rfl rfl, ih fun j x y hx hy => h (j + 1) x y hx hy⟩

/-- The elevation is the same after whole turns. -/
theorem elevation_turn (file : List ℤ) (lat lon : ℝ) (z : ℤ) (n : ℤ) (h : ElevationAt file lat (lon + 360 * n) z) : ElevationAt file lat lon z := by
  obtain ⟨row, col, turns, h1, h2, h3, h4⟩ := h
  exact ⟨row, col, turns + n, h1, by rw [h2]; push_cast; ring, h3, h4⟩

/-- The depth is the same after whole turns. -/
theorem depth_turn (file : List ℤ) (lat lon d : ℝ) (n : ℤ) (h : DepthAt file lat (lon + 360 * n) d) : DepthAt file lat lon d := by
  obtain ⟨i, j, a, b, c, e, h1, h2, h3, h4, g1, g2, g3, g4, g5⟩ := h
  have key : ∀ k : ℤ, ((k : ℝ) / 12) = (((k - 4320 * n : ℤ) : ℝ) / 12) + 360 * n := by intro k; push_cast; ring
  have key' : ((j + 1 : ℤ) : ℝ) / 12 = (((j - 4320 * n + 1 : ℤ) : ℝ) / 12) + 360 * n := by push_cast; ring
  refine ⟨i, j - 4320 * n, a, b, c, e, elevation_turn _ _ _ _ n ?_, elevation_turn _ _ _ _ n ?_, elevation_turn _ _ _ _ n ?_, elevation_turn _ _ _ _ n ?_,
    g1, g2, ?_, ?_, ?_⟩
  · rw [← key]; exact h1
  · rw [← key']; exact h2
  · rw [← key]; exact h3
  · rw [← key']; exact h4
  · push_cast; linarith
  · push_cast; linarith
  · rw [g5]; congr 2; push_cast; ring

/-- The elevation of a node is unique. -/
theorem elevation_unique (file : List ℤ) (lat lon : ℝ) (z z' : ℤ) (h : ElevationAt file lat lon z) (h' : ElevationAt file lat lon z') : z = z' := by
  obtain ⟨row, col, turns, h1, h2, h3, h4⟩ := h
  obtain ⟨row', col', turns', h1', h2', h3', h4'⟩ := h'
  have er : row = row' := by
    have : (row : ℝ) = row' := by rw [h1, h1']
    exact_mod_cast this
  have ec : col = col' := by
    have : (col : ℝ) - col' = 4320 * ((turns - turns' : ℤ) : ℝ) := by rw [h2, h2']; push_cast; ring
    have : (col : ℤ) - col' = 4320 * (turns - turns') := by exact_mod_cast this
    omega
  rw [er, ec, h4'] at h4
  exact (Option.some.inj h4).symm

/-- Two cells with a common point are equal or neighbours. -/
theorem cell_cases (i i' : ℤ) (t : ℝ) (h1 : (i : ℝ) ≤ t) (h2 : t ≤ i + 1) (h1' : (i' : ℝ) ≤ t) (h2' : t ≤ i' + 1) :
    i' = i ∨ (i' = i + 1 ∧ t = i + 1) ∨ (i = i' + 1 ∧ t = i' + 1) := by
  have a : (i : ℝ) ≤ i' + 1 := by linarith
  have b : (i' : ℝ) ≤ i + 1 := by linarith
  have a' : i ≤ i' + 1 := by exact_mod_cast a
  have b' : i' ≤ i + 1 := by exact_mod_cast b
  rcases (show i' = i ∨ i' = i + 1 ∨ i = i' + 1 by omega) with h | h | h
  · exact Or.inl h
  · refine Or.inr (Or.inl ⟨h, ?_⟩)
    subst h; push_cast at h1'; linarith
  · refine Or.inr (Or.inr ⟨h, ?_⟩)
    subst h; push_cast at h1; linarith

/-- The depth at a position is unique. -/
theorem depth_unique (file : List ℤ) (lat lon d d' : ℝ) (h : DepthAt file lat lon d) (h' : DepthAt file lat lon d') : d = d' := by
  obtain ⟨i, j, a, b, c, e, h1, h2, h3, h4, g1, g2, g3, g4, rfl⟩ := h
  obtain ⟨i', j', a', b', c', e', h1', h2', h3', h4', g1', g2', g3', g4', rfl⟩ := h'
  rw [neg_inj]
  unfold bilinear
  rcases cell_cases i i' _ g1 g2 g1' g2' with rfl | ⟨rfl, et⟩ | ⟨rfl, et⟩ <;> rcases cell_cases j j' _ g3 g4 g3' g4' with rfl | ⟨rfl, es⟩ | ⟨rfl, es⟩
  · rw [elevation_unique _ _ _ _ _ h1 h1', elevation_unique _ _ _ _ _ h2 h2', elevation_unique _ _ _ _ _ h3 h3', elevation_unique _ _ _ _ _ h4 h4']
  · rw [elevation_unique _ _ _ _ _ h2 h1', elevation_unique _ _ _ _ _ h4 h3', es]; push_cast; ring
  · rw [elevation_unique _ _ _ _ _ h1 h2', elevation_unique _ _ _ _ _ h3 h4', es]; push_cast; ring
  · rw [elevation_unique _ _ _ _ _ h3 h1', elevation_unique _ _ _ _ _ h4 h2', et]; push_cast; ring
  · rw [elevation_unique _ _ _ _ _ h4 h1', et, es]; push_cast; ring
  · rw [elevation_unique _ _ _ _ _ h3 h2', et, es]; push_cast; ring
  · rw [elevation_unique _ _ _ _ _ h1 h3', elevation_unique _ _ _ _ _ h2 h4', et]; push_cast; ring
  · rw [elevation_unique _ _ _ _ _ h2 h3', et, es]; push_cast; ring
  · rw [elevation_unique _ _ _ _ _ h1 h4', et, es]; push_cast; ring

/-- The nodes of the file are multiples of 1/12. -/
theorem elevation_node (file : List ℤ) (lat lon : ℝ) (z : ℤ) (h : ElevationAt file lat lon z) : ∃ i j : ℤ, lat = (i : ℝ) / 12 ∧ lon = (j : ℝ) / 12 := by
  obtain ⟨row, col, turns, h1, h2, -, -⟩ := h
  refine ⟨1080 - row, col - 4320 * turns, ?_, ?_⟩
  · push_cast; rw [h1]; ring
  · push_cast; rw [h2]; ring

/-! ## An interpolation with the properties of `interp2d` -/

/-- The polygon through the points of a list, as it is inside and past its ends. -/
noncomputable def polygon : List (ℝ × ℝ) → ℝ → ℝ
  | [], _ => 0
  | [p], _ => p.2
  | p :: q :: t, x => if x ≤ q.1 then p.2 + (max x p.1 - p.1) / (q.1 - p.1) * (q.2 - p.2) else polygon (q :: t) x

theorem polygon_cell (l : List (ℝ × ℝ)) : ∀ (_ : (l.map (·.1)).Pairwise (· < ·)) (k : ℕ) (p q : ℝ × ℝ) (_ : l[k]? = some p) (_ : l[k + 1]? = some q)
    (x : ℝ) (_ : p.1 ≤ x) (_ : x ≤ q.1), polygon l x = p.2 + (x - p.1) / (q.1 - p.1) * (q.2 - p.2) := by
  induction l with
  | nil => intro _ k p q h; cases h
  | cons a l ih =>
    intro hp k p q h1 h2 x h3 h4
    cases l with
    | nil => simp at h2
    | cons b t =>
      rw [List.map_cons, List.pairwise_cons] at hp
      cases k with
      | zero =>
        obtain rfl := Option.some.inj h1
        obtain rfl := Option.some.inj h2
        rw [polygon, if_pos h4, max_eq_left h3]
      | succ k =>
        have hi := ih hp.2 k p q h1 h2 x h3 h4
        rw [polygon]
        split_ifs with hx
        · have hle : b.1 ≤ p.1 := by
            cases k with
            | zero => rw [Option.some.inj h1]
            | succ k =>
              have hm : p.1 ∈ (t.map (·.1)) := List.mem_map.2 ⟨p, List.mem_of_getElem? h1, rfl⟩
              have := hp.2
              rw [List.map_cons, List.pairwise_cons] at this
              exact (this.1 _ hm).le
          have e1 : x = b.1 := le_antisymm hx (le_trans hle h3)
          have e2 : x = p.1 := le_antisymm (le_trans hx hle) h3
          have hab : a.1 < b.1 := hp.1 _ List.mem_cons_self
          have hk : k = 0 := by
            cases k with
            | zero => rfl
            | succ k =>
              exfalso
              have hm : p.1 ∈ (t.map (·.1)) := List.mem_map.2 ⟨p, List.mem_of_getElem? h1, rfl⟩
              have := hp.2
              rw [List.map_cons, List.pairwise_cons] at this
              have := this.1 _ hm
              linarith
          subst hk
          obtain rfl := Option.some.inj h1
          rw [max_eq_left (by linarith), e1, sub_self, zero_div, zero_mul, add_zero, div_self (by linarith)]
          ring
        · exact hi

theorem polygon_before (l : List (ℝ × ℝ)) (s x : ℝ) (hs : (l.map (·.1)).head? = some s) (hp : (l.map (·.1)).Pairwise (· < ·)) (hx : x ≤ s) :
    polygon l x = polygon l s := by
  cases l with
  | nil => rfl
  | cons a l =>
    cases l with
    | nil => rfl
    | cons b t =>
      obtain rfl : a.1 = s := Option.some.inj hs
      rw [List.map_cons, List.pairwise_cons] at hp
      have hab : a.1 < b.1 := hp.1 _ List.mem_cons_self
      rw [polygon, polygon, if_pos (by linarith), if_pos hab.le, max_eq_right hx, max_self]

/-- Bilinear interpolation: along the rows, then between the rows. -/
noncomputable def grid2 (xs ys : List ℝ) (zs : List (List ℤ)) (x y : ℝ) : ℝ :=
  polygon ((ys.zip (zs.map fun row => polygon (xs.zip (row.map fun (z : ℤ) => (z : ℝ))) x)).reverse) y

theorem map_fst_zip {α β : Type} (a : List α) (b : List β) (h : a.length = b.length) : (a.zip b).map (·.1) = a := by
  rw [List.map_fst_zip (by omega)]

theorem grid2_isInterp2d : IsInterp2d grid2 := by
  have hdesc : ∀ (ys : List ℝ) (l : List ℝ), ys.Pairwise (· > ·) → l.length = ys.length → (((ys.zip l).reverse).map (·.1)).Pairwise (· < ·) := by
    intro ys l h hl
    rw [List.map_reverse, map_fst_zip _ _ hl.symm, List.pairwise_reverse]
    exact h
  constructor
  · intro xs ys zs hx hy hl hrow i j x0 x1 y0 y1 r0 r1 a b c e g1 g2 g3 g4 g5 g6 g7 g8 g9 g10 x y b1 b2 b3 b4
    have row : ∀ (r : List ℤ) (p q : ℤ), r.length = xs.length → r[j]? = some p → r[j + 1]? = some q →
        polygon (xs.zip (r.map fun (z : ℤ) => (z : ℝ))) x = (p : ℝ) + (x - x0) / (x1 - x0) * (q - p) := by
      intro r p q hr hp hq
      refine polygon_cell _ (by rw [map_fst_zip _ _ (by simp [hr])]; exact hx) j (x0, (p : ℝ)) (x1, (q : ℝ)) ?_ ?_ x b1 b2
      · exact List.getElem?_zip_eq_some.2 ⟨g1, by rw [List.getElem?_map, hp]; rfl⟩
      · exact List.getElem?_zip_eq_some.2 ⟨g2, by rw [List.getElem?_map, hq]; rfl⟩
    have R0 := row r0 a b (hrow _ (List.mem_of_getElem? g5)) g7 g8
    have R1 := row r1 c e (hrow _ (List.mem_of_getElem? g6)) g9 g10
    have hlt : i + 1 < ys.length := (List.getElem?_eq_some_iff.1 g4).1
    set L := ys.zip (zs.map fun row => polygon (xs.zip (row.map fun (z : ℤ) => (z : ℝ))) x) with hL
    have hLlen : L.length = ys.length := by rw [hL, List.length_zip, List.length_map, hl, min_self]
    have q0 : L[i]? = some (y0, (a : ℝ) + (x - x0) / (x1 - x0) * (b - a)) := by
      rw [← R0]
      exact List.getElem?_zip_eq_some.2 ⟨g3, by rw [List.getElem?_map, g5]; rfl⟩
    have q1 : L[i + 1]? = some (y1, (c : ℝ) + (x - x0) / (x1 - x0) * (e - c)) := by
      rw [← R1]
      exact List.getElem?_zip_eq_some.2 ⟨g4, by rw [List.getElem?_map, g6]; rfl⟩
    have k0 : L.reverse[L.length - 1 - (i + 1)]? = some (y1, (c : ℝ) + (x - x0) / (x1 - x0) * (e - c)) := by
      rw [List.getElem?_reverse (by omega), ← q1]; congr 1; omega
    have k1 : L.reverse[L.length - 1 - (i + 1) + 1]? = some (y0, (a : ℝ) + (x - x0) / (x1 - x0) * (b - a)) := by
      rw [List.getElem?_reverse (by omega), ← q0]; congr 1; omega
    have hcell := polygon_cell L.reverse (hdesc ys _ hy (by simp [hl])) _ _ _ k0 k1 y b3 b4
    unfold grid2
    rw [← hL, hcell]
    have hyy : y1 < y0 := by
      have h0 := (List.getElem?_eq_some_iff.1 g3)
      have h1 := (List.getElem?_eq_some_iff.1 g4)
      obtain ⟨n0, rfl⟩ := h0
      obtain ⟨n1, rfl⟩ := h1
      exact List.pairwise_iff_getElem.1 hy i (i + 1) n0 n1 (by omega)
    have hne : y0 - y1 ≠ 0 := by linarith
    dsimp only
    unfold bilinear
    have hfrac : (y - y1) / (y0 - y1) = 1 - (y0 - y) / (y0 - y1) := by field_simp; ring
    rw [hfrac]
    ring
  · intro xs ys zs hx hy hl hrow s hs x y hle
    unfold grid2
    refine polygon_before _ s y ?_ (hdesc ys _ hy (by simp [hl])) hle
    rw [List.map_reverse, map_fst_zip _ _ (by simp [hl]), List.head?_reverse]
    exact hs

end Verif.Lemmas.Depth
