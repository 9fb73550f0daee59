import Verif.Spec.Shapes

/-!
# C151: what print_cfg shows; C152: the lines of coasts and depths on the map
-/

namespace Verif.Props

open Verif.Np Verif.Shapes Verif.Spec

/-- C151. The text of `print_cfg` is an empty line and then one line for each parameter, in the order of the configuration, with name and value. -/
theorem print_cfg_lines (config : List (List Char × List Char)) :
    ∃ lines : List (List Char), printCfg config = "\n".toList ++ (lines.map (· ++ "\n".toList)).flatten ∧
      List.Forall₂ (fun line k => ShowsParameter line k.1 k.2) lines config := by
  refine ⟨config.map fun k => alignRight 30 k.1 ++ [':', ' '] ++ k.2, ?_, ?_⟩
  · unfold printCfg
    rw [List.map_map]
    rfl
  · rw [List.forall₂_map_left_iff, List.forall₂_same]
    intro k _
    refine ⟨30 - k.1.length, by simp [alignRight], by omega, by omega⟩

theorem append_newline_inj {a b c d : List Char} (ha : '\n' ∉ a) (hb : '\n' ∉ b) (h : a ++ '\n' :: c = b ++ '\n' :: d) : a = b ∧ c = d := by
  induction a generalizing b with
  | nil =>
    cases b with
    | nil => simpa using h
    | cons x b => simp only [List.nil_append, List.cons_append, List.cons.injEq] at h; exact absurd (h.1 ▸ List.mem_cons_self) hb
  | cons y a ih =>
    cases b with
    | nil => simp only [List.nil_append, List.cons_append, List.cons.injEq] at h; exact absurd (h.1 ▸ List.mem_cons_self) ha
    | cons x b =>
      simp only [List.cons_append, List.cons.injEq] at h
      obtain ⟨rfl, h⟩ := h
      obtain ⟨rfl, rfl⟩ := ih (fun h => ha (by simp [h])) (fun h => hb (by simp [h])) h
      exact ⟨rfl, rfl⟩

theorem append_colon_inj {a b c d : List Char} (ha : ':' ∉ a) (hb : ':' ∉ b) (h : a ++ ':' :: c = b ++ ':' :: d) : a = b ∧ c = d := by
  induction a generalizing b with
  | nil =>
    cases b with
    | nil => simpa using h
    | cons x b => simp only [List.nil_append, List.cons_append, List.cons.injEq] at h; exact absurd (h.1 ▸ List.mem_cons_self) hb
  | cons y a ih =>
    cases b with
    | nil => simp only [List.nil_append, List.cons_append, List.cons.injEq] at h; exact absurd (h.1 ▸ List.mem_cons_self) ha
    | cons x b =>
      simp only [List.cons_append, List.cons.injEq] at h
      obtain ⟨rfl, h⟩ := h
      obtain ⟨rfl, rfl⟩ := ih (fun h => ha (by simp [h])) (fun h => hb (by simp [h])) h
      exact ⟨rfl, rfl⟩

theorem replicate_blank_inj {a b : List Char} (m n : ℕ) (ha : ' ' ∉ a) (hb : ' ' ∉ b) (h : List.replicate m ' ' ++ a = List.replicate n ' ' ++ b) : a = b := by
  induction m generalizing n with
  | zero =>
    cases n with
    | zero => simpa using h
    | succ n => rw [List.replicate_succ] at h; simp only [List.replicate_zero, List.nil_append] at h; exact absurd (by rw [h]; simp) ha
  | succ m ih =>
    cases n with
    | zero => rw [List.replicate_succ] at h; simp only [List.replicate_zero, List.nil_append] at h; exact absurd (by rw [← h]; simp) hb
    | succ n =>
      rw [List.replicate_succ, List.replicate_succ, List.cons_append, List.cons_append] at h
      exact ih n (List.cons.inj h).2

/-- C151. The configuration can be read back: two configurations with plain names and values without new lines that print the same text have the same
parameters with the same texts of their values, in the same order. -/
theorem print_cfg_injective (config config' : List (List Char × List Char)) (h : ∀ k ∈ config, PlainName k.1 ∧ '\n' ∉ k.2)
    (h' : ∀ k ∈ config', PlainName k.1 ∧ '\n' ∉ k.2) (he : printCfg config = printCfg config') : config = config' := by
  unfold printCfg at he
  replace he := (List.cons.inj he).2
  induction config generalizing config' with
  | nil =>
    cases config' with
    | nil => rfl
    | cons k c => simp at he
  | cons k c ih =>
    cases config' with
    | nil => simp at he
    | cons k' c' =>
      simp only [List.map_cons, List.flatten_cons, List.append_assoc, List.cons_append, List.nil_append] at he
      obtain ⟨hk, hk2⟩ := h k (by simp)
      obtain ⟨hk', hk2'⟩ := h' k' (by simp)
      have e1 : ∀ x : List Char × List Char, PlainName x.1 → '\n' ∉ x.2 → '\n' ∉ alignRight 30 x.1 ++ ':' :: ' ' :: x.2 := by
        intro x hx hx2 hm
        simp only [alignRight, List.mem_append, List.mem_cons, List.mem_replicate] at hm
        rcases hm with (⟨_, hm⟩ | hm) | hm | hm | hm
        · exact absurd hm (by decide)
        · exact hx.2.2 hm
        · exact absurd hm (by decide)
        · exact absurd hm (by decide)
        · exact hx2 hm
      have he' : (alignRight 30 k.1 ++ ':' :: ' ' :: k.2) ++ '\n' :: (c.map fun k => alignRight 30 k.1 ++ [':', ' '] ++ k.2 ++ ['\n']).flatten =
          (alignRight 30 k'.1 ++ ':' :: ' ' :: k'.2) ++ '\n' :: (c'.map fun k => alignRight 30 k.1 ++ [':', ' '] ++ k.2 ++ ['\n']).flatten := by
        simpa using he
      obtain ⟨a1, a2⟩ := append_newline_inj (e1 k hk hk2) (e1 k' hk' hk2') he'
      have e2 : ∀ x : List Char, PlainName x → ':' ∉ alignRight 30 x := by
        intro x hx hm
        simp only [alignRight, List.mem_append, List.mem_replicate] at hm
        rcases hm with ⟨_, hm⟩ | hm
        · exact absurd hm (by decide)
        · exact hx.2.1 hm
      obtain ⟨b1, b2⟩ := append_colon_inj (e2 _ hk) (e2 _ hk') a1
      have b3 := replicate_blank_inj _ _ hk.1 hk'.1 b1
      rw [ih c' (fun x hx => h x (by simp [hx])) (fun x hx => h' x (by simp [hx])) a2, Prod.ext b3 (List.cons.inj b2).2]

/-- C151, the limit: a value with a new line, such as the text of a matrix, can look like another parameter. -/
theorem print_cfg_ambiguous : ∃ config config' : List (List Char × List Char), config.length = 1 ∧ config'.length = 2 ∧
    (∀ k ∈ config ++ config', PlainName k.1) ∧ printCfg config = printCfg config' := by
  refine ⟨[("A".toList, "1\n".toList ++ alignRight 30 "B".toList ++ ": 2".toList)], [("A".toList, "1".toList), ("B".toList, "2".toList)], rfl, rfl, ?_, by decide +kernel⟩
  intro k hk
  simp only [List.cons_append, List.nil_append, List.mem_cons, List.not_mem_nil, or_false] at hk
  rcases hk with rfl | rfl | rfl <;> refine ⟨?_, ?_, ?_⟩ <;> decide

example : ∀ k ∈ [("MAP_USE_PV".toList, "0".toList), ("THETA_BOUNDS".toList, "[[0, 5], [5, 20]]".toList)], PlainName k.1 ∧ '\n' ∉ k.2 := by
  intro k hk
  simp only [List.mem_cons, List.not_mem_nil, or_false] at hk
  rcases hk with rfl | rfl <;> refine ⟨⟨?_, ?_, ?_⟩, ?_⟩ <;> decide

/-! ### C152 -/

/-- The path of one part. -/
def partPath {P : Type} : List P → Path P
  | [] => []
  | a :: l => (a, .moveTo) :: l.map fun b => (b, .lineTo)

theorem partPath_fst {P : Type} (l : List P) : (partPath l).map (·.1) = l := by
  cases l <;> simp [partPath, List.map_map, Function.comp_def]

theorem map_partPath_fst {P : Type} (ls : List (List P)) : ls.map ((List.map fun x => x.1) ∘ partPath) = ls := by
  induction ls with
  | nil => rfl
  | cons l ls ih => simp only [List.map_cons, ih, Function.comp_apply, partPath_fst]

theorem assign_starts {P : Type} (parts : List (List P)) (h : ∀ l ∈ parts, l ≠ []) (pre : List Code) :
    (starts (pre.length : ℤ) parts).foldlM (fun c i => assignAt c i .moveTo) (pre ++ List.replicate parts.flatten.length Code.lineTo) =
      .ok (pre ++ (parts.map partPath).flatten.map (·.2)) := by
  induction parts generalizing pre with
  | nil => simp [starts, pure, Except.pure]
  | cons l ls ih =>
    obtain ⟨a, l, rfl⟩ := List.exists_cons_of_ne_nil (h l (by simp))
    have h1 : assignAt (pre ++ List.replicate ((a :: l) :: ls).flatten.length Code.lineTo) (pre.length : ℤ) .moveTo =
        .ok ((pre ++ Code.moveTo :: List.replicate l.length .lineTo) ++ List.replicate ls.flatten.length Code.lineTo) := by
      unfold assignAt
      have e : ((a :: l) :: ls).flatten.length = (l.length + ls.flatten.length) + 1 := by simp only [List.flatten_cons, List.length_append, List.length_cons]; omega
      rw [e]
      simp only [List.length_append, List.length_replicate]
      simp only [if_neg (show ¬ (pre.length : ℤ) < 0 by omega)]
      rw [if_pos (by push_cast; omega)]
      rw [Int.toNat_natCast, List.set_append_right _ _ (le_refl _), Nat.sub_self, List.replicate_succ, List.set_cons_zero, List.replicate_add]
      simp
    simp only [starts, List.foldlM_cons, h1, bind, Except.bind]
    have e2 : (pre.length : ℤ) + ((a :: l).length : ℕ) = (((pre ++ Code.moveTo :: List.replicate l.length .lineTo).length : ℕ) : ℤ) := by simp
    rw [e2, ih (fun x hx => h x (by simp [hx]))]
    simp [partPath, List.map_map, Function.comp_def, List.map_const']

theorem shapePath_shapeOf {P : Type} (parts : List (List P)) (h : ∀ l ∈ parts, l ≠ []) (hn : parts ≠ []) :
    shapePath (shapeOf parts) = .ok (parts.map partPath).flatten := by
  unfold shapePath shapeOf
  have := assign_starts parts h []
  simp only [List.length_nil, List.nil_append, Nat.cast_zero] at this
  simp only [this, bind, Except.bind]
  obtain ⟨l, ls, rfl⟩ := List.exists_cons_of_ne_nil hn
  obtain ⟨a, l, rfl⟩ := List.exists_cons_of_ne_nil (h l (by simp))
  have e : ((a :: l) :: ls).flatten = (((a :: l) :: ls).map partPath).flatten.map (·.1) := by
    rw [List.map_flatten, List.map_map]
    congr 1
    exact (map_partPath_fst _).symm
  have hz : ∀ q : Path P, (q.map (·.1)).zip (q.map (·.2)) = q := by
    intro q; rw [List.zip_map']; simp
  conv_lhs => rw [e]
  have hm : ∀ (pts : List P) (cs : List Code), makePath pts (Code.moveTo :: cs) = .ok (pts.zip (Code.moveTo :: cs)) := fun _ _ => rfl
  have hc : ∃ cs, (((a :: l) :: ls).map partPath).flatten.map (·.2) = Code.moveTo :: cs := ⟨_, rfl⟩
  obtain ⟨cs, hc⟩ := hc
  rw [hc, hm, ← hc, hz]

theorem strokes_part {P : Type} (l : List P) (q : Path P) (hq : ∀ x ∈ q.head?, x.2 = .moveTo) : strokes (partPath l ++ q) = joined l ++ strokes q := by
  have aux : ∀ (a : P) (c : Code) (l : List P), strokes ((a, c) :: (l.map fun b => (b, Code.lineTo)) ++ q) = joined (a :: l) ++ strokes q := by
    intro a c l
    induction l generalizing a c with
    | nil =>
      cases q with
      | nil => rfl
      | cons x q =>
        have hx := hq x (by simp)
        simp [strokes, joined, hx]
    | cons b l ih =>
      have := ih b .lineTo
      simp only [List.map_cons, List.cons_append, joined] at this ⊢
      rw [← this]
      simp [strokes]
  cases l with
  | nil => simp [partPath, joined]
  | cons a l => exact aux a .moveTo l

theorem strokes_parts {P : Type} (parts : List (List P)) (h : ∀ l ∈ parts, l ≠ []) :
    strokes (parts.map partPath).flatten = (parts.map joined).flatten := by
  induction parts with
  | nil => rfl
  | cons l ls ih =>
    simp only [List.map_cons, List.flatten_cons]
    rw [strokes_part, ih (fun x hx => h x (by simp [hx]))]
    intro x hx
    cases ls with
    | nil => simp at hx
    | cons l' ls =>
      obtain ⟨a, l', rfl⟩ := List.exists_cons_of_ne_nil (h l' (by simp))
      simp [partPath] at hx
      rw [← hx]

/-- C152. Coasts, depths and reefs are drawn part by part: if each shape of the file consists of parts with at least one point, all shapes are drawn, in their order
and after what is already on the axes, and the lines of each are those that join neighbouring points of a part; no line joins two parts. -/
theorem shapes_drawn {P : Type} (axes : List (Path P)) (shapes : List (List (List P))) (h : ∀ parts ∈ shapes, parts ≠ [] ∧ ∀ l ∈ parts, l ≠ []) :
    ∃ paths, drawShapes axes (shapes.map shapeOf) = (axes ++ paths, none) ∧
      List.Forall₂ (fun path parts => path.map (·.1) = parts.flatten ∧ strokes path = (parts.map joined).flatten) paths shapes := by
  refine ⟨shapes.map fun parts => (parts.map partPath).flatten, ?_, ?_⟩
  · induction shapes generalizing axes with
    | nil => simp [drawShapes]
    | cons s ss ih =>
      simp only [List.map_cons, drawShapes, shapePath_shapeOf s (h s (by simp)).2 (h s (by simp)).1]
      rw [ih _ (fun x hx => h x (by simp [hx]))]
      simp
  · rw [List.forall₂_map_left_iff, List.forall₂_same]
    intro parts hp
    refine ⟨?_, strokes_parts parts (h parts hp).2⟩
    rw [List.map_flatten, List.map_map, map_partPath_fst]

theorem assign_fails {α : Type} (parts : List ℤ) (v : α) (h0 : ∀ i ∈ parts, 0 ≤ i) (l : List α) :
    (∃ i ∈ parts, (l.length : ℤ) ≤ i) ∧ parts.foldlM (fun c i => assignAt c i v) l = .error .indexError ∨
      (∀ i ∈ parts, i < l.length) ∧ ∃ l', parts.foldlM (fun c i => assignAt c i v) l = .ok l' ∧ l'.length = l.length ∧
        ∀ n : ℕ, n < l.length → l'[n]? = if (n : ℤ) ∈ parts then some v else l[n]? := by
  induction parts generalizing l with
  | nil => exact .inr ⟨by simp, l, by simp [pure, Except.pure], rfl, by simp⟩
  | cons i parts ih =>
    have hi := h0 i (by simp)
    simp only [List.foldlM_cons]
    by_cases hl : i < l.length
    · have e : assignAt l i v = .ok (l.set i.toNat v) := by
        unfold assignAt
        simp only [if_neg (show ¬ i < 0 by omega)]
        rw [if_pos ⟨hi, hl⟩]
      simp only [e, bind, Except.bind]
      rcases ih (fun j hj => h0 j (by simp [hj])) (l.set i.toNat v) with ⟨⟨j, hj, hjl⟩, he⟩ | ⟨hall, l', he, hlen, hv⟩
      · exact .inl ⟨⟨j, by simp [hj], by simpa using hjl⟩, he⟩
      · refine .inr ⟨?_, l', he, by simpa using hlen, ?_⟩
        · intro j hj
          rcases List.mem_cons.1 hj with rfl | hj
          · exact hl
          · simpa using hall j hj
        · intro n hn
          rw [hv n (by simpa using hn)]
          by_cases hm : (n : ℤ) ∈ parts
          · simp [hm]
          · by_cases hni : (n : ℤ) = i
            · subst hni; simp [hn]
            · rw [if_neg hm, if_neg (by simp [hm, hni]), List.getElem?_set_ne (by omega)]
    · refine .inl ⟨⟨i, by simp, by omega⟩, ?_⟩
      have e : assignAt l i v = .error .indexError := by
        unfold assignAt
        simp only [if_neg (show ¬ i < 0 by omega)]
        rw [if_neg (by omega)]
      simp only [e, bind, Except.bind]

/-- C152. When a shape cannot be drawn: IndexError if a part starts behind the last point, otherwise ValueError if no part starts at the first point (in particular for a
shape without points). The shapes before it stay on the axes, the others are not drawn. -/
theorem shapes_fail {P : Type} (axes : List (Path P)) (shapes : List (List (List P))) (h : ∀ parts ∈ shapes, parts ≠ [] ∧ ∀ l ∈ parts, l ≠ [])
    (s : Shape P) (rest : List (Shape P)) (h0 : ∀ i ∈ s.parts, 0 ≤ i) :
    ∃ paths, paths.length = shapes.length ∧ drawShapes axes (shapes.map shapeOf) = (axes ++ paths, none) ∧
      ((∃ i ∈ s.parts, (s.points.length : ℤ) ≤ i) → drawShapes axes (shapes.map shapeOf ++ s :: rest) = (axes ++ paths, some .indexError)) ∧
        ((∀ i ∈ s.parts, i < s.points.length) → 0 ∉ s.parts → drawShapes axes (shapes.map shapeOf ++ s :: rest) = (axes ++ paths, some .valueError)) := by
  have hd : ∀ (axes : List (Path P)) (l : List (Shape P)), drawShapes axes (shapes.map shapeOf ++ l) =
      drawShapes (axes ++ shapes.map fun parts => (parts.map partPath).flatten) l := by
    induction shapes with
    | nil => intro axes l; simp
    | cons x xs ih =>
      intro axes l
      simp only [List.map_cons, List.cons_append, drawShapes, shapePath_shapeOf x (h x (by simp)).2 (h x (by simp)).1]
      rw [ih (fun y hy => h y (by simp [hy]))]
      simp
  refine ⟨shapes.map fun parts => (parts.map partPath).flatten, by simp, by simpa [drawShapes] using hd axes [], ?_, ?_⟩
  · intro hx
    rw [hd]
    rcases assign_fails s.parts Code.moveTo h0 (List.replicate s.points.length Code.lineTo) with ⟨_, he⟩ | ⟨ha, _⟩
    · simp [drawShapes, shapePath, he, bind, Except.bind]
    · obtain ⟨i, hi, hl⟩ := hx
      have := ha i hi
      simp at this
      omega
  · intro hl hz
    rw [hd]
    rcases assign_fails s.parts Code.moveTo h0 (List.replicate s.points.length Code.lineTo) with ⟨⟨i, hi, hx⟩, _⟩ | ⟨_, l', he, hlen, hv⟩
    · have := hl i hi
      simp at hx
      omega
    · have hm : makePath s.points l' = .error .valueError := by
        cases l' with
        | nil => rfl
        | cons c cs =>
          have := hv 0 (by rw [← hlen]; simp)
          simp only [Nat.cast_zero, if_neg hz] at this
          rw [List.getElem?_replicate] at this
          split at this
          · simp at this; rw [this]; rfl
          · simp at this
      simp [drawShapes, shapePath, he, hm, bind, Except.bind]

/-- An island of three points and one of two points. -/
def exIslands : List (List (List ℕ)) := [[[1, 2, 1], [7, 8]], [[4]]]

example : (∀ parts ∈ exIslands, parts ≠ [] ∧ ∀ l ∈ parts, l ≠ []) ∧ (shapeOf [[1, 2, 1], [7, 8]]).parts = [0, 3] ∧
    ((drawShapes [] (exIslands.map shapeOf)).1.map strokes) = [[(1, 2), (2, 1), (7, 8)], []] := by
  refine ⟨?_, by decide, by decide +kernel⟩
  intro parts hp
  simp only [exIslands, List.mem_cons, List.not_mem_nil, or_false] at hp
  rcases hp with rfl | rfl <;> simp

example : (0 : ℤ) ∉ (⟨[1, 2], [1]⟩ : Shape ℕ).parts ∧ ∀ i ∈ (⟨[1, 2], [1]⟩ : Shape ℕ).parts, 0 ≤ i ∧ i < 2 := by simp

end Verif.Props
