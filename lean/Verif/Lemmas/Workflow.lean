import Verif.Spec.Workflow

/-!
# Lemmas about the files of an analysis
-/

namespace Verif.Workflow

open Verif.Np Verif.Spec

theorem splitSep_append (a b : List Char) :
    (splitSep (a ++ '/' :: b)).1 = (splitSep a).1 ∧ (splitSep (a ++ '/' :: b)).2 = (splitSep a).2 ++ (splitSep b).1 :: (splitSep b).2 := by
  induction a with
  | nil => simp [splitSep]
  | cons c a ih =>
    rw [List.cons_append]
    simp only [splitSep]
    split_ifs
    · simp [ih.1, ih.2]
    · simp [ih.1, ih.2]

theorem splitSep_eq (p : List Char) : (splitSep p).1 :: (splitSep p).2 = p.splitOn '/' := by
  induction p with
  | nil => rfl
  | cons c p ih =>
    have h : (c :: p).splitOn '/' = if c = '/' then [] :: p.splitOn '/' else (p.splitOn '/').modifyHead (List.cons c) := by
      unfold List.splitOn
      rw [List.splitOnP_cons_eq_if_modifyHead]
      simp only [beq_iff_eq]
    rw [h, ← ih]
    simp only [splitSep]
    split_ifs <;> rfl

theorem components_eq (p : List Char) : components p = pathNames p := by
  unfold components pathNames
  rw [splitSep_eq]

theorem noDirectory_iff (f : FloatId) : NoDirectory f ↔ components f.dir = [] := by
  rw [components_eq]
  unfold NoDirectory pathNames
  rw [List.filter_eq_nil_iff]
  refine forall₂_congr fun c _ => ?_
  rw [decide_eq_true_iff]
  tauto

theorem comp_sourceMapped {c : Config} (hc : Orderly c) : Incomparable (components c.sourceDir) (components c.mappedDir) := by
  rw [components_eq, components_eq]; exact hc.sourceMapped

theorem comp_sourceCalib {c : Config} (hc : Orderly c) : Incomparable (components c.sourceDir) (components c.calibDir) := by
  rw [components_eq, components_eq]; exact hc.sourceCalib

theorem comp_mappedCalib {c : Config} (hc : Orderly c) : Incomparable (components c.mappedDir) (components c.calibDir) := by
  rw [components_eq, components_eq]; exact hc.mappedCalib

theorem components_append (a b : List Char) : components (a ++ '/' :: b) = components a ++ components b := by
  unfold components
  rw [(splitSep_append a b).1, (splitSep_append a b).2, ← List.cons_append, List.filter_append]

theorem splitSep_plain (s : List Char) (h : Plain s) : splitSep s = (s, []) := by
  induction s with
  | nil => rfl
  | cons c s ih =>
    unfold Plain at h ih
    rw [List.mem_cons, not_or] at h
    simp only [splitSep]
    rw [ih h.2, if_neg (fun e => h.1 e.symm)]

theorem components_plain (s : List Char) (h : Plain s) (h2 : 2 ≤ s.length) : components s = [s] := by
  unfold components
  rw [splitSep_plain s h]
  have h3 : s ≠ [] ∧ s ≠ ['.'] := ⟨fun e => by rw [e] at h2; simp at h2, fun e => by rw [e] at h2; simp at h2⟩
  simp [h3]

theorem components_join3 (a b d : List Char) : components (sepJoin [a, b, d]) = components a ++ components b ++ components d := by
  unfold sepJoin sepJoin sepJoin
  rw [components_append, components_append, List.append_assoc]

theorem components_join2 (a d : List Char) : components (sepJoin [a, d]) = components a ++ components d := by
  unfold sepJoin sepJoin
  rw [components_append]

theorem head_join (a b : List Char) : (a ++ '/' :: b).head? = some ((a.head?).getD '/') := by
  cases a <;> rfl

/-- The last names along the paths. -/
theorem plain_append {a b : List Char} (ha : Plain a) (hb : Plain b) : Plain (a ++ b) := by
  unfold Plain at *
  simp [ha, hb]

theorem mat_length {c : Config} (hc : Orderly c) : 4 ≤ c.mappedPost.length := hc.mat.length_le

theorem last_components {c : Config} (hc : Orderly c) (pre name : List Char) (hp : Plain pre) (hn : Plain name) :
    components (pre ++ name ++ c.mappedPost) = [pre ++ name ++ c.mappedPost] := by
  refine components_plain _ (plain_append (plain_append hp hn) hc.plainPost) ?_
  have := mat_length hc
  simp only [List.length_append]
  omega

variable {c : Config} (hc : Orderly c)
include hc

theorem source_comp (f : FloatId) (hf : Plain f.name) :
    components (sourcePath c f) = components c.sourceDir ++ components f.dir ++ [f.name ++ c.mappedPost] := by
  unfold sourcePath
  rw [components_join3, hc.sourcePost]
  have := last_components hc [] f.name (by simp [Plain]) hf
  rw [List.nil_append] at this
  rw [this]

theorem load_comp (f : FloatId) (hf : Plain f.name) :
    components (mappedLoadPath c f) = components c.mappedDir ++ components f.dir ++ [c.mappedPre ++ f.name ++ c.mappedPost] := by
  unfold mappedLoadPath
  rw [components_join3, last_components hc _ _ hc.plainMapped hf]

theorem save_comp (f : FloatId) (hf : Plain f.name) :
    components (mappedSavePath c f) = components c.mappedDir ++ [c.mappedPre ++ f.name ++ c.mappedPost] := by
  unfold mappedSavePath
  rw [components_join2, last_components hc _ _ hc.plainMapped hf]

theorem calseries_comp (f : FloatId) (hf : Plain f.name) :
    components (calseriesPath c f) = components c.calibDir ++ components f.dir ++ [c.calseriesPre ++ f.name ++ c.mappedPost] := by
  unfold calseriesPath
  rw [components_join3, hc.calibPost, last_components hc _ _ hc.plainCalseries hf]

theorem cal_comp (f : FloatId) (hf : Plain f.name) :
    components (calPath c f) = components c.calibDir ++ components f.dir ++ [c.calibPre ++ f.name ++ c.mappedPost] := by
  unfold calPath
  rw [components_join3, hc.calibPost, last_components hc _ _ hc.plainCalib hf]

omit hc in
theorem apart {α : Type} {a b x y : List α} (h : Incomparable a b) : a ++ x ≠ b ++ y := by
  intro e
  rcases List.prefix_or_prefix_of_prefix (List.prefix_append a x) (e ▸ List.prefix_append b y) with h' | h'
  · exact h.1 h'
  · exact h.2 h'

omit hc in
theorem last_ne {α : Type} {x y : List α} {a b : α} (h : a ≠ b) : x ++ [a] ≠ y ++ [b] := fun e =>
  h (by
    have := congrArg List.getLast? e
    simpa using this)

omit hc in
theorem name_ne {pre a b post : List Char} (h : a ≠ b) : pre ++ a ++ post ≠ pre ++ b ++ post := fun e =>
  h (List.append_cancel_left (List.append_cancel_right e))

omit hc in
theorem pre_ne {p q a b post : List Char} (h : Incomparable p q) : p ++ a ++ post ≠ q ++ b ++ post := by
  rw [List.append_assoc, List.append_assoc]
  exact apart h

omit hc in
theorem file_ne {p q : List Char} (h : components p ≠ components q) : file p ≠ file q := fun e => h (congrArg Prod.snd e)

theorem suffix_mat (x : List Char) : (['.', 'm', 'a', 't'].isSuffixOf (x ++ c.mappedPost)) = true := by
  rw [List.isSuffixOf_iff_suffix]
  exact hc.mat.trans (List.suffix_append _ _)

omit hc in
theorem load_exact {V : Type} (s : Store V) (p : List Char) (h : (['.', 'm', 'a', 't'].isSuffixOf p) = true) :
    load s p = match s (file p) with
      | some v => .ok v
      | none => .error .fileNotFound := by
  unfold load
  rw [if_pos h]
  cases s (file p) <;> rfl

omit hc in
theorem load_toOption {V : Type} (s : Store V) (p : List Char) (h : (['.', 'm', 'a', 't'].isSuffixOf p) = true) :
    (load s p).toOption = s (file p) := by
  rw [load_exact s p h]
  cases s (file p) <;> rfl

theorem mat_source (f : FloatId) : (['.', 'm', 'a', 't'].isSuffixOf (sourcePath c f)) = true := by
  unfold sourcePath sepJoin sepJoin sepJoin
  rw [hc.sourcePost]
  have := suffix_mat hc (c.sourceDir ++ '/' :: (f.dir ++ '/' :: f.name))
  simpa using this

theorem mat_load (f : FloatId) : (['.', 'm', 'a', 't'].isSuffixOf (mappedLoadPath c f)) = true := by
  unfold mappedLoadPath sepJoin sepJoin sepJoin
  have := suffix_mat hc (c.mappedDir ++ '/' :: (f.dir ++ '/' :: (c.mappedPre ++ f.name)))
  simpa using this

theorem mat_save (f : FloatId) : (['.', 'm', 'a', 't'].isSuffixOf (mappedSavePath c f)) = true := by
  unfold mappedSavePath sepJoin sepJoin
  have := suffix_mat hc (c.mappedDir ++ '/' :: (c.mappedPre ++ f.name))
  simpa using this

theorem mat_calseries (f : FloatId) : (['.', 'm', 'a', 't'].isSuffixOf (calseriesPath c f)) = true := by
  unfold calseriesPath sepJoin sepJoin sepJoin
  rw [hc.calibPost]
  have := suffix_mat hc (c.calibDir ++ '/' :: (f.dir ++ '/' :: (c.calseriesPre ++ f.name)))
  simpa using this

theorem mat_cal (f : FloatId) : (['.', 'm', 'a', 't'].isSuffixOf (calPath c f)) = true := by
  unfold calPath sepJoin sepJoin sepJoin
  rw [hc.calibPost]
  have := suffix_mat hc (c.calibDir ++ '/' :: (f.dir ++ '/' :: (c.calibPre ++ f.name)))
  simpa using this

theorem fitPath_eq (f : FloatId) : calseriesFitPath c f = calseriesPath c f := by
  unfold calseriesFitPath calseriesPath
  rw [hc.calibPost]

theorem plotPath_eq (f : FloatId) : calseriesPlotPath c f = calseriesPath c f ∧ calPlotPath c f = calPath c f := by
  unfold calseriesPlotPath calseriesPath calPlotPath calPath
  rw [hc.calibPost, hc.sourcePost]
  exact ⟨rfl, rfl⟩

/-- A step depends on the files of its float only, and changes them in the same way. -/
theorem step_same {V : Type} (P : Programs V) (op : Op) (f : FloatId) (s s' : Store V) (h : SameFiles c f s s') :
    (step c P op f s).1 = (step c P op f s').1 ∧ SameFiles c f (step c P op f s).2 (step c P op f s').2 := by
  obtain ⟨h1, h2, h3, h4, h5⟩ := h
  have l1 : load s (sourcePath c f) = load s' (sourcePath c f) := by
    rw [load_exact _ _ (mat_source hc f), load_exact _ _ (mat_source hc f), h1]
  have l2 : load s (mappedLoadPath c f) = load s' (mappedLoadPath c f) := by
    rw [load_exact _ _ (mat_load hc f), load_exact _ _ (mat_load hc f), h2]
  have l3 : load s (mappedSavePath c f) = load s' (mappedSavePath c f) := by
    rw [load_exact _ _ (mat_save hc f), load_exact _ _ (mat_save hc f), h3]
  have l4 : load s (calseriesPath c f) = load s' (calseriesPath c f) := by
    rw [load_exact _ _ (mat_calseries hc f), load_exact _ _ (mat_calseries hc f), h4]
  have l5 : load s (calPath c f) = load s' (calPath c f) := by
    rw [load_exact _ _ (mat_cal hc f), load_exact _ _ (mat_cal hc f), h5]
  have key : ∀ (p : List Char) (v : V), SameFiles c f (save s p v) (save s' p v) := by
    intro p v
    unfold save
    refine ⟨?_, ?_, ?_, ?_, ?_⟩ <;> dsimp only <;> split_ifs <;> first | rfl | assumption
  have hs : SameFiles c f s s' := ⟨h1, h2, h3, h4, h5⟩
  cases op with
  | mapping =>
    unfold step
    dsimp only
    rw [l1, h2]
    split
    · exact ⟨rfl, key _ _⟩
    · exact ⟨rfl, hs⟩
  | calseries =>
    unfold step
    dsimp only
    rw [l1, l4]
    split
    · exact ⟨rfl, key _ _⟩
    · exact ⟨rfl, hs⟩
  | fit =>
    unfold step
    dsimp only
    rw [l1, l2, fitPath_eq hc, l4]
    split
    · exact ⟨rfl, key _ _⟩
    · exact ⟨rfl, hs⟩
  | plots =>
    unfold step
    dsimp only
    rw [l1, l3, (plotPath_eq hc f).1, (plotPath_eq hc f).2, l4, l5]
    exact ⟨rfl, hs⟩

omit hc in
/-- A step writes at most one of three files of its float. -/
theorem step_writes {V : Type} (P : Programs V) (op : Op) (g : FloatId) (s : Store V) (x : File)
    (h1 : x ≠ file (mappedSavePath c g)) (h2 : x ≠ file (calseriesPath c g)) (h3 : x ≠ file (calPath c g)) : (step c P op g s).2 x = s x := by
  have key : ∀ (p : List Char) (v : V), x ≠ file p → save s p v x = s x := fun p v h => if_neg h
  cases op <;> unfold step <;> dsimp only
  · split
    · exact key _ _ h1
    · rfl
  · split
    · exact key _ _ h2
    · rfl
  · split
    · exact key _ _ h3
    · rfl

/-- No file of a float is written by a step for a float with another name. -/
theorem step_other {V : Type} (P : Programs V) (op : Op) (f g : FloatId) (hf : Plain f.name) (hg : Plain g.name) (hne : g.name ≠ f.name) (s : Store V) :
    SameFiles c f (step c P op g s).2 s := by
  have ne := fun (pre : List Char) => name_ne (pre := pre) (post := c.mappedPost) hne.symm
  refine ⟨?_, ?_, ?_, ?_, ?_⟩ <;> refine step_writes P op g s _ (file_ne ?_) (file_ne ?_) (file_ne ?_)
  · rw [source_comp hc f hf, save_comp hc g hg]; simp only [List.append_assoc]; exact apart (comp_sourceMapped hc)
  · rw [source_comp hc f hf, calseries_comp hc g hg]; simp only [List.append_assoc]; exact apart (comp_sourceCalib hc)
  · rw [source_comp hc f hf, cal_comp hc g hg]; simp only [List.append_assoc]; exact apart (comp_sourceCalib hc)
  · rw [load_comp hc f hf, save_comp hc g hg]; exact last_ne (ne _)
  · rw [load_comp hc f hf, calseries_comp hc g hg]; simp only [List.append_assoc]; exact apart (comp_mappedCalib hc)
  · rw [load_comp hc f hf, cal_comp hc g hg]; simp only [List.append_assoc]; exact apart (comp_mappedCalib hc)
  · rw [save_comp hc f hf, save_comp hc g hg]; exact last_ne (ne _)
  · rw [save_comp hc f hf, calseries_comp hc g hg]; simp only [List.append_assoc]; exact apart (comp_mappedCalib hc)
  · rw [save_comp hc f hf, cal_comp hc g hg]; simp only [List.append_assoc]; exact apart (comp_mappedCalib hc)
  · rw [calseries_comp hc f hf, save_comp hc g hg]; simp only [List.append_assoc]; exact (apart (comp_mappedCalib hc)).symm
  · rw [calseries_comp hc f hf, calseries_comp hc g hg]; exact last_ne (ne _)
  · rw [calseries_comp hc f hf, cal_comp hc g hg]; exact last_ne (pre_ne ⟨hc.prefixes.2, hc.prefixes.1⟩)
  · rw [cal_comp hc f hf, save_comp hc g hg]; simp only [List.append_assoc]; exact (apart (comp_mappedCalib hc)).symm
  · rw [cal_comp hc f hf, calseries_comp hc g hg]; exact last_ne (pre_ne hc.prefixes)
  · rw [cal_comp hc f hf, cal_comp hc g hg]; exact last_ne (ne _)

omit hc in
/-- The part after the last underscore is determined by the string. -/
theorem underscore_unique {a b x y : List Char} (hx : '_' ∉ x) (hy : '_' ∉ y) (h : a ++ '_' :: x = b ++ '_' :: y) : a = b ∧ x = y := by
  rcases List.append_eq_append_iff.1 h with ⟨t, h1, h2⟩ | ⟨t, h1, h2⟩
  · cases t with
    | nil =>
      rw [List.nil_append] at h2
      rw [List.append_nil] at h1
      exact ⟨h1.symm, (List.cons.inj h2).2⟩
    | cons e t =>
      rw [List.cons_append] at h2
      exact absurd ((List.cons.inj h2).2 ▸ (by simp : '_' ∈ t ++ '_' :: y)) hx
  · cases t with
    | nil =>
      rw [List.nil_append] at h2
      rw [List.append_nil] at h1
      exact ⟨h1, (List.cons.inj h2).2.symm⟩
    | cons e t =>
      rw [List.cons_append] at h2
      exact absurd ((List.cons.inj h2).2 ▸ (by simp : '_' ∈ t ++ '_' :: x)) hy

omit hc in
theorem suffix_plain (g : Figure) (hg : Printed g) : Plain (figureSuffix g) ∧ 2 ≤ (figureSuffix g).length := by
  unfold Plain
  cases g with
  | trajectory => simp [figureSuffix]
  | thetaSal t => cases t <;> simp [figureSuffix, titleOf]
  | profile => simp [figureSuffix]
  | variance i =>
    have := hg.2.2
    unfold Plain at this
    simp [figureSuffix, this]
  | curve => simp [figureSuffix]
  | anomaly t b =>
    have := hg.2.2
    unfold Plain at this
    cases t <;> simp [figureSuffix, titleOf, this]

/-- What stands before the last underscore of the name of a figure, and after it. -/
def figureParts : Figure → List Char × List Char
  | .trajectory => ([], ['t', 'r', 'a', 'j', 'e', 'c', 't', 'o', 'r', 'y', '.'])
  | .thetaSal t => ('_' :: titleOf t ++ ['_', 't', 'h', 'e', 't', 'a'], ['s', 'a', 'l', '.'])
  | .profile => (['_', 's', 'a', 'l', 'i', 'n', 'i', 't', 'y'], ['p', 'r', 'o', 'f', 'i', 'l', 'e', '.'])
  | .variance i => (['_', 's', 'a', 'l', 'i', 'n', 'i', 't', 'y', '_', 'v', 'a', 'r', 'i', 'a', 'n', 'c', 'e'], i ++ ['.'])
  | .curve => (['_', 's', 'a', 'l', 'i', 'n', 'i', 't', 'y'], ['c', 'u', 'r', 'v', 'e', '.'])
  | .anomaly t b => ('_' :: titleOf t ++ ['_', 's', 'a', 'l', 'i', 'n', 'i', 't', 'y', '_', 'a', 'n', 'o', 'm', 'a', 'l', 'y'], b ++ ['.'])

omit hc in
theorem figureParts_eq (g : Figure) : figureSuffix g = (figureParts g).1 ++ '_' :: (figureParts g).2 := by
  cases g <;> simp [figureSuffix, figureParts]

omit hc in
theorem figureParts_plain (g : Figure) (hg : Printed g) : '_' ∉ (figureParts g).2 := by
  cases g with
  | variance i => simpa [figureParts] using hg.2.1
  | anomaly t b => simpa [figureParts] using hg.2.1
  | _ => simp [figureParts]

omit hc in
theorem title_unique {a b : List Char} {t t' : Bool} (h : a ++ '_' :: titleOf t = b ++ '_' :: titleOf t') : a = b ∧ t = t' := by
  have ht : ∀ t, '_' ∉ titleOf t := by intro t; cases t <;> simp [titleOf]
  obtain ⟨h1, h2⟩ := underscore_unique (ht t) (ht t') h
  refine ⟨h1, ?_⟩
  cases t <;> cases t' <;> simp [titleOf] at h2 ⊢

omit hc in
theorem suffix_unique (n n' : List Char) (g g' : Figure) (hg : Printed g) (hg' : Printed g') (h : n ++ figureSuffix g = n' ++ figureSuffix g') :
    n = n' ∧ g = g' := by
  rw [figureParts_eq, figureParts_eq, ← List.append_assoc, ← List.append_assoc] at h
  obtain ⟨h1, h2⟩ := underscore_unique (figureParts_plain g hg) (figureParts_plain g' hg') h
  have same : ∀ {t t' : Bool} {x : List Char}, n ++ ('_' :: titleOf t ++ x) = n' ++ ('_' :: titleOf t' ++ x) → n = n' ∧ t = t' := by
    intro t t' x e
    rw [← List.append_assoc, ← List.append_assoc] at e
    exact title_unique (List.append_cancel_right e)
  have dig : ∀ c : Char, c.isDigit = true → c ≠ 't' ∧ c ≠ 's' ∧ c ≠ 'p' ∧ c ≠ 'c' ∧ c ≠ '[' := by
    intro c hc
    refine ⟨?_, ?_, ?_, ?_, ?_⟩ <;> rintro rfl <;> exact absurd hc (by decide)
  have hv : ∀ i, Printed (.variance i) → ∃ d l, i = d :: l ∧ d ≠ 't' ∧ d ≠ 's' ∧ d ≠ 'p' ∧ d ≠ 'c' ∧ d ≠ '[' := by
    rintro i ⟨⟨d, l, rfl, hd⟩, -⟩
    exact ⟨d, l, rfl, dig d hd⟩
  cases g with
  | variance i =>
    obtain ⟨d, l, hi, d1, d2, d3, d4, d5⟩ := hv i hg
    cases g' with
    | variance j =>
      have e : i = j := List.append_cancel_right h2
      exact ⟨List.append_cancel_right h1, by rw [e]⟩
    | anomaly t b =>
      obtain ⟨⟨l', hb⟩, -⟩ := hg'
      exfalso
      rw [figureParts, figureParts, hi, hb] at h2
      exact d5 (List.cons.inj h2).1
    | _ =>
      exfalso
      simp [figureParts, hi, d1, d2, d3, d4] at h2
  | anomaly t b =>
    obtain ⟨⟨l, hb⟩, -⟩ := hg
    cases g' with
    | variance j =>
      obtain ⟨d, l', hj, d1, d2, d3, d4, d5⟩ := hv j hg'
      exfalso
      rw [figureParts, figureParts, hj, hb] at h2
      exact d5 (List.cons.inj h2).1.symm
    | anomaly t' b' =>
      have e : b = b' := List.append_cancel_right h2
      obtain ⟨e1, e2⟩ := same h1
      exact ⟨e1, by rw [e, e2]⟩
    | _ =>
      exfalso
      simp [figureParts, hb] at h2
  | thetaSal t =>
    cases g' with
    | variance j =>
      obtain ⟨d, l', hj, d1, d2, d3, d4, d5⟩ := hv j hg'
      exfalso
      simp [figureParts, hj, Ne.symm d2] at h2
    | anomaly t' b' =>
      obtain ⟨⟨l', hb⟩, -⟩ := hg'
      exfalso
      simp [figureParts, hb] at h2
    | thetaSal t' =>
      obtain ⟨e1, e2⟩ := same h1
      exact ⟨e1, by rw [e2]⟩
    | _ =>
      exfalso
      simp [figureParts] at h2
  | trajectory =>
    cases g' with
    | variance j =>
      obtain ⟨d, l', hj, d1, d2, d3, d4, d5⟩ := hv j hg'
      exfalso
      simp [figureParts, hj, Ne.symm d1] at h2
    | anomaly t' b' =>
      obtain ⟨⟨l', hb⟩, -⟩ := hg'
      exfalso
      simp [figureParts, hb] at h2
    | trajectory => exact ⟨List.append_cancel_right h1, rfl⟩
    | _ =>
      exfalso
      simp [figureParts] at h2
  | profile =>
    cases g' with
    | variance j =>
      obtain ⟨d, l', hj, d1, d2, d3, d4, d5⟩ := hv j hg'
      exfalso
      simp [figureParts, hj, Ne.symm d3] at h2
    | anomaly t' b' =>
      obtain ⟨⟨l', hb⟩, -⟩ := hg'
      exfalso
      simp [figureParts, hb] at h2
    | profile => exact ⟨List.append_cancel_right h1, rfl⟩
    | _ =>
      exfalso
      simp [figureParts] at h2
  | curve =>
    cases g' with
    | variance j =>
      obtain ⟨d, l', hj, d1, d2, d3, d4, d5⟩ := hv j hg'
      exfalso
      simp [figureParts, hj, Ne.symm d4] at h2
    | anomaly t' b' =>
      obtain ⟨⟨l', hb⟩, -⟩ := hg'
      exfalso
      simp [figureParts, hb] at h2
    | curve => exact ⟨List.append_cancel_right h1, rfl⟩
    | _ =>
      exfalso
      simp [figureParts] at h2

omit hc in
theorem calib_comp_ne (c : Config) (hc : Orderly c) (f g : FloatId) (hf : Plain f.name) (hg : Plain g.name) :
    components (calPath c f) ≠ components (calseriesPath c g) := by
  rw [cal_comp hc f hf, calseries_comp hc g hg]
  exact last_ne (pre_ne hc.prefixes)

omit hc in
theorem last_name_eq_iff (a b x y : List Char) (hx : Plain x) (hy : Plain y) (hx2 : 2 ≤ x.length) (hy2 : 2 ≤ y.length) :
    file (sepJoin [a, b, x]) = file (sepJoin [a, b, y]) ↔ x = y := by
  constructor
  · intro h
    have := congrArg Prod.snd h
    change components _ = components _ at this
    rw [components_join3, components_join3, List.append_cancel_left_eq, components_plain x hx hx2, components_plain y hy hy2] at this
    simpa using this
  · rintro rfl
    rfl

end Verif.Workflow
