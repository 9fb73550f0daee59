import Verif.Lemmas.Crash
import Verif.Spec.Parallel

/-!
# Lemmas: processes that run at the same time
-/

set_option linter.unusedSectionVars false

namespace Verif.Lemmas

open Verif.Np Verif.Workflow Verif.Crash Verif.Spec Verif.Parallel

variable {V R R' : Type}

/-! ## Programs that run to their end -/

/-- The result of a program that runs alone, and the files at its end. -/
def fin : Prog V R → Store (Content V) → R × Store (Content V)
  | .ret r, s => (r, s)
  | .look x k, s => fin (k (s x)) s
  | .put x y k, s => fin k (fun z => if z = x then some y else s z)

theorem fin_andThen (p : Prog V R) (g : R → Prog V R') (s : Store (Content V)) : fin (p.andThen g) s = fin (g (fin p s).1) (fin p s).2 := by
  induction p generalizing s with
  | ret r => rfl
  | look x k ih => exact ih _ s
  | put x y k ih => exact ih _

theorem fin_tryThen (p : Prog V (Except PyErr R)) (g : R → Prog V (Except PyErr R')) (s : Store (Content V)) :
    fin (p.tryThen g) s = match (fin p s).1 with
      | .ok v => fin (g v) (fin p s).2
      | .error e => (.error e, (fin p s).2) := by
  unfold Prog.tryThen
  rw [fin_andThen]
  cases (fin p s).1 <;> rfl

theorem fin_fetch (D : PyErr) (p : List Char) (s : Store (Content V)) : fin (fetchProg D p) s = (fetch D s p, s) := by
  unfold fetchProg fetch load
  simp only [fin]
  cases s (file p) with
  | some x => cases x <;> rfl
  | none =>
    dsimp only
    split_ifs
    · rfl
    · simp only [fin]
      cases s (file (p ++ ['.', 'm', 'a', 't'])) with
      | some x => cases x <;> rfl
      | none => rfl

theorem fin_compute (c : Config) (P : Programs V) (D : PyErr) (op : Op) (f : FloatId) (s : Store (Content V)) :
    fin (computeProg c P D op f) s = (compute c P D op f s, s) := by
  cases op with
  | mapping =>
    simp only [computeProg, compute, fin_tryThen, fin_fetch, bind, Except.bind]
    cases fetch D s (sourcePath c f) with
    | error e => rfl
    | ok src =>
      simp only [fin]
      cases hx : s (file (mappedLoadPath c f)) with
      | none => rfl
      | some x =>
        simp only [fin_tryThen, fin_fetch, fetch, load, hx]
        cases x <;> rfl
  | calseries =>
    simp only [computeProg, compute, fin_tryThen, fin_fetch, bind, Except.bind]
    cases fetch D s (sourcePath c f) with
    | error e => rfl
    | ok src =>
      simp only [fin_andThen, fin_fetch]
      cases fetch D s (calseriesPath c f) with
      | ok v => rfl
      | error e => cases e <;> rfl
  | fit =>
    simp only [computeProg, compute, fin_tryThen, fin_fetch, bind, Except.bind]
    cases fetch D s (sourcePath c f) with
    | error e => rfl
    | ok src =>
      simp only [fin_tryThen, fin_fetch]
      cases fetch D s (mappedLoadPath c f) with
      | error e => rfl
      | ok m =>
        simp only [fin_tryThen, fin_fetch]
        cases fetch D s (calseriesFitPath c f) <;> rfl
  | plots =>
    simp only [computeProg, compute, fin_tryThen, fin_fetch, bind, Except.bind]
    cases fetch D s (mappedSavePath c f) with
    | error e => rfl
    | ok src =>
      simp only [fin_tryThen, fin_fetch]
      cases fetch D s (sourcePath c f) with
      | error e => rfl
      | ok m =>
        simp only [fin_tryThen, fin_fetch]
        cases fetch D s (calPlotPath c f) with
        | error e => rfl
        | ok cal =>
          simp only [fin_tryThen, fin_fetch]
          cases fetch D s (calseriesPlotPath c f) <;> rfl

theorem put_twice (s : Store (Content V)) (x : File) (y y' : Content V) :
    (fun z => if z = x then some y' else if z = x then some y else s z) = fun z => if z = x then some y' else s z := by
  funext z
  split_ifs <;> rfl

/-- A step that runs alone is a step of the model of interrupted steps. -/
theorem fin_step (c : Config) (P : Programs V) (D : PyErr) (op : Op) (f : FloatId) (s : Store (Content V)) :
    (some (fin (stepProg c P D op f) s).1, (fin (stepProg c P D op f) s).2) = attempt c P D op f .ends s := by
  unfold stepProg attempt
  rw [fin_tryThen, fin_compute]
  dsimp only
  cases compute c P D op f s with
  | error e => rfl
  | ok v =>
    dsimp only
    cases output c op f with
    | none => rfl
    | some p =>
      simp only [saveProg, fin, put_twice]
      rfl

theorem fin_work (c : Config) (P : Programs V) (D : PyErr) (l : List (Op × FloatId)) (s : Store (Content V)) :
    ((fin (workProg c P D l) s).1.map some, (fin (workProg c P D l) s).2) = runAll c P D (completed l) s := by
  induction l generalizing s with
  | nil => rfl
  | cons x l ih =>
    obtain ⟨op, f⟩ := x
    have e := fin_step c P D op f s
    have i := ih (fin (stepProg c P D op f) s).2
    simp only [workProg, fin_andThen, fin]
    change _ = runAll c P D ((op, f, .ends) :: completed l) s
    simp only [runAll]
    rw [← e, ← i]
    rfl

theorem fin_move (t : Prog V R × Store (Content V)) : fin (move t).1 (move t).2 = fin t.1 t.2 := by
  obtain ⟨p, s⟩ := t
  cases p <;> rfl

theorem fin_moves (n : ℕ) (t : Prog V R × Store (Content V)) : fin (moves n t).1 (moves n t).2 = fin t.1 t.2 := by
  induction n generalizing t with
  | zero => rfl
  | succ n ih => exact (ih (move t)).trans (fin_move t)

/-! ## The number of moves -/

/-- The program comes to its end within this many moves. -/
def Short : ℕ → Prog V R → Prop
  | _, .ret _ => True
  | 0, _ => False
  | n + 1, .look _ k => ∀ o, Short n (k o)
  | n + 1, .put _ _ k => Short n k

theorem short_ret (n : ℕ) (r : R) : Short n (.ret r : Prog V R) := by
  cases n <;> exact trivial

theorem short_mono (p : Prog V R) (n m : ℕ) (h : n ≤ m) (hp : Short n p) : Short m p := by
  induction p generalizing n m with
  | ret r => exact short_ret _ _
  | look x k ih =>
    cases n with
    | zero => exact absurd hp (by simp [Short])
    | succ n =>
      obtain ⟨m, rfl⟩ := Nat.exists_eq_succ_of_ne_zero (by omega : m ≠ 0)
      exact fun o => ih o n m (by omega) (hp o)
  | put x y k ih =>
    cases n with
    | zero => exact absurd hp (by simp [Short])
    | succ n =>
      obtain ⟨m, rfl⟩ := Nat.exists_eq_succ_of_ne_zero (by omega : m ≠ 0)
      exact ih n m (by omega) hp

theorem short_andThen (p : Prog V R) (g : R → Prog V R') (n m : ℕ) (hp : Short n p) (hg : ∀ r, Short m (g r)) : Short (n + m) (p.andThen g) := by
  induction p generalizing n with
  | ret r => exact short_mono _ m _ (by omega) (hg r)
  | look x k ih =>
    cases n with
    | zero => exact absurd hp (by simp [Short])
    | succ n =>
      rw [Nat.succ_add]
      exact fun o => ih o n (hp o)
  | put x y k ih =>
    cases n with
    | zero => exact absurd hp (by simp [Short])
    | succ n =>
      rw [Nat.succ_add]
      exact ih n hp

theorem short_tryThen (p : Prog V (Except PyErr R)) (g : R → Prog V (Except PyErr R')) (n m : ℕ) (hp : Short n p) (hg : ∀ r, Short m (g r)) :
    Short (n + m) (p.tryThen g) := by
  refine short_andThen p _ n m hp fun r => ?_
  cases r with
  | ok v => exact hg v
  | error e => exact short_ret _ _

theorem short_fetch (D : PyErr) (p : List Char) : Short 2 (fetchProg D p : Prog V (Except PyErr V)) := by
  unfold fetchProg
  intro o
  cases o with
  | some x => exact short_ret _ _
  | none =>
    dsimp only
    split_ifs
    · exact short_ret _ _
    · intro o
      cases o <;> exact short_ret _ _

theorem short_step (c : Config) (P : Programs V) (D : PyErr) (op : Op) (f : FloatId) : Short 8 (stepProg c P D op f) := by
  have key : ∀ v : V, ∀ n, 2 ≤ n → Short n (match output c op f with | some p => saveProg p v | none => .ret (.ok v)) := by
    intro v n hn
    refine short_mono _ 2 n hn ?_
    cases output c op f <;> exact trivial
  unfold stepProg
  cases op with
  | mapping =>
    refine short_tryThen _ _ 5 3 ?_ fun v => key v 3 (by omega)
    refine short_tryThen _ _ 2 3 (short_fetch D _) fun src => ?_
    intro o
    cases o with
    | none => exact short_ret _ _
    | some x => exact short_tryThen _ _ 2 0 (short_fetch D _) fun m => short_ret _ _
  | calseries =>
    refine short_tryThen _ _ 4 4 ?_ fun v => key v 4 (by omega)
    refine short_tryThen _ _ 2 2 (short_fetch D _) fun src => ?_
    refine short_andThen _ _ 2 0 (short_fetch D _) fun r => ?_
    cases r with
    | ok v => exact short_ret _ _
    | error e => cases e <;> exact short_ret _ _
  | fit =>
    refine short_tryThen _ _ 6 2 ?_ fun v => key v 2 le_rfl
    refine short_tryThen _ _ 2 4 (short_fetch D _) fun src => ?_
    refine short_tryThen _ _ 2 2 (short_fetch D _) fun m => ?_
    exact short_tryThen _ _ 2 0 (short_fetch D _) fun k => short_ret _ _
  | plots =>
    refine short_tryThen _ _ 8 0 ?_ fun v => short_ret _ _
    refine short_tryThen _ _ 2 6 (short_fetch D _) fun m => ?_
    refine short_tryThen _ _ 2 4 (short_fetch D _) fun src => ?_
    refine short_tryThen _ _ 2 2 (short_fetch D _) fun cal => ?_
    exact short_tryThen _ _ 2 0 (short_fetch D _) fun k => short_ret _ _

theorem short_work (c : Config) (P : Programs V) (D : PyErr) (l : List (Op × FloatId)) : Short (8 * l.length) (workProg c P D l) := by
  induction l with
  | nil => exact short_ret _ _
  | cons x l ih =>
    obtain ⟨op, f⟩ := x
    rw [List.length_cons, Nat.mul_succ, Nat.add_comm]
    refine short_andThen _ _ 8 _ (short_step c P D op f) fun r => ?_
    exact short_andThen _ _ _ 0 ih fun rs => short_ret _ _

theorem moves_ret (n : ℕ) (r : R) (s : Store (Content V)) : moves n ((.ret r : Prog V R), s) = (.ret r, s) := by
  induction n with
  | zero => rfl
  | succ n ih => exact ih

theorem short_ends (n : ℕ) (p : Prog V R) (hp : Short n p) (s : Store (Content V)) : ∃ r, (moves n (p, s)).1 = .ret r := by
  induction n generalizing p s with
  | zero =>
    cases p with
    | ret r => exact ⟨r, rfl⟩
    | look x k => exact absurd hp (by simp [Short])
    | put x y k => exact absurd hp (by simp [Short])
  | succ n ih =>
    cases p with
    | ret r => exact ⟨r, by rw [moves_ret]⟩
    | look x k => exact ih _ (hp _) s
    | put x y k => exact ih _ hp _

/-! ## Programs that are stopped -/

/-- The files may look like this while the program runs alone. -/
def Seen : Prog V R → Store (Content V) → Store (Content V) → Prop
  | .ret _, s, s' => s' = s
  | .look x k, s, s' => s' = s ∨ Seen (k (s x)) s s'
  | .put x y k, s, s' => s' = s ∨ Seen k (fun z => if z = x then some y else s z) s'

theorem seen_self (p : Prog V R) (s : Store (Content V)) : Seen p s s := by
  cases p with
  | ret r => rfl
  | look x k => exact Or.inl rfl
  | put x y k => exact Or.inl rfl

theorem seen_moves (n : ℕ) (p : Prog V R) (s : Store (Content V)) : Seen p s (moves n (p, s)).2 := by
  induction n generalizing p s with
  | zero => exact seen_self p s
  | succ n ih =>
    cases p with
    | ret r => rw [moves_ret]; rfl
    | look x k => exact Or.inr (ih _ _)
    | put x y k => exact Or.inr (ih _ _)

theorem seen_andThen (p : Prog V R) (g : R → Prog V R') (s s' : Store (Content V)) (h : Seen (p.andThen g) s s') :
    Seen p s s' ∨ Seen (g (fin p s).1) (fin p s).2 s' := by
  induction p generalizing s with
  | ret r => exact Or.inr h
  | look x k ih =>
    rcases h with h | h
    · exact Or.inl (Or.inl h)
    · rcases ih _ s h with h | h
      · exact Or.inl (Or.inr h)
      · exact Or.inr h
  | put x y k ih =>
    rcases h with h | h
    · exact Or.inl (Or.inl h)
    · rcases ih _ h with h | h
      · exact Or.inl (Or.inr h)
      · exact Or.inr h

/-! ## Which files a program accesses -/

/-- The program looks only at these files and writes only those. -/
def Within (A B : File → Prop) : Prog V R → Prop
  | .ret _ => True
  | .look x k => A x ∧ ∀ o, Within A B (k o)
  | .put x _ k => B x ∧ Within A B k

theorem within_mono (A B A' B' : File → Prop) (hA : ∀ x, A x → A' x) (hB : ∀ x, B x → B' x) (p : Prog V R) (h : Within A B p) : Within A' B' p := by
  induction p with
  | ret r => trivial
  | look x k ih => exact ⟨hA x h.1, fun o => ih o (h.2 o)⟩
  | put x y k ih => exact ⟨hB x h.1, ih h.2⟩

theorem within_andThen (A B : File → Prop) (p : Prog V R) (g : R → Prog V R') (hp : Within A B p) (hg : ∀ r, Within A B (g r)) :
    Within A B (p.andThen g) := by
  induction p with
  | ret r => exact hg r
  | look x k ih => exact ⟨hp.1, fun o => ih o (hp.2 o)⟩
  | put x y k ih => exact ⟨hp.1, ih hp.2⟩

theorem within_tryThen (A B : File → Prop) (p : Prog V (Except PyErr R)) (g : R → Prog V (Except PyErr R')) (hp : Within A B p)
    (hg : ∀ r, Within A B (g r)) : Within A B (p.tryThen g) := by
  refine within_andThen A B p _ hp fun r => ?_
  cases r with
  | ok v => exact hg v
  | error e => trivial

theorem within_fetch (A B : File → Prop) (D : PyErr) (p : List Char) (h : (['.', 'm', 'a', 't'].isSuffixOf p) = true) (hA : A (file p)) :
    Within A B (fetchProg D p : Prog V (Except PyErr V)) := by
  unfold fetchProg
  refine ⟨hA, fun o => ?_⟩
  cases o with
  | some x => trivial
  | none =>
    dsimp only
    rw [if_pos h]
    trivial

theorem within_move (A B : File → Prop) (t : Prog V R × Store (Content V)) (h : Within A B t.1) : Within A B (move t).1 := by
  obtain ⟨p, s⟩ := t
  cases p with
  | ret r => trivial
  | look x k => exact h.2 _
  | put x y k => exact h.2

theorem seen_quiet (A : File → Prop) (p : Prog V R) (h : Within A (fun _ => False) p) (s s' : Store (Content V)) (hs : Seen p s s') : s' = s := by
  induction p with
  | ret r => exact hs
  | look x k ih => exact hs.elim id fun hs => ih _ (h.2 _) hs
  | put x y k ih => exact h.1.elim

/-- The files of a float. -/
def FilesOf (c : Config) (f : FloatId) (x : File) : Prop :=
  x = file (sourcePath c f) ∨ x = file (mappedLoadPath c f) ∨ x = file (mappedSavePath c f) ∨ x = file (calseriesPath c f) ∨ x = file (calPath c f)

/-- The files of a float that are written. -/
def OutputsOf (c : Config) (f : FloatId) (x : File) : Prop :=
  x = file (mappedSavePath c f) ∨ x = file (calseriesPath c f) ∨ x = file (calPath c f)

theorem sameFiles_iff (c : Config) (f : FloatId) (s s' : Store V) : SameFiles c f s s' ↔ ∀ x, FilesOf c f x → s x = s' x := by
  constructor
  · rintro ⟨h1, h2, h3, h4, h5⟩ x (rfl | rfl | rfl | rfl | rfl) <;> assumption
  · intro h
    exact ⟨h _ (Or.inl rfl), h _ (Or.inr (Or.inl rfl)), h _ (Or.inr (Or.inr (Or.inl rfl))), h _ (Or.inr (Or.inr (Or.inr (Or.inl rfl)))),
      h _ (Or.inr (Or.inr (Or.inr (Or.inr rfl))))⟩

section

variable {c : Config} (hc : Orderly c)

include hc

theorem within_compute (P : Programs V) (D : PyErr) (op : Op) (f : FloatId) : Within (FilesOf c f) (fun _ => False) (computeProg c P D op f) := by
  have h1 : Within (FilesOf c f) (fun _ => False) (fetchProg D (sourcePath c f) : Prog V _) := within_fetch _ _ D _ (mat_source hc f) (Or.inl rfl)
  have h2 : Within (FilesOf c f) (fun _ => False) (fetchProg D (mappedLoadPath c f) : Prog V _) :=
    within_fetch _ _ D _ (mat_load hc f) (Or.inr (Or.inl rfl))
  have h3 : Within (FilesOf c f) (fun _ => False) (fetchProg D (mappedSavePath c f) : Prog V _) :=
    within_fetch _ _ D _ (mat_save hc f) (Or.inr (Or.inr (Or.inl rfl)))
  have h4 : Within (FilesOf c f) (fun _ => False) (fetchProg D (calseriesPath c f) : Prog V _) :=
    within_fetch _ _ D _ (mat_calseries hc f) (Or.inr (Or.inr (Or.inr (Or.inl rfl))))
  have h5 : Within (FilesOf c f) (fun _ => False) (fetchProg D (calPath c f) : Prog V _) :=
    within_fetch _ _ D _ (mat_cal hc f) (Or.inr (Or.inr (Or.inr (Or.inr rfl))))
  cases op with
  | mapping =>
    refine within_tryThen _ _ _ _ h1 fun src => ⟨Or.inr (Or.inl rfl), fun o => ?_⟩
    cases o with
    | none => trivial
    | some x => exact within_tryThen _ _ _ _ h2 fun m => trivial
  | calseries =>
    refine within_tryThen _ _ _ _ h1 fun src => within_andThen _ _ _ _ h4 fun r => ?_
    cases r with
    | ok v => trivial
    | error e => cases e <;> trivial
  | fit =>
    unfold computeProg
    rw [fitPath_eq hc]
    exact within_tryThen _ _ _ _ h1 fun src => within_tryThen _ _ _ _ h2 fun m => within_tryThen _ _ _ _ h4 fun k => trivial
  | plots =>
    unfold computeProg
    rw [(plotPath_eq hc f).1, (plotPath_eq hc f).2]
    exact within_tryThen _ _ _ _ h3 fun m => within_tryThen _ _ _ _ h1 fun src => within_tryThen _ _ _ _ h5 fun cal =>
      within_tryThen _ _ _ _ h4 fun k => trivial

theorem within_step (P : Programs V) (D : PyErr) (op : Op) (f : FloatId) : Within (FilesOf c f) (OutputsOf c f) (stepProg c P D op f) := by
  unfold stepProg
  refine within_tryThen _ _ _ _ (within_mono _ _ _ _ (fun _ h => h) (fun _ h => h.elim) _ (within_compute hc P D op f)) fun v => ?_
  cases op with
  | mapping => exact ⟨Or.inl rfl, Or.inl rfl, trivial⟩
  | calseries => exact ⟨Or.inr (Or.inl rfl), Or.inr (Or.inl rfl), trivial⟩
  | fit => exact ⟨Or.inr (Or.inr rfl), Or.inr (Or.inr rfl), trivial⟩
  | plots => trivial

theorem within_fit (P : Programs V) (D : PyErr) (f : FloatId) (B : File → Prop) (hB : B (file (calPath c f))) :
    Within (fun _ => True) B (workProg c P D [(.fit, f)]) := by
  refine within_andThen _ _ _ _ (within_tryThen _ _ _ _ (within_mono _ _ _ _ (fun _ _ => trivial) (fun _ h => h.elim) _ (within_compute hc P D .fit f))
    fun v => ⟨hB, hB, trivial⟩) fun r => trivial

/-- The files of a float that are not the same. -/
theorem files_differ (f : FloatId) (hf : Plain f.name) :
    file (sourcePath c f) ≠ file (mappedSavePath c f) ∧ file (calseriesPath c f) ≠ file (mappedSavePath c f) ∧
    file (sourcePath c f) ≠ file (calPath c f) ∧ file (mappedSavePath c f) ≠ file (calPath c f) ∧ file (calseriesPath c f) ≠ file (calPath c f) := by
  refine ⟨file_ne ?_, file_ne ?_, file_ne ?_, file_ne ?_, file_ne ?_⟩
  · rw [source_comp hc f hf, save_comp hc f hf]; simp only [List.append_assoc]; exact apart (comp_sourceMapped hc)
  · rw [calseries_comp hc f hf, save_comp hc f hf]; simp only [List.append_assoc]; exact (apart (comp_mappedCalib hc)).symm
  · rw [source_comp hc f hf, cal_comp hc f hf]; simp only [List.append_assoc]; exact apart (comp_sourceCalib hc)
  · rw [save_comp hc f hf, cal_comp hc f hf]; simp only [List.append_assoc]; exact apart (comp_mappedCalib hc)
  · rw [calseries_comp hc f hf, cal_comp hc f hf]; exact last_ne (pre_ne ⟨hc.prefixes.2, hc.prefixes.1⟩)

theorem within_work (P : Programs V) (D : PyErr) (l : List (Op × FloatId)) :
    Within (fun z => ∃ x ∈ l, FilesOf c x.2 z) (fun z => ∃ x ∈ l, OutputsOf c x.2 z) (workProg c P D l) := by
  induction l with
  | nil => trivial
  | cons x l ih =>
    obtain ⟨op, f⟩ := x
    refine within_andThen _ _ _ _ (within_mono _ _ _ _ (fun z h => ⟨(op, f), by simp, h⟩) (fun z h => ⟨(op, f), by simp, h⟩) _ (within_step hc P D op f))
      fun r => within_andThen _ _ _ _ (within_mono _ _ _ _ ?_ ?_ _ ih) fun rs => trivial
    · rintro z ⟨x, hx, h⟩
      exact ⟨x, List.mem_cons_of_mem _ hx, h⟩
    · rintro z ⟨x, hx, h⟩
      exact ⟨x, List.mem_cons_of_mem _ hx, h⟩

/-- No file of a float is one that is written for a float with another name. -/
theorem files_apart (f g : FloatId) (hf : Plain f.name) (hg : Plain g.name) (hne : g.name ≠ f.name) (x : File) (hx : FilesOf c f x)
    (hy : OutputsOf c g x) : False := by
  have ne := fun (pre : List Char) => name_ne (pre := pre) (post := c.mappedPost) hne.symm
  rcases hx with rfl | rfl | rfl | rfl | rfl <;> rcases hy with e | e | e <;> revert e <;> refine file_ne ?_
  · rw [source_comp hc f hf, save_comp hc g hg]; simp only [List.append_assoc]; exact apart (comp_sourceMapped hc)
  · rw [source_comp hc f hf, calseries_comp hc g hg]; simp only [List.append_assoc]; exact apart (comp_sourceCalib hc)
  · rw [source_comp hc f hf, cal_comp hc g hg]; simp only [List.append_assoc]; exact apart (comp_sourceCalib hc)
  · rw [load_comp hc f hf, save_comp hc g hg]; exact last_ne (ne _)
  · rw [load_comp hc f hf, calseries_comp hc g hg]; simp only [List.append_assoc]; exact apart (comp_mappedCalib hc)
  · rw [load_comp hc f hf, cal_comp hc g hg]; simp only [List.append_assoc]; exact apart (comp_mappedCalib hc)
  · rw [save_comp hc f hf, save_comp hc g hg]; exact last_ne (ne _)
  · rw [save_comp hc f hf, calseries_comp hc g hg]; simp only [List.append_assoc]; exact apart (comp_mappedCalib hc)
  · rw [save_comp hc f hf, cal_comp hc g hg]; simp only [List.append_assoc]; exact apart (comp_mappedCalib hc)
  · rw [calseries_comp hc f hf, save_comp hc g hg]; simp only [List.append_assoc]; exact (apart (comp_mappedCalib hc)).symm
  · rw [calseries_comp hc f hf, calseries_comp hc g hg]; exact last_ne (ne _)
  · rw [calseries_comp hc f hf, cal_comp hc g hg]; exact last_ne (pre_ne ⟨hc.prefixes.2, hc.prefixes.1⟩)
  · rw [cal_comp hc f hf, save_comp hc g hg]; simp only [List.append_assoc]; exact (apart (comp_mappedCalib hc)).symm
  · rw [cal_comp hc f hf, calseries_comp hc g hg]; exact last_ne (pre_ne hc.prefixes)
  · rw [cal_comp hc f hf, cal_comp hc g hg]; exact last_ne (ne _)

/-- Wherever a step is stopped, the files are as after a step that was interrupted or has ended. -/
theorem seen_step (P : Programs V) (D : PyErr) (op : Op) (f : FloatId) (s s' : Store (Content V)) (h : Seen (stepProg c P D op f) s s') :
    ∃ fate, s' = (attempt c P D op f fate s).2 := by
  rcases seen_andThen _ _ _ _ h with h | h
  · exact ⟨.killedBefore, seen_quiet _ _ (within_compute hc P D op f) _ _ h⟩
  · rw [fin_compute] at h
    dsimp only at h
    cases hx : compute c P D op f s with
    | error e =>
      rw [hx] at h
      exact ⟨.killedBefore, h⟩
    | ok v =>
      rw [hx] at h
      dsimp only at h
      cases ho : output c op f with
      | none =>
        rw [ho] at h
        exact ⟨.killedBefore, h⟩
      | some p =>
        rw [ho] at h
        rcases h with h | h | h
        · exact ⟨.killedBefore, h⟩
        · refine ⟨.killedSaving, ?_⟩
          unfold attempt
          dsimp only
          rw [hx, ho, h]
          rfl
        · refine ⟨.ends, ?_⟩
          unfold attempt
          dsimp only
          rw [hx, ho]
          refine h.trans ?_
          rw [put_twice]
          rfl

theorem seen_work (P : Programs V) (D : PyErr) (l : List (Op × FloatId)) (s s' : Store (Content V)) (h : Seen (workProg c P D l) s s') :
    ∃ n fate, s' = (runAll c P D (interruptedAt l n fate) s).2 := by
  induction l generalizing s with
  | nil => exact ⟨0, .ends, h⟩
  | cons x l ih =>
    obtain ⟨op, f⟩ := x
    rcases seen_andThen _ _ _ _ h with h | h
    · obtain ⟨fate, e⟩ := seen_step hc P D op f s s' h
      exact ⟨0, fate, e⟩
    · have e := congrArg Prod.snd (fin_step c P D op f s)
      dsimp only at e
      have h' : Seen (workProg c P D l) (fin (stepProg c P D op f) s).2 s' := by
        rcases seen_andThen _ _ _ _ h with h | h
        · exact h
        · have h : s' = _ := h
          have key : ∀ (q : Prog V (List (Except PyErr V))) t, Seen q t (fin q t).2 := by
            intro q
            induction q with
            | ret r => intro t; rfl
            | look x k ih => intro t; exact Or.inr (ih _ _)
            | put x y k ih => intro t; exact Or.inr (ih _)
          rw [h]
          exact key _ _
      obtain ⟨n, fate, i⟩ := ih _ h'
      refine ⟨n + 1, fate, ?_⟩
      rw [i, e]
      rfl

end

/-! ## Processes -/

/-- A process whose files no other process writes runs as it does alone. -/
theorem parallel_alone (i : ℕ) (A : File → Prop) (B : ℕ → File → Prop) (hB : ∀ j, j ≠ i → ∀ x, A x → B j x → False) (hi : ∀ x, B i x → A x)
    (sch : List ℕ) (ps : ℕ → Prog V R) (p : Prog V R) (hp : ps i = p) (hw : Within A (B i) p) (hj : ∀ j, j ≠ i → Within (fun _ => True) (B j) (ps j))
    (s s' : Store (Content V)) (hs : ∀ x, A x → s x = s' x) :
    (parallel sch ps s).1 i = (moves (sch.count i) (p, s')).1 ∧ ∀ x, A x → (parallel sch ps s).2 x = (moves (sch.count i) (p, s')).2 x := by
  induction sch generalizing ps p s s' with
  | nil => exact ⟨hp, hs⟩
  | cons j sch ih =>
    unfold parallel
    by_cases h : j = i
    · subst h
      rw [List.count_cons_self]
      have h1 : (move (p, s)).1 = (move (p, s')).1 := by
        cases p with
        | ret r => rfl
        | look x k => change k (s x) = k (s' x); rw [hs x hw.1]
        | put x y k => rfl
      have h2 : ∀ x, A x → (move (p, s)).2 x = (move (p, s')).2 x := by
        intro z hz
        cases p with
        | ret r => exact hs z hz
        | look x k => exact hs z hz
        | put x y k =>
          change (if z = x then some y else s z) = (if z = x then some y else s' z)
          rw [hs z hz]
      refine ih _ _ ?_ (within_move _ _ (p, s') hw) ?_ _ _ ?_
      · rw [Function.update_self, hp, h1]
      · intro k hk
        rw [Function.update_of_ne hk]
        exact hj k hk
      · rw [hp]
        exact h2
    · rw [List.count_cons_of_ne h]
      refine ih _ _ ?_ hw ?_ _ _ ?_
      · rw [Function.update_of_ne (Ne.symm h), hp]
      · intro k hk
        by_cases hkj : k = j
        · subst hkj
          rw [Function.update_self]
          exact within_move _ _ (ps k, s) (hj k hk)
        · rw [Function.update_of_ne hkj]
          exact hj k hk
      · intro x hx
        have hj' := hj j h
        cases hq : ps j with
        | ret r => exact hs x hx
        | look y k => exact hs x hx
        | put y v k =>
          rw [hq] at hj'
          change (if x = y then some v else s x) = s' x
          rw [if_neg (fun e : x = y => hB j h x hx (by rw [e]; exact hj'.1))]
          exact hs x hx

/-- Whatever allowed contents the program finds, it writes allowed contents only, and its results are as stated. -/
def Safe (A : File → Option (Content V) → Prop) (Q : R → Prop) : Prog V R → Prop
  | .ret r => Q r
  | .look x k => ∀ o, A x o → Safe A Q (k o)
  | .put x y k => A x (some y) ∧ Safe A Q k

theorem safe_andThen (A : File → Option (Content V) → Prop) (Q : R → Prop) (Q' : R' → Prop) (p : Prog V R) (g : R → Prog V R') (hp : Safe A Q p)
    (hg : ∀ r, Q r → Safe A Q' (g r)) : Safe A Q' (p.andThen g) := by
  induction p with
  | ret r => exact hg r hp
  | look x k ih => exact fun o ho => ih o (hp o ho)
  | put x y k ih => exact ⟨hp.1, ih hp.2⟩

/-- The same for the only program that writes the file `x₀`, which therefore knows its content. -/
def Own (A : File → Option (Content V) → Prop) (Q : R → Prop) (x₀ : File) : Option (Content V) → Prog V R → Prop
  | _, .ret r => Q r
  | v, .look x k => if x = x₀ then Own A Q x₀ v (k v) else ∀ o, A x o → Own A Q x₀ v (k o)
  | v, .put x y k => A x (some y) ∧ if x = x₀ then Own A Q x₀ (some y) k else Own A Q x₀ v k

theorem own_parallel (A : File → Option (Content V) → Prop) (Q : ℕ → R → Prop) (x₀ : File) (i : ℕ) (sch : List ℕ) (ps : ℕ → Prog V R)
    (s : Store (Content V)) (hi : Own A (Q i) x₀ (s x₀) (ps i)) (hp : ∀ j, j ≠ i → Safe A (Q j) (ps j) ∧ Within (fun _ => True) (fun x => x ≠ x₀) (ps j))
    (hs : ∀ x, A x (s x)) (j : ℕ) (r : R) (hr : (parallel sch ps s).1 j = .ret r) : Q j r := by
  induction sch generalizing ps s with
  | nil =>
    have hr : ps j = .ret r := hr
    by_cases h : j = i
    · subst h
      rw [hr] at hi
      exact hi
    · have := (hp j h).1
      rw [hr] at this
      exact this
  | cons l sch ih =>
    have hA : ∀ x y, A x (some y) → ∀ z, A z (if z = x then some y else s z) := by
      intro x y h z
      split_ifs with e
      · rw [e]; exact h
      · exact hs z
    refine ih (Function.update ps l (move (ps l, s)).1) (move (ps l, s)).2 ?_ ?_ ?_ hr
    · by_cases h : i = l
      · subst h
        rw [Function.update_self]
        cases hq : ps i with
        | ret r => rw [hq] at hi; exact hi
        | look x k =>
          rw [hq] at hi
          change Own A (Q i) x₀ (s x₀) (k (s x))
          unfold Own at hi
          split_ifs at hi with e
          · rw [e]; exact hi
          · exact hi _ (hs x)
        | put x y k =>
          rw [hq] at hi
          change Own A (Q i) x₀ (if x₀ = x then some y else s x₀) k
          unfold Own at hi
          obtain ⟨_, hi⟩ := hi
          split_ifs at hi with e
          · rw [if_pos e.symm]; exact hi
          · rw [if_neg (Ne.symm e)]; exact hi
      · rw [Function.update_of_ne h]
        obtain ⟨_, h2⟩ := hp l (Ne.symm h)
        have e : (move (ps l, s)).2 x₀ = s x₀ := by
          cases hq : ps l with
          | ret r => rfl
          | look x k => rfl
          | put x y k =>
            rw [hq] at h2
            exact if_neg h2.1.symm
        rw [e]
        exact hi
    · intro j hj
      by_cases h : j = l
      · subst h
        rw [Function.update_self]
        obtain ⟨h1, h2⟩ := hp j hj
        refine ⟨?_, within_move _ _ (ps j, s) h2⟩
        cases hq : ps j with
        | ret r => rw [hq] at h1; exact h1
        | look x k => rw [hq] at h1; exact h1 _ (hs x)
        | put x y k => rw [hq] at h1; exact h1.2
      · rw [Function.update_of_ne h]
        exact hp j hj
    · by_cases h : l = i
      · subst h
        cases hq : ps l with
        | ret r => exact hs
        | look x k => exact hs
        | put x y k => rw [hq] at hi; exact hA x y hi.1
      · have h1 := (hp l h).1
        cases hq : ps l with
        | ret r => exact hs
        | look x k => exact hs
        | put x y k => rw [hq] at h1; exact hA x y h1.1

theorem safe_fetch (A : File → Option (Content V) → Prop) (D : PyErr) (p : List Char) (Q : Except PyErr V → Prop)
    (h : ∀ o, A (file p) o → ∃ x, o = some x ∧ Q (opened D x)) : Safe A Q (fetchProg D p) := by
  unfold fetchProg
  intro o ho
  obtain ⟨x, rfl, hx⟩ := h o ho
  exact hx

end Verif.Lemmas
