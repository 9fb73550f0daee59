import Verif.Lemmas.Parallel
import Verif.Props.Crash

/-!
# C144, C145: processes that run at the same time
-/

set_option linter.unusedSectionVars false

namespace Verif.Props

open Verif.Np Verif.Workflow Verif.Crash Verif.Spec Verif.Lemmas Verif.Parallel

variable {V : Type}

/-- Each process is where it would be alone after as many moves, with the files of its floats as they would be. -/
theorem parallel_local (c : Config) (hc : Orderly c) (P : Programs V) (D : PyErr) (w : Work) (hw : Divided w) (sch : List ℕ) (i : ℕ)
    (s : Store (Content V)) :
    (parallel sch (fun j => workProg c P D (w j)) s).1 i = (moves (sch.count i) (workProg c P D (w i), s)).1 ∧
    ∀ x ∈ w i, SameFiles c x.2 (parallel sch (fun j => workProg c P D (w j)) s).2 (moves (sch.count i) (workProg c P D (w i), s)).2 := by
  have key := parallel_alone i (fun z => ∃ x ∈ w i, FilesOf c x.2 z) (fun j z => ∃ x ∈ w j, OutputsOf c x.2 z)
    (by
      rintro j hj z ⟨x, hx, hz⟩ ⟨y, hy, hz'⟩
      exact files_apart hc x.2 y.2 (hw.1 i x hx) (hw.1 j y hy) (hw.2 j i hj y hy x hx) z hz hz')
    (by
      rintro z ⟨x, hx, h | h | h⟩
      · exact ⟨x, hx, Or.inr (Or.inr (Or.inl h))⟩
      · exact ⟨x, hx, Or.inr (Or.inr (Or.inr (Or.inl h)))⟩
      · exact ⟨x, hx, Or.inr (Or.inr (Or.inr (Or.inr h)))⟩)
    sch (fun j => workProg c P D (w j)) (workProg c P D (w i)) rfl (within_work hc P D (w i))
    (fun j _ => within_mono _ _ _ _ (fun _ _ => trivial) (fun _ h => h) _ (within_work hc P D (w j))) s s (fun _ _ => rfl)
  refine ⟨key.1, fun x hx => (sameFiles_iff c x.2 _ _).2 fun z hz => key.2 z ⟨x, hx, hz⟩⟩

/-- C144. Floats with different names may be analysed by different processes at the same time: however their accesses to files are interleaved, whichever of the other
processes are stopped wherever, a process that has come to its end has the results it would have alone, one step after the other, and so do the files of its
floats. -/
theorem parallel_results (c : Config) (hc : Orderly c) (P : Programs V) (D : PyErr) (w : Work) (hw : Divided w) (sch : List ℕ) (i : ℕ)
    (s : Store (Content V)) (rs : List (Except PyErr V)) (hr : (parallel sch (fun j => workProg c P D (w j)) s).1 i = .ret rs) :
    rs.map some = (runAll c P D (completed (w i)) s).1 ∧
    ∀ x ∈ w i, SameFiles c x.2 (parallel sch (fun j => workProg c P D (w j)) s).2 (runAll c P D (completed (w i)) s).2 := by
  obtain ⟨h1, h2⟩ := parallel_local c hc P D w hw sch i s
  have e := fin_moves (sch.count i) (workProg c P D (w i), s)
  rw [← h1, hr] at e
  rw [← fin_work]
  dsimp only at e ⊢
  rw [← e]
  exact ⟨rfl, h2⟩

/-- C144. A process comes to its end within eight accesses to files for each of its steps, whatever the other processes do. -/
theorem parallel_ends (c : Config) (hc : Orderly c) (P : Programs V) (D : PyErr) (w : Work) (hw : Divided w) (sch : List ℕ) (i : ℕ)
    (s : Store (Content V)) (hn : 8 * (w i).length ≤ sch.count i) : ∃ rs, (parallel sch (fun j => workProg c P D (w j)) s).1 i = .ret rs := by
  rw [(parallel_local c hc P D w hw sch i s).1]
  exact short_ends _ _ (short_mono _ _ _ hn (short_work c P D (w i))) s

/-- C144. If a process is stopped, wherever that is, the files of its floats are those after some of its steps, the next one interrupted. -/
theorem parallel_stopped (c : Config) (hc : Orderly c) (P : Programs V) (D : PyErr) (w : Work) (hw : Divided w) (sch : List ℕ) (i : ℕ)
    (s : Store (Content V)) :
    ∃ n fate, ∀ x ∈ w i, SameFiles c x.2 (parallel sch (fun j => workProg c P D (w j)) s).2 (runAll c P D (interruptedAt (w i) n fate) s).2 := by
  obtain ⟨n, fate, e⟩ := seen_work hc P D (w i) s _ (seen_moves (sch.count i) (workProg c P D (w i)) s)
  refine ⟨n, fate, fun x hx => ?_⟩
  rw [← e]
  exact (parallel_local c hc P D w hw sch i s).2 x hx

/-! ## The same float in two processes -/

section

variable (c : Config) (hc : Orderly c) (P : Programs V) (D : PyErr) (f : FloatId) (hf : Plain f.name) (hd : NoDirectory f) (s : Store (Content V))
  (src m k m' r r' : V) (hsrc : s (file (sourcePath c f)) = some (.whole src)) (hm : s (file (mappedSavePath c f)) = some (.whole m))
  (hk : s (file (calseriesPath c f)) = some (.whole k)) (h1 : P.mapping src (some m) = .ok m') (h2 : P.fit src m k = .ok r)
  (h3 : P.fit src m' k = .ok r')

include hc hf hd hsrc hm hk h1 h2 h3

/-- C145. One after the other, in either order, mapping and calibration of the float succeed. -/
theorem either_order : (runAll c P D (completed [(.mapping, f), (.fit, f)]) s).1 = [some (.ok m'), some (.ok r')] ∧
    (runAll c P D (completed [(.fit, f), (.mapping, f)]) s).1 = [some (.ok r), some (.ok m')] := by
  have hload := (mapped_found_iff c hc f hf).2 hd
  obtain ⟨f1, f2, f3, f4, f5⟩ := files_differ hc f hf
  constructor
  · simp [completed, runAll, attempt, compute, write, output, save, fitPath_eq hc, fetch_exact hc D _ _ (mat_source hc f),
      fetch_exact hc D _ _ (mat_load hc f), fetch_exact hc D _ _ (mat_calseries hc f), ← hload, hsrc, hm, hk, h1, h3, f1, f2, bind, Except.bind]
  · simp [completed, runAll, attempt, compute, write, output, save, fitPath_eq hc, fetch_exact hc D _ _ (mat_source hc f),
      fetch_exact hc D _ _ (mat_load hc f), fetch_exact hc D _ _ (mat_calseries hc f), ← hload, hsrc, hm, hk, h1, h2, f3, f4, bind, Except.bind]

/-- C145. At the same time, the mapping always succeeds, and the calibration uses the earlier mapped data, uses the new ones, or ends with the exception for a damaged
file; whichever process is stopped wherever. -/
theorem fit_while_mapping (sch : List ℕ) (w : Work) (hw0 : w 0 = [(.mapping, f)]) (hw1 : w 1 = [(.fit, f)]) (hw2 : ∀ i, 1 < i → w i = []) :
    (∀ rs, (parallel sch (fun j => workProg c P D (w j)) s).1 0 = .ret rs → rs = [.ok m']) ∧
    (∀ rs, (parallel sch (fun j => workProg c P D (w j)) s).1 1 = .ret rs → rs = [.ok r] ∨ rs = [.ok r'] ∨ rs = [.error D]) := by
  have hload := (mapped_found_iff c hc f hf).2 hd
  obtain ⟨f1, f2, f3, f4, f5⟩ := files_differ hc f hf
  let A : File → Option (Content V) → Prop := fun x o =>
    (x = file (sourcePath c f) → o = some (.whole src)) ∧ (x = file (calseriesPath c f) → o = some (.whole k)) ∧
    (x = file (mappedSavePath c f) → o = some (.whole m) ∨ o = some .damaged ∨ o = some (.whole m'))
  have hA : ∀ x, A x (s x) := fun x =>
    ⟨fun e => by rw [e, hsrc], fun e => by rw [e, hk], fun e => Or.inl (by rw [e, hm])⟩
  have hAm : ∀ y, y = .damaged ∨ y = .whole m' → A (file (mappedSavePath c f)) (some y) := by
    intro y hy
    refine ⟨fun e => absurd e.symm f1, fun e => absurd e.symm f2, fun _ => ?_⟩
    rcases hy with rfl | rfl <;> simp
  have hAc : ∀ y, A (file (calPath c f)) (some y) := fun y =>
    ⟨fun e => absurd e.symm f3, fun e => absurd e.symm f5, fun e => absurd e.symm f4⟩
  let Q : ℕ → List (Except PyErr V) → Prop := fun i rs =>
    (i = 0 → rs = [.ok m']) ∧ (i = 1 → rs = [.ok r] ∨ rs = [.ok r'] ∨ rs = [.error D])
  have main := fun j rs => own_parallel A Q (file (mappedSavePath c f)) 0 sch (fun j => workProg c P D (w j)) s ?_ ?_ hA j rs
  · exact ⟨fun rs h => (main 0 rs h).1 rfl, fun rs h => (main 1 rs h).2 rfl⟩
  · rw [hw0, hm]
    simp only [workProg, stepProg, computeProg, fetchProg, Prog.tryThen, Prog.andThen, Own, if_neg f1]
    intro o ho
    rw [ho.1 rfl]
    simp only [opened, Prog.andThen, Own, if_pos hload.symm, ← hload, if_true, h1, output, saveProg]
    exact ⟨hAm _ (Or.inl rfl), hAm _ (Or.inr rfl), fun _ => rfl, fun e => absurd e (by decide)⟩
  · intro j hj
    rcases Nat.lt_or_ge 1 j with h | h
    · rw [hw2 j h]
      exact ⟨⟨fun e => absurd e hj, fun e => by omega⟩, trivial⟩
    · obtain rfl : j = 1 := by omega
      rw [hw1]
      refine ⟨?_, within_fit hc P D f _ f4.symm⟩
      simp only [workProg, stepProg, computeProg, fitPath_eq hc, fetchProg, Prog.tryThen, Prog.andThen, ← hload, output, saveProg]
      · intro o ho
        rw [ho.1 rfl]
        intro o ho
        rcases ho.2.2 rfl with rfl | rfl | rfl
        · intro o ho
          rw [ho.2.1 rfl]
          simp only [opened, Prog.andThen, h2]
          exact ⟨hAc _, hAc _, fun e => absurd e (by decide), fun _ => Or.inl rfl⟩
        · exact ⟨fun e => absurd e (by decide), fun _ => Or.inr (Or.inr rfl)⟩
        · intro o ho
          rw [ho.2.1 rfl]
          simp only [opened, Prog.andThen, h3]
          exact ⟨hAc _, hAc _, fun e => absurd e (by decide), fun _ => Or.inr (Or.inl rfl)⟩

/-- C145. All of these happen: there are orders of the accesses, with both processes coming to their ends, for each of the three results. -/
theorem fit_while_mapping_all (w : Work) (hw0 : w 0 = [(.mapping, f)]) (hw1 : w 1 = [(.fit, f)]) (x : Except PyErr V)
    (hx : x = .ok r ∨ x = .ok r' ∨ x = .error D) :
    ∃ sch, (parallel sch (fun j => workProg c P D (w j)) s).1 0 = .ret [.ok m'] ∧ (parallel sch (fun j => workProg c P D (w j)) s).1 1 = .ret [x] := by
  have hload := (mapped_found_iff c hc f hf).2 hd
  obtain ⟨f1, f2, f3, f4, f5⟩ := files_differ hc f hf
  rcases hx with rfl | rfl | rfl
  · refine ⟨[1, 1, 1, 1, 1, 0, 0, 0, 0, 0], ?_⟩
    simp [parallel, move, Function.update, hw0, hw1, workProg, stepProg, computeProg, fitPath_eq hc, fetchProg, Prog.tryThen, Prog.andThen, ← hload, output,
      saveProg, opened, hsrc, hm, hk, h1, h2, f1, f2, f3, f4]
  · refine ⟨[0, 0, 0, 0, 0, 1, 1, 1, 1, 1], ?_⟩
    simp [parallel, move, Function.update, hw0, hw1, workProg, stepProg, computeProg, fitPath_eq hc, fetchProg, Prog.tryThen, Prog.andThen, ← hload, output,
      saveProg, opened, hsrc, hm, hk, h1, h3, f1, f2, f3, f4]
  · refine ⟨[0, 0, 0, 0, 1, 1, 0], ?_⟩
    simp [parallel, move, Function.update, hw0, hw1, workProg, stepProg, computeProg, fitPath_eq hc, fetchProg, Prog.tryThen, Prog.andThen, ← hload, output,
      saveProg, opened, hsrc, hm, hk, h1, f1, f2, f3, f4]

end

/-! ## Cases -/

/-- Two processes: the whole analysis of one float, and the mapping of another one. -/
def paWork : Work
  | 0 => [(.mapping, wfHome), (.calseries, wfHome), (.fit, wfHome), (.plots, wfHome)]
  | 1 => [(.mapping, ⟨['/'], ['3', '9', '0', '1', '9', '6', '1']⟩)]
  | _ => []

example : Divided paWork := by
  have h : ∀ i, ∀ x ∈ paWork i, (i = 0 ∧ x.2.name = wfHome.name) ∨ (i = 1 ∧ x.2.name = ['3', '9', '0', '1', '9', '6', '1']) := by
    intro i x hx
    match i with
    | 0 =>
      refine Or.inl ⟨rfl, ?_⟩
      simp only [paWork, List.mem_cons, List.not_mem_nil, or_false] at hx
      rcases hx with rfl | rfl | rfl | rfl <;> rfl
    | 1 =>
      refine Or.inr ⟨rfl, ?_⟩
      simp only [paWork, List.mem_cons, List.not_mem_nil, or_false] at hx
      rw [hx]
    | n + 2 => simp [paWork] at hx
  have h0 : Plain wfHome.name := by unfold Plain; decide
  have h1 : Plain ['3', '9', '0', '1', '9', '6', '1'] := by unfold Plain; decide
  refine ⟨fun i x hx => ?_, fun i j hij x hx y hy => ?_⟩
  · rcases h i x hx with ⟨_, e⟩ | ⟨_, e⟩ <;> rw [e] <;> assumption
  · rcases h i x hx with ⟨a, e⟩ | ⟨a, e⟩ <;> rcases h j y hy with ⟨b, e'⟩ | ⟨b, e'⟩
    · exact absurd (a.trans b.symm) hij
    · rw [e, e']; decide
    · rw [e, e']; decide
    · exact absurd (a.trans b.symm) hij

/-- A disk with the source, mapped data and calseries file of a float. -/
def paDisk : Store (Content ℕ) := fun x =>
  if x = file (sourcePath defaultPaths wfHome) then some (.whole 1)
  else if x = file (mappedSavePath defaultPaths wfHome) then some (.whole 2)
  else if x = file (calseriesPath defaultPaths wfHome) then some (.whole 3) else none

/-- The hypotheses of C145 are met, and the three results of the calibration are 6, 16 and the exception. -/
example : paDisk (file (sourcePath defaultPaths wfHome)) = some (.whole 1) ∧ paDisk (file (mappedSavePath defaultPaths wfHome)) = some (.whole 2) ∧
    paDisk (file (calseriesPath defaultPaths wfHome)) = some (.whole 3) ∧ wfPrograms.mapping 1 (some 2) = .ok 12 ∧ wfPrograms.fit 1 2 3 = .ok 6 ∧
    wfPrograms.fit 1 12 3 = .ok 16 := by
  refine ⟨?_, ?_, ?_, rfl, rfl, rfl⟩ <;> decide +kernel

end Verif.Props
