import Verif.Lemmas.Workflow
import Verif.Spec.Crash

/-!
# Lemmas: interrupted steps
-/

set_option linter.unusedSectionVars false

namespace Verif.Lemmas

open Verif.Np Verif.Workflow Verif.Crash Verif.Spec

variable {V : Type} {c : Config} (hc : Orderly c)

/-- A step writes at most one of three files of its float. -/
theorem attempt_writes (P : Programs V) (D : PyErr) (op : Op) (g : FloatId) (fate : Fate) (s : Store (Content V)) (x : File)
    (h1 : op = .mapping → x ≠ file (mappedSavePath c g)) (h2 : op = .calseries → x ≠ file (calseriesPath c g))
    (h3 : op = .fit → x ≠ file (calPath c g)) : (attempt c P D op g fate s).2 x = s x := by
  have key : ∀ y, write s (output c op g) y x = s x := by
    intro y
    cases op with
    | mapping => exact if_neg (h1 rfl)
    | calseries => exact if_neg (h2 rfl)
    | fit => exact if_neg (h3 rfl)
    | plots => rfl
  cases fate with
  | killedBefore => rfl
  | killedSaving =>
    unfold attempt
    dsimp only
    split
    · exact key _
    · rfl
  | ends =>
    unfold attempt
    dsimp only
    split
    · exact key _
    · rfl

include hc

theorem fetch_exact (D : PyErr) (s : Store (Content V)) (p : List Char) (h : (['.', 'm', 'a', 't'].isSuffixOf p) = true) :
    fetch D s p = match s (file p) with
      | some (.whole v) => .ok v
      | some .damaged => .error D
      | none => .error .fileNotFound := by
  unfold fetch
  rw [load_exact s p h]
  cases s (file p) with
  | none => rfl
  | some v => cases v <;> rfl

/-- What a step computes depends on the files of its float only. -/
theorem compute_same (P : Programs V) (D : PyErr) (op : Op) (f : FloatId) (s s' : Store (Content V))
    (h1 : s (file (sourcePath c f)) = s' (file (sourcePath c f)))
    (h2 : op = .mapping ∨ op = .fit → s (file (mappedLoadPath c f)) = s' (file (mappedLoadPath c f)))
    (h3 : op = .plots → s (file (mappedSavePath c f)) = s' (file (mappedSavePath c f)))
    (h4 : op ≠ .mapping → s (file (calseriesPath c f)) = s' (file (calseriesPath c f)))
    (h5 : op = .plots → s (file (calPath c f)) = s' (file (calPath c f))) :
    compute c P D op f s = compute c P D op f s' := by
  have l1 : fetch D s (sourcePath c f) = fetch D s' (sourcePath c f) := by
    rw [fetch_exact hc D _ _ (mat_source hc f), fetch_exact hc D _ _ (mat_source hc f), h1]
  cases op with
  | mapping =>
    unfold compute
    rw [l1, h2 (Or.inl rfl)]
  | calseries =>
    unfold compute
    rw [l1, fetch_exact hc D s _ (mat_calseries hc f), fetch_exact hc D s' _ (mat_calseries hc f), h4 (by decide)]
  | fit =>
    unfold compute
    rw [l1, fitPath_eq hc, fetch_exact hc D s _ (mat_calseries hc f), fetch_exact hc D s' _ (mat_calseries hc f), h4 (by decide),
      fetch_exact hc D s _ (mat_load hc f), fetch_exact hc D s' _ (mat_load hc f), h2 (Or.inr rfl)]
  | plots =>
    unfold compute
    rw [l1, (plotPath_eq hc f).1, (plotPath_eq hc f).2, fetch_exact hc D s _ (mat_calseries hc f), fetch_exact hc D s' _ (mat_calseries hc f),
      h4 (by decide), fetch_exact hc D s _ (mat_save hc f), fetch_exact hc D s' _ (mat_save hc f), h3 rfl, fetch_exact hc D s _ (mat_cal hc f),
      fetch_exact hc D s' _ (mat_cal hc f), h5 rfl]

theorem attempt_same (P : Programs V) (D : PyErr) (op : Op) (f : FloatId) (fate : Fate) (s s' : Store (Content V)) (h : SameFiles c f s s') :
    (attempt c P D op f fate s).1 = (attempt c P D op f fate s').1 ∧
    SameFiles c f (attempt c P D op f fate s).2 (attempt c P D op f fate s').2 := by
  obtain ⟨h1, h2, h3, h4, h5⟩ := h
  have hs : SameFiles c f s s' := ⟨h1, h2, h3, h4, h5⟩
  have e := compute_same hc P D op f s s' h1 (fun _ => h2) (fun _ => h3) (fun _ => h4) (fun _ => h5)
  have key : ∀ v, SameFiles c f (write s (output c op f) v) (write s' (output c op f) v) := by
    intro v
    cases output c op f with
    | none => exact hs
    | some p =>
      unfold write save
      refine ⟨?_, ?_, ?_, ?_, ?_⟩ <;> dsimp only <;> split_ifs <;> first | rfl | assumption
  cases fate with
  | killedBefore => exact ⟨rfl, hs⟩
  | killedSaving =>
    unfold attempt
    dsimp only
    rw [e]
    split
    · exact ⟨rfl, key _⟩
    · exact ⟨rfl, hs⟩
  | ends =>
    unfold attempt
    dsimp only
    rw [e]
    split
    · exact ⟨rfl, key _⟩
    · exact ⟨rfl, hs⟩

/-- No file of a float is written by a step for a float with another name. -/
theorem attempt_other (P : Programs V) (D : PyErr) (op : Op) (f g : FloatId) (fate : Fate) (hf : Plain f.name) (hg : Plain g.name)
    (hne : g.name ≠ f.name) (s : Store (Content V)) : SameFiles c f (attempt c P D op g fate s).2 s := by
  have ne := fun (pre : List Char) => name_ne (pre := pre) (post := c.mappedPost) hne.symm
  refine ⟨?_, ?_, ?_, ?_, ?_⟩ <;> refine attempt_writes P D op g fate s _ (fun _ => file_ne ?_) (fun _ => file_ne ?_) (fun _ => file_ne ?_)
  · rw [source_comp hc f hf, save_comp hc g hg]; simp only [List.append_assoc]; exact apart (comp_sourceMapped hc)
  · rw [source_comp hc f hf, calseries_comp hc g hg]; simp only [List.append_assoc]; exact apart (comp_sourceCalib hc)
  · rw [source_comp hc f hf, cal_comp hc g hg]; simp only [List.append_assoc]; exact apart (comp_sourceCalib hc)
  · rw [load_comp hc f hf, save_comp hc g hg]; exact last_ne (ne _)
  · rw [load_comp hc f hf, calseries_comp hc g hg]; simp only [List.append_assoc]; exact apart (comp_mappedCalib hc)
  · rw [load_comp hc f hf, cal_comp hc g hg]; simp only [List.append_assoc]; exact apart (comp_mappedCalib hc)
  · rw [save_comp hc f hf, save_comp hc g hg]; exact last_ne (ne _)
  · rw [save_comp hc f hf, calseries_comp hc g hg]; simp only [List.append_assoc]; exact apart (comp_mappedCalib hc)
  · rw [save_comp hc f hf, cal_comp hc g hg]; simp only [List.append_assoc]; exact apart (comp_mappedCalib hc)
  · rw [calseries_comp hc f hf, save_comp hc g hg]; simp only [List.append_assoc]; exact (apart (comp_mappedCalib hc)).symm
  · rw [calseries_comp hc f hf, calseries_comp hc g hg]; exact last_ne (ne _)
  · rw [calseries_comp hc f hf, cal_comp hc g hg]; exact last_ne (pre_ne ⟨hc.prefixes.2, hc.prefixes.1⟩)
  · rw [cal_comp hc f hf, save_comp hc g hg]; simp only [List.append_assoc]; exact (apart (comp_mappedCalib hc)).symm
  · rw [cal_comp hc f hf, calseries_comp hc g hg]; exact last_ne (pre_ne hc.prefixes)
  · rw [cal_comp hc f hf, cal_comp hc g hg]; exact last_ne (ne _)

/-- The source is never written. -/
theorem source_kept (P : Programs V) (D : PyErr) (op : Op) (f g : FloatId) (fate : Fate) (hf : Plain f.name) (hg : Plain g.name)
    (s : Store (Content V)) : (attempt c P D op g fate s).2 (file (sourcePath c f)) = s (file (sourcePath c f)) := by
  refine attempt_writes P D op g fate s _ (fun _ => file_ne ?_) (fun _ => file_ne ?_) (fun _ => file_ne ?_)
  · rw [source_comp hc f hf, save_comp hc g hg]; simp only [List.append_assoc]; exact apart (comp_sourceMapped hc)
  · rw [source_comp hc f hf, calseries_comp hc g hg]; simp only [List.append_assoc]; exact apart (comp_sourceCalib hc)
  · rw [source_comp hc f hf, cal_comp hc g hg]; simp only [List.append_assoc]; exact apart (comp_sourceCalib hc)

/-- The mapped data of a float in a directory are never written where they are read. -/
theorem away_kept (P : Programs V) (D : PyErr) (op : Op) (f g : FloatId) (fate : Fate) (hf : Plain f.name) (hg : Plain g.name)
    (hd : ¬ NoDirectory f) (s : Store (Content V)) :
    (attempt c P D op g fate s).2 (file (mappedLoadPath c f)) = s (file (mappedLoadPath c f)) := by
  refine attempt_writes P D op g fate s _ (fun _ => file_ne ?_) (fun _ => file_ne ?_) (fun _ => file_ne ?_)
  · rw [load_comp hc f hf, save_comp hc g hg, List.append_assoc]
    intro e
    have := congrArg List.length (List.append_cancel_left e)
    simp only [List.length_append, List.length_cons, List.length_nil] at this
    exact hd ((noDirectory_iff f).2 (List.length_eq_zero_iff.1 (by omega)))
  · rw [load_comp hc f hf, calseries_comp hc g hg]; simp only [List.append_assoc]; exact apart (comp_mappedCalib hc)
  · rw [load_comp hc f hf, cal_comp hc g hg]; simp only [List.append_assoc]; exact apart (comp_mappedCalib hc)

end Verif.Lemmas
