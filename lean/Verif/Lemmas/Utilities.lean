import Verif.Model.Utilities
import Verif.Spec.Utilities
import Mathlib.Tactic.IntervalCases
import Mathlib.Tactic.FieldSimp

set_option linter.unusedSectionVars false

namespace Verif.Utilities

open Verif.Np Verif.Spec

variable {K : Type} [Field K] [LinearOrder K] [IsStrictOrderedRing K]

/-! ## cal2dec -/

theorem cumulativeMonths_eq :
    cumulativeMonths = [0, 31, 59, 90, 120, 151, 181, 212, 243, 273, 304, 334, 365] := by
  rfl

theorem pyIndex_nat {α : Type*} (l : List α) (i : ℕ) (h : i < l.length) :
    pyIndex l (i : ℤ) = .ok l[i] := by
  unfold pyIndex
  have : ¬ ((i : ℤ) < 0) := by omega
  simp [this, h]

theorem pyIndex_neg {α : Type*} (l : List α) (i : ℕ) (h0 : 0 < i) (h : i ≤ l.length) :
    pyIndex l (-(i : ℤ)) = .ok (l[l.length - i]'(by omega)) := by
  unfold pyIndex
  have h1 : (-(i : ℤ) < 0) := by omega
  have h2 : ¬ (-(i : ℤ) + l.length < 0) := by omega
  have h3 : (-(i : ℤ) + l.length).toNat = l.length - i := by omega
  have h4 : l.length - i < l.length := by omega
  simp only [h1, if_true, h2, if_false, h3, List.getElem?_eq_getElem h4]

theorem pyIndex_error {α : Type*} (l : List α) (i : ℤ) (h : i < -l.length ∨ (l.length : ℤ) ≤ i) :
    pyIndex l i = .error .indexError := by
  unfold pyIndex
  rcases h with h | h
  · have h1 : i < 0 := by omega
    have h2 : i + (l.length : ℤ) < 0 := by omega
    simp [h1, h2]
  · have h1 : ¬ i < 0 := by omega
    have h2 : l.length ≤ i.toNat := by omega
    simp [h1, h2]

theorem pyIndex_months (m : ℕ) (h : m < 12) :
    pyIndex cumulativeMonths (m : ℤ) = .ok (daysBefore m : ℤ) := by
  rw [cumulativeMonths_eq]
  interval_cases m <;> rfl

theorem daysBefore_lt (m : ℕ) (len : ℕ) (h : monthLengths[m]? = some len) :
    m < 12 ∧ daysBefore m + len ≤ 365 ∧ (∀ m', m < m' → m' < 12 → daysBefore m + len ≤ daysBefore m') := by
  have hm : m < 12 := by
    by_contra hc
    have : monthLengths[m]? = none := by
      rw [List.getElem?_eq_none_iff]; simp [monthLengths]; omega
    simp [this] at h
  refine ⟨hm, ?_, ?_⟩
  · interval_cases m <;> simp [monthLengths] at h <;> subst h <;> decide
  · intro m' h1 h2
    interval_cases m <;> simp [monthLengths] at h <;> subst h <;> interval_cases m' <;>
      decide

theorem cal2dec_valid (d : DateTime) (hv : d.Valid) :
    cal2dec (K := K) d.month d.day d.hour d.minute = .ok ((d.minutes : K) / 1440) := by
  obtain ⟨⟨len, hlen, h1, h2⟩, hh, hmi⟩ := hv
  obtain ⟨hm, hb, _⟩ := daysBefore_lt _ _ hlen
  unfold cal2dec
  rw [pyIndex_months _ hm]
  have hmin : (d.minutes : K) / 1440 =
      ((daysBefore d.month : ℤ) : K) + (d.day : ℤ) - 1 + (d.hour : ℤ) / 24 + (d.minute : ℤ) / 60 / 24 := by
    unfold DateTime.minutes
    obtain ⟨k, hk⟩ : ∃ k, d.day = k + 1 := ⟨d.day - 1, by omega⟩
    rw [hk]
    simp only [Nat.add_sub_cancel]
    push_cast
    field_simp
    ring
  have hle : (d.minutes : K) / 1440 ≤ 366 := by
    rw [div_le_iff₀ (by norm_num)]
    have : d.minutes ≤ 366 * 1440 := by unfold DateTime.minutes; omega
    exact_mod_cast this
  simp only
  rw [← hmin, if_neg (not_lt.2 hle)]

theorem minutes_lt_of_before (a b : DateTime) (ha : a.Valid) (hb : b.Valid) (h : a.Before b) :
    a.minutes < b.minutes := by
  obtain ⟨⟨la, hla, ha1, ha2⟩, hah, hami⟩ := ha
  obtain ⟨⟨lb, hlb, hb1, hb2⟩, hbh, hbmi⟩ := hb
  obtain ⟨hm, _, hmono⟩ := daysBefore_lt _ _ hla
  obtain ⟨hm', _, _⟩ := daysBefore_lt _ _ hlb
  unfold DateTime.minutes
  rcases h with h | ⟨h, h'⟩
  · have := hmono _ h hm'
    omega
  · rw [h]
    omega

theorem minutes_lt_year (a : DateTime) (ha : a.Valid) : a.minutes < 365 * 1440 := by
  obtain ⟨⟨la, hla, ha1, ha2⟩, hah, hami⟩ := ha
  obtain ⟨hm, hb, _⟩ := daysBefore_lt _ _ hla
  unfold DateTime.minutes
  omega

/-! ## change_dates -/

theorem digitChar_isDigit (d : ℕ) (h : d < 10) :
    (digitChar d).isDigit = true ∧ ((digitChar d).toNat : ℤ) - 48 = d := by
  interval_cases d <;> decide

theorem pyInt_digits (t : List Char) (hne : t ≠ []) (hall : t.all Char.isDigit = true) :
    pyInt t = .ok (t.foldl (fun (acc : ℤ) c => acc * 10 + ((c.toNat : ℤ) - 48)) 0) := by
  cases t with
  | nil => exact absurd rfl hne
  | cons c t =>
    have hc : c.isDigit = true := by simp at hall; exact hall.1
    unfold pyInt
    split
    · rename_i heq; cases heq; simp at hc
    · rename_i heq; cases heq; simp at hc
    · exact if_pos ⟨hne, hall⟩

theorem pyInt_pad2 (n : ℕ) (h : n < 100) : pyInt (pad2 n) = .ok (n : ℤ) := by
  have h1 := digitChar_isDigit (n / 10) (by omega)
  have h2 := digitChar_isDigit (n % 10) (by omega)
  rw [pyInt_digits]
  · simp only [pad2, List.foldl_cons, List.foldl_nil, h1.2, h2.2]
    congr 1; omega
  · simp [pad2]
  · simp [pad2, h1.1, h2.1]

theorem pyInt_pad4 (n : ℕ) (h : n < 10000) : pyInt (pad4 n) = .ok (n : ℤ) := by
  have h1 := digitChar_isDigit (n / 1000) (by omega)
  have h2 := digitChar_isDigit (n / 100 % 10) (by omega)
  have h3 := digitChar_isDigit (n / 10 % 10) (by omega)
  have h4 := digitChar_isDigit (n % 10) (by omega)
  rw [pyInt_digits]
  · simp only [pad4, List.foldl_cons, List.foldl_nil, h1.2, h2.2, h3.2, h4.2]
    congr 1; omega
  · simp [pad4]
  · simp [pad4, h1.1, h2.1, h3.1, h4.1]

theorem decodeDate_dateText (year : ℕ) (d : DateTime) (rest : List Char) (hy : year < 10000)
    (hv : d.Valid) :
    decodeDate (K := K) (dateText year d ++ rest) =
      .ok (some ((year : K) + (d.minutes : K) / 1440 / 365)) := by
  have hv' := hv
  obtain ⟨⟨len, hlen, h1, h2⟩, hh, hmi⟩ := hv'
  obtain ⟨hm, hb, _⟩ := daysBefore_lt _ _ hlen
  have hlen31 : len ≤ 31 := by
    have : ∀ m < 12, ∀ len, monthLengths[m]? = some len → len ≤ 31 := by
      intro m hm len h
      interval_cases m <;> simp [monthLengths] at h <;> omega
    exact this _ hm _ hlen
  have e1 : pySlice (dateText year d ++ rest) 0 4 = pad4 year := by
    simp [pySlice, dateText, pad4]
  have e2 : pySlice (dateText year d ++ rest) 4 6 = pad2 (d.month + 1) := by
    simp [pySlice, dateText, pad4, pad2]
  have e3 : pySlice (dateText year d ++ rest) 6 8 = pad2 d.day := by
    simp [pySlice, dateText, pad4, pad2]
  have e4 : pySlice (dateText year d ++ rest) 8 10 = pad2 d.hour := by
    simp [pySlice, dateText, pad4, pad2]
  have e5 : pySlice (dateText year d ++ rest) 10 12 = pad2 d.minute := by
    simp [pySlice, dateText, pad4, pad2]
  have el : (dateText year d ++ rest).length = 12 + rest.length := by
    simp [dateText, pad4, pad2]; omega
  unfold decodeDate
  rw [e1, e2, e3, e4, e5, el, if_pos (by omega), if_pos (by omega)]
  rw [pyInt_pad4 _ hy, pyInt_pad2 _ (by omega), pyInt_pad2 _ (by omega), pyInt_pad2 _ (by omega),
    pyInt_pad2 _ (by omega)]
  simp only [bind, Except.bind, pure, Except.pure]
  rw [if_pos (by omega)]
  have : ((d.month + 1 : ℕ) : ℤ) - 1 = (d.month : ℤ) := by push_cast; ring
  rw [this, cal2dec_valid d hv]
  simp

theorem decodeDate_no_other_error (s : List Char) (e : PyErr)
    (h : decodeDate (K := K) s = .error e) : e = .valueError := by
  have hpy : ∀ t e, pyInt t = .error e → e = .valueError := by
    intro t e h
    unfold pyInt at h
    simp only at h
    split at h
    all_goals
      split at h <;> simp [Except.map] at h <;> exact h.symm
  have hcal : ∀ a b c d e, cal2dec (K := K) a b c d = .error e → e = .valueError := by
    intro a b c d e h
    unfold cal2dec at h
    split at h
    · simpa using h.symm
    · simp only at h; split at h
      · simpa using h.symm
      · simp at h
  unfold decodeDate at h
  simp only [bind, Except.bind, pure, Except.pure] at h
  repeat' split at h
  all_goals first
    | (simp at h; done)
    | (rename_i h'; simp only [Except.error.injEq] at h; subst h; first | exact hpy _ _ h' | exact hcal _ _ _ _ _ h' | (split at h' <;> first | exact hpy _ _ h' | simp at h'))

/-- The value stored for one date. -/
def dateValue (s : List Char) : K :=
  match (decodeDate s : Except PyErr (Option K)) with
  | .ok (some v) => v
  | _ => 0

theorem changeDatesStep_eq (cal : List (List Char)) (dec : List K) (i : ℕ) (s : List Char)
    (hs : cal[i]? = some s) (hd : dec[i]? = some 0) :
    changeDatesStep cal dec i = .ok (dec.set i (dateValue s)) := by
  have hset : dec.set i 0 = dec := by
    apply List.ext_getElem?
    intro j
    by_cases hij : i = j
    · subst hij
      rw [List.getElem?_set]
      have := (List.getElem?_eq_some_iff.1 hd)
      obtain ⟨hlt, h0⟩ := this
      simp [hlt, h0]
    · simp [hij]
  unfold changeDatesStep dateValue
  rw [hs]
  simp only
  cases h : (decodeDate s : Except PyErr (Option K)) with
  | error e =>
    have := decodeDate_no_other_error s e h
    subst this
    simp only [hset]
  | ok o =>
    cases o with
    | none => simp only [hset]
    | some v => rfl

theorem changeDates_eq (cal : List (List Char)) :
    changeDates (K := K) cal = .ok (cal.map dateValue) := by
  unfold changeDates
  have key : ∀ k ≤ cal.length,
      (List.range k).foldlM (changeDatesStep (K := K) cal) (List.replicate cal.length 0) =
        .ok ((cal.take k).map dateValue ++ List.replicate (cal.length - k) 0) := by
    intro k
    induction k with
    | zero => intro _; simp; rfl
    | succ k ih =>
      intro hk
      rw [List.range_succ, List.foldlM_append, ih (by omega)]
      have hkl : k < cal.length := by omega
      simp only [bind, Except.bind, List.foldlM_cons, List.foldlM_nil]
      rw [changeDatesStep_eq cal _ k cal[k] (by simp [hkl])]
      · simp only [pure, Except.pure]
        congr 1
        have hlen : ((cal.take k).map (dateValue (K := K))).length = k := by simp; omega
        rw [List.set_append_right _ _ (by omega), hlen]
        obtain ⟨r, hr⟩ : ∃ r, cal.length - k = r + 1 := ⟨cal.length - k - 1, by omega⟩
        have hr' : cal.length - (k + 1) = r := by omega
        rw [hr, hr', List.replicate_succ]
        rw [List.take_succ_eq_append_getElem hkl, List.map_append, List.append_assoc]
        simp
      · have hlen : ((cal.take k).map (dateValue (K := K))).length = k := by simp; omega
        rw [List.getElem?_append_right (by omega), hlen, List.getElem?_replicate]
        simp; omega
  have := key cal.length le_rfl
  simpa using this

/-! ## wrap_longitude -/

/-- First step of `wrap_longitude` on one value. -/
def w1 (x : K) : K := if x < 0 then x + 360 else x

/-- Second step of `wrap_longitude` on one value. -/
def w2 (x : K) : K := if x ≤ 40 then 360 + x else x

theorem wrapLongitude_cases (xs : List (Option K)) :
    ((∃ x, some x ∈ xs ∧ 320 ≤ w1 x) ∧ wrapLongitude xs = xs.map (Option.map fun x => w2 (w1 x))) ∨
    ((∀ x, some x ∈ xs → w1 x < 320) ∧ wrapLongitude xs = xs.map (Option.map w1)) := by
  unfold wrapLongitude
  simp only
  split_ifs with h
  · left
    refine ⟨?_, ?_⟩
    · simp only [List.any_map, List.any_eq_true, Function.comp] at h
      obtain ⟨o, ho, h⟩ := h
      cases o with
      | none => simp at h
      | some x => exact ⟨x, ho, by simpa [w1] using h⟩
    · rw [List.map_map]
      apply List.map_congr_left
      intro o _
      cases o <;> rfl
  · right
    refine ⟨?_, rfl⟩
    intro x hx
    by_contra hc
    apply h
    simp only [List.any_map, List.any_eq_true, Function.comp]
    exact ⟨some x, hx, by simpa [w1] using hc⟩

theorem map_eq_of_forall₂ {α β γ : Type*} {R : α → β → Prop} {f : α → γ} {g : β → γ} {l : List α}
    {l' : List β} (h : List.Forall₂ R l l') (hfg : ∀ a b, a ∈ l → b ∈ l' → R a b → g b = f a) :
    l'.map g = l.map f := by
  induction h with
  | nil => rfl
  | cons hr _ ih =>
    simp only [List.map_cons]
    rw [hfg _ _ (by simp) (by simp) hr, ih]
    intro a b ha hb
    exact hfg a b (by simp [ha]) (by simp [hb])

theorem wrapLongitude_arc (ds : List K) (xs : List (Option K))
    (h : List.Forall₂ (fun d o => (-40 ≤ d ∧ d ≤ 40) ∧ (o = some d ∨ o = some (d + 360))) ds xs) :
    (wrapLongitude xs = ds.map (fun d => some (360 + d))) ∨ (wrapLongitude xs = ds.map (fun d => some d)) := by
  rcases wrapLongitude_cases xs with ⟨_, he⟩ | ⟨hno, he⟩
  · left
    rw [he]
    refine map_eq_of_forall₂ h ?_
    rintro d o _ _ ⟨⟨h1, h2⟩, rfl | rfl⟩
    · simp only [Option.map_some, w1, w2]
      congr 1
      split_ifs <;> linarith
    · simp only [Option.map_some, w1, w2]
      congr 1
      split_ifs <;> linarith
  · right
    rw [he]
    refine map_eq_of_forall₂ h ?_
    rintro d o _ ho ⟨⟨h1, h2⟩, rfl | rfl⟩
    · have := hno _ ho
      simp only [Option.map_some, w1] at this ⊢
      congr 1
      split_ifs at this ⊢ <;> linarith
    · have := hno _ ho
      simp only [Option.map_some, w1] at this ⊢
      congr 1
      split_ifs at this ⊢ <;> linarith

end Verif.Utilities
