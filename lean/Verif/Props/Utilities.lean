import Verif.Lemmas.Sorter
import Verif.Lemmas.Utilities

/-!
# Properties of `pyowc/utilities.py` (C01 - C09)
-/

set_option linter.unusedSectionVars false

namespace Verif.Props

open Verif.Np Verif.Spec Verif.Utilities

variable {K : Type} [Field K] [LinearOrder K] [IsStrictOrderedRing K]

/-! ## C01 sorter -/

/-- C01. `sorter` returns, for the points in ascending order, the number of boundaries that are at most
the point, minus one. -/
theorem sorter_counts_boundaries (ms xs : List K) :
    sorter ms xs = (xs.insertionSort (· ≤ ·)).map
      (fun x => (ms.countP (fun b => decide (b ≤ x)) : ℤ) - 1) :=
  sorter_eq ms xs

/-- C01. For ascending boundaries the number given to the k-th smallest point `x` is the interval it lies in:
all boundaries up to that number are `≤ x`, all later ones are `> x`. -/
theorem sorter_interval (ms xs : List K) (hms : ms.Pairwise (· ≤ ·)) (k : ℕ) (x : K)
    (hx : (xs.insertionSort (· ≤ ·))[k]? = some x) :
    ∃ r : ℤ, (sorter ms xs)[k]? = some r ∧ -1 ≤ r ∧ r < ms.length ∧
      (∀ (j : ℕ) (b : K), ms[j]? = some b → (j : ℤ) ≤ r → b ≤ x) ∧
      (∀ (j : ℕ) (b : K), ms[j]? = some b → r < (j : ℤ) → x < b) := by
  refine ⟨(ms.countP (fun b => decide (b ≤ x)) : ℤ) - 1, ?_, ?_, ?_, ?_⟩
  · rw [sorter_eq, List.getElem?_map, hx]; rfl
  · omega
  · have := List.countP_le_length (p := fun b => decide (b ≤ x)) (l := ms); omega
  · clear hx
    induction ms with
    | nil => simp
    | cons a ms ih =>
      rw [List.pairwise_cons] at hms
      obtain ⟨ha, hms⟩ := hms
      obtain ⟨ih1, ih2⟩ := ih hms
      by_cases hax : a ≤ x
      · rw [List.countP_cons_of_pos (by simpa using hax)]
        constructor
        · intro j b hj hjr
          cases j with
          | zero => simp at hj; exact hj ▸ hax
          | succ j => exact ih1 j b (by simpa using hj) (by push_cast at hjr ⊢; omega)
        · intro j b hj hjr
          cases j with
          | zero => exfalso; push_cast at hjr; omega
          | succ j => exact ih2 j b (by simpa using hj) (by push_cast at hjr ⊢; omega)
      · have h0 : ms.countP (fun b => decide (b ≤ x)) = 0 := by
          rw [List.countP_eq_zero]
          intro b hb
          have := ha b hb
          simp; exact lt_of_lt_of_le (not_le.1 hax) this
        rw [List.countP_cons_of_neg (by simpa using hax), h0]
        constructor
        · intro j b _ hjr; exfalso; push_cast at hjr; omega
        · intro j b hj _
          cases j with
          | zero => simp at hj; exact hj ▸ not_le.1 hax
          | succ j =>
            have hb : b ∈ ms := List.mem_of_getElem? (by simpa using hj)
            exact lt_of_lt_of_le (not_le.1 hax) (ha b hb)

theorem sorter_length (ms xs : List K) : (sorter ms xs).length = xs.length := by
  rw [sorter_eq]; simp

/-- Non-vacuity of C01: ties, points outside, three boundaries. -/
example : sorter ([1, 3, 5] : List ℚ) [3, 0, 7, 4] = [-1, 1, 1, 2] := by
  rw [sorter_counts_boundaries]
  simp [List.insertionSort, List.orderedInsert]
  norm_num

example : ([1, 3, 5] : List ℚ).Pairwise (· ≤ ·) ∧
    (([3, 0, 7, 4] : List ℚ).insertionSort (· ≤ ·))[1]? = some 3 := by
  simp [List.insertionSort, List.orderedInsert]; norm_num

/-! ## C02 wrap_longitude -/

/-- C02. Same length, missing values stay missing, and every value is the input value plus 0, 360 or 720
(720 only for inputs below -320). -/
theorem wrap_longitude_congruent (xs : List (Option K)) :
    List.Forall₂ (fun o o' => (o = none ∧ o' = none) ∨
      ∃ (x : K) (n : ℕ), o = some x ∧ o' = some (x + 360 * n)) xs (wrapLongitude xs) := by
  rcases wrapLongitude_cases xs with ⟨_, he⟩ | ⟨_, he⟩ <;> rw [he] <;>
    rw [List.forall₂_map_right_iff, List.forall₂_same] <;> intro o _
  · cases o with
    | none => exact Or.inl ⟨rfl, rfl⟩
    | some x =>
      right
      by_cases h1 : x < 0
      · by_cases h2 : x + 360 ≤ 40
        · exact ⟨x, 2, rfl, by simp [w1, w2, h1, h2]; ring⟩
        · exact ⟨x, 1, rfl, by simp [w1, w2, h1, h2]⟩
      · by_cases h2 : x ≤ 40
        · exact ⟨x, 1, rfl, by simp [w1, w2, h1, h2]; ring⟩
        · exact ⟨x, 0, rfl, by simp [w1, w2, h1, h2]⟩
  · cases o with
    | none => exact Or.inl ⟨rfl, rfl⟩
    | some x =>
      right
      by_cases h1 : x < 0
      · exact ⟨x, 1, rfl, by simp [w1, h1]⟩
      · exact ⟨x, 0, rfl, by simp [w1, h1]⟩

/-- C02. Range: for inputs in [-360, 360) all results are in (40, 400] if there is an input from 320 to 360 or from -40 to 0, the same longitudes written
otherwise, and all are in [0, 320) if there is none. -/
theorem wrap_longitude_range (xs : List (Option K))
    (h : ∀ x, some x ∈ xs → -360 ≤ x ∧ x < 360) :
    ((∃ x, some x ∈ xs ∧ (320 ≤ x ∨ (-40 ≤ x ∧ x < 0))) → ∀ y, some y ∈ wrapLongitude xs → 40 < y ∧ y ≤ 400) ∧
    ((¬ ∃ x, some x ∈ xs ∧ (320 ≤ x ∨ (-40 ≤ x ∧ x < 0))) → ∀ y, some y ∈ wrapLongitude xs → 0 ≤ y ∧ y < 320) := by
  have hw : ∀ x : K, 320 ≤ w1 x ↔ (320 ≤ x ∨ (-40 ≤ x ∧ x < 0)) := by
    intro x
    unfold w1
    split_ifs with h0
    · constructor
      · intro h1; right; constructor <;> linarith
      · rintro (h1 | h1)
        · linarith
        · linarith [h1.1]
    · constructor
      · exact .inl
      · rintro (h1 | h1)
        · exact h1
        · exact absurd h1.2 h0
  rcases wrapLongitude_cases xs with ⟨⟨x, hx, hx'⟩, he⟩ | ⟨hno, he⟩
  · refine ⟨fun _ => ?_, fun hn => absurd ⟨x, hx, (hw x).1 hx'⟩ hn⟩
    rw [he]
    intro y hy
    simp only [List.mem_map] at hy
    obtain ⟨o, ho, hy⟩ := hy
    cases o with
    | none => simp at hy
    | some x =>
      obtain ⟨h1, h2⟩ := h x ho
      simp only [Option.map_some, Option.some.injEq, w1, w2] at hy
      split_ifs at hy <;> constructor <;> linarith
  · refine ⟨fun hn => ?_, fun _ => ?_⟩
    · obtain ⟨x, hx, hx'⟩ := hn
      exact absurd ((hw x).2 hx') (not_le.2 (hno x hx))
    rw [he]
    intro y hy
    simp only [List.mem_map] at hy
    obtain ⟨o, ho, hy⟩ := hy
    cases o with
    | none => simp at hy
    | some x =>
      obtain ⟨h1, h2⟩ := h x ho
      have h3 := hno x ho
      simp only [Option.map_some, Option.some.injEq, w1] at hy h3
      split_ifs at hy h3 <;> constructor <;> linarith

/-- C02. Wrapping twice is wrapping once, for longitudes not below -360. -/
theorem wrap_longitude_idempotent (xs : List (Option K)) (h : ∀ x, some x ∈ xs → -360 ≤ x) :
    wrapLongitude (wrapLongitude xs) = wrapLongitude xs := by
  have hid : ∀ (ys : List (Option K)), (∀ y, some y ∈ ys → 0 ≤ y) →
      ((∀ y, some y ∈ ys → 40 < y) ∨ (∀ y, some y ∈ ys → y < 320)) → wrapLongitude ys = ys := by
    intro ys h0 h1
    have hw1 : ∀ y, some y ∈ ys → w1 y = y := fun y hy => by
      simp [w1, not_lt.2 (h0 y hy)]
    rcases wrapLongitude_cases ys with ⟨⟨x, hx, hx'⟩, he⟩ | ⟨hno, he⟩ <;> rw [he]
    · conv_rhs => rw [← List.map_id ys]
      apply List.map_congr_left
      intro o ho
      cases o with
      | none => rfl
      | some y =>
        simp only [Option.map_some, id]
        rw [hw1 y ho]
        rcases h1 with h1 | h1
        · simp [w2, not_le.2 (h1 y ho)]
        · exfalso
          have := h1 x hx
          rw [hw1 x hx] at hx'
          linarith
    · conv_rhs => rw [← List.map_id ys]
      apply List.map_congr_left
      intro o ho
      cases o with
      | none => rfl
      | some y => simp [hw1 y ho]
  apply hid
  · intro y hy
    rcases wrapLongitude_cases xs with ⟨_, he⟩ | ⟨_, he⟩ <;> rw [he] at hy <;>
      simp only [List.mem_map] at hy <;> obtain ⟨o, ho, hy⟩ := hy <;> cases o with
      | none => simp at hy
      | some x =>
        have := h x ho
        simp only [Option.map_some, Option.some.injEq, w1, w2] at hy
        split_ifs at hy <;> linarith
  · rcases wrapLongitude_cases xs with ⟨_, he⟩ | ⟨hno, he⟩ <;> rw [he]
    · left
      intro y hy
      simp only [List.mem_map] at hy
      obtain ⟨o, ho, hy⟩ := hy
      cases o with
      | none => simp at hy
      | some x =>
        have := h x ho
        simp only [Option.map_some, Option.some.injEq, w1, w2] at hy
        split_ifs at hy <;> linarith
    · right
      intro y hy
      simp only [List.mem_map] at hy
      obtain ⟨o, ho, hy⟩ := hy
      cases o with
      | none => simp at hy
      | some x =>
        have := hno x ho
        simp only [Option.map_some, Option.some.injEq] at hy
        linarith

/-- Without the bound idempotence is false: -400 becomes -40 and then 320. -/
theorem wrap_longitude_not_idempotent_below :
    wrapLongitude (wrapLongitude [some (-400 : ℚ)]) ≠ wrapLongitude [some (-400 : ℚ)] := by
  simp [wrapLongitude]; norm_num

/-- Non-vacuity of C02. -/
example : wrapLongitude [some (-10 : ℚ), none, some 20, some 200] =
    [some 350, none, some 380, some 200] := by
  simp [wrapLongitude]; norm_num

/-! ## C03 differences across Greenwich -/

/-- C03. Longitudes given by their signed position `d` in `[-40, 40]` relative to Greenwich, each written either as
`d` or as `d + 360`, keep their differences: all are moved by one common constant. -/
theorem wrap_longitude_keeps_differences (ds : List K) (xs : List (Option K))
    (h : List.Forall₂ (fun d o => (-40 ≤ d ∧ d ≤ 40) ∧ (o = some d ∨ o = some (d + 360))) ds xs) :
    ∃ c : K, wrapLongitude xs = ds.map (fun d => some (d + c)) := by
  rcases wrapLongitude_arc ds xs h with he | he
  · exact ⟨360, by rw [he]; simp [add_comm]⟩
  · exact ⟨0, by rw [he]; simp⟩

/-- C03. The five 10-degree box columns around a float: longitudes in a window `[s, s+50]`, where the window starts
at `-40, -30, -20, -10` (crossing Greenwich, values written modulo 360) or lies in `[0, 360]`. Differences survive. -/
theorem wrap_longitude_keeps_differences_in_boxes (s : K) (ds : List K) (xs : List (Option K))
    (hs : (-40 ≤ s ∧ s ≤ -10) ∨ (0 ≤ s ∧ s ≤ 310))
    (h : List.Forall₂ (fun d o => (s ≤ d ∧ d ≤ s + 50) ∧
      o = some (if d < 0 then d + 360 else d)) ds xs) :
    ∃ c : K, wrapLongitude xs = ds.map (fun d => some (d + c)) := by
  rcases hs with ⟨hs1, hs2⟩ | ⟨hs1, hs2⟩
  · apply wrap_longitude_keeps_differences
    refine h.imp ?_
    rintro d o ⟨⟨h1, h2⟩, rfl⟩
    refine ⟨⟨by linarith, by linarith⟩, ?_⟩
    by_cases hd : d < 0
    · right; simp [hd]
    · left; simp [hd]
  · refine ⟨0, ?_⟩
    have hx : xs = ds.map some := by
      have := map_eq_of_forall₂ (f := some) (g := id) h (by
        rintro d o _ _ ⟨⟨h1, h2⟩, rfl⟩
        have : ¬ d < 0 := not_lt.2 (by linarith)
        simp [this])
      simpa using this
    have hb : ∀ d ∈ ds, s ≤ d ∧ d ≤ s + 50 := by
      clear hx
      induction h with
      | nil => simp
      | cons hr _ ih =>
        intro d hd
        rcases List.mem_cons.1 hd with rfl | hd
        · exact hr.1
        · exact ih d hd
    subst hx
    rcases wrapLongitude_cases (ds.map some) with ⟨⟨x, hxm, hx'⟩, he⟩ | ⟨_, he⟩ <;> rw [he, List.map_map]
    · apply List.map_congr_left
      intro d hd
      simp only [List.mem_map, Option.some.injEq, exists_eq_right] at hxm
      obtain ⟨a1, a2⟩ := hb d hd
      obtain ⟨b1, b2⟩ := hb x hxm
      simp only [Function.comp, Option.map_some, w1, w2, add_zero] at hx' ⊢
      congr 1
      split_ifs at hx' ⊢ <;> linarith
    · apply List.map_congr_left
      intro d hd
      obtain ⟨a1, a2⟩ := hb d hd
      simp only [Function.comp, Option.map_some, w1, add_zero]
      congr 1
      split_ifs <;> linarith

/-- Outside these windows the claim is false: 39 and 41 end up 358 apart when a cast lies at 330. -/
theorem wrap_longitude_can_break_differences :
    wrapLongitude [some (330 : ℚ), some 39, some 41] = [some 330, some 399, some 41] := by
  simp [wrapLongitude]; norm_num

/-- Non-vacuity of C03. -/
example : List.Forall₂ (fun (d : ℚ) o => ((-20 : ℚ) ≤ d ∧ d ≤ -20 + 50) ∧
    o = some (if d < 0 then d + 360 else d)) [-15, 5, 29] [some 345, some 5, some 29] := by
  simp; norm_num

/-! ## C04, C05 cal2dec -/

/-- C04. For a valid date `cal2dec` is the exact time since 1 January 00:00 in days (1440 minutes each). -/
theorem cal2dec_exact (d : DateTime) (hv : d.Valid) :
    cal2dec (K := K) d.month d.day d.hour d.minute = .ok ((d.minutes : K) / 1440) :=
  cal2dec_valid d hv

/-- C04. Values lie in [0, 365). -/
theorem cal2dec_range (d : DateTime) (hv : d.Valid) :
    ∃ v : K, cal2dec (K := K) d.month d.day d.hour d.minute = .ok v ∧ 0 ≤ v ∧ v < 365 := by
  refine ⟨_, cal2dec_valid d hv, by positivity, ?_⟩
  rw [div_lt_iff₀ (by norm_num)]
  have := minutes_lt_year d hv
  exact_mod_cast this

/-- C04. An earlier date-time gives a strictly smaller number. -/
theorem cal2dec_strict_mono (a b : DateTime) (ha : a.Valid) (hb : b.Valid) (h : a.Before b) :
    ∃ va vb : K, cal2dec (K := K) a.month a.day a.hour a.minute = .ok va ∧
      cal2dec (K := K) b.month b.day b.hour b.minute = .ok vb ∧ va < vb := by
  refine ⟨_, _, cal2dec_valid a ha, cal2dec_valid b hb, ?_⟩
  have := minutes_lt_of_before a b ha hb h
  gcongr

/-- 29 February is not distinguished from 1 March (the table is that of a non-leap year). -/
theorem cal2dec_leap_day_collides (hour minute : ℤ) :
    cal2dec (K := K) 1 29 hour minute = cal2dec (K := K) 2 1 hour minute := by
  have h1 : pyIndex cumulativeMonths 1 = .ok 31 := rfl
  have h2 : pyIndex cumulativeMonths 2 = .ok 59 := rfl
  unfold cal2dec
  simp only [h1, h2]
  have : (((31 : ℤ) : K) + ((29 : ℤ) : K) - 1 + hour / 24 + minute / 60 / 24) =
      (((59 : ℤ) : K) + ((1 : ℤ) : K) - 1 + hour / 24 + minute / 60 / 24) := by
    push_cast; ring
  rw [this]

/-- Non-vacuity of C04. -/
example : (⟨1, 28, 23, 59⟩ : DateTime).Valid ∧ (⟨2, 1, 0, 0⟩ : DateTime).Valid ∧
    DateTime.Before ⟨1, 28, 23, 59⟩ ⟨2, 1, 0, 0⟩ := by
  refine ⟨⟨⟨28, rfl, ?_⟩, ?_⟩, ⟨⟨31, rfl, ?_⟩, ?_⟩, ?_⟩ <;> simp [DateTime.Before]

/-- C05. The only exception of `cal2dec` on integers is `ValueError`; a month index outside `-13 .. 12` raises it. -/
theorem cal2dec_only_value_error (month day hour minute : ℤ) :
    (∃ v : K, cal2dec (K := K) month day hour minute = .ok v ∧ v ≤ 366) ∨
      cal2dec (K := K) month day hour minute = .error .valueError := by
  unfold cal2dec
  cases pyIndex cumulativeMonths month with
  | error e => right; rfl
  | ok c =>
    simp only
    split_ifs with h
    · right; rfl
    · left; exact ⟨_, rfl, not_lt.1 h⟩

/-- C05. Month index outside -13..12. -/
theorem cal2dec_bad_month (month day hour minute : ℤ) (h : month < -13 ∨ 13 ≤ month) :
    cal2dec (K := K) month day hour minute = .error .valueError := by
  unfold cal2dec
  rw [pyIndex_error _ _ (by rw [cumulativeMonths_eq]; simpa using h)]

/-- C05. Month index 0..12: the call fails exactly if the day number exceeds 366. Index 12, which is no month, is accepted
and counts from 365. -/
theorem cal2dec_fails_iff (month : ℕ) (day hour minute : ℤ) (h : month ≤ 12) :
    cal2dec (K := K) month day hour minute = .error .valueError ↔
      (366 : K) < (daysBefore month : K) + day - 1 + hour / 24 + minute / 60 / 24 := by
  have hidx : pyIndex cumulativeMonths (month : ℤ) = .ok (daysBefore month : ℤ) := by
    rcases Nat.lt_or_ge month 12 with h' | h'
    · exact pyIndex_months _ h'
    · have : month = 12 := by omega
      subst this; rfl
  unfold cal2dec
  rw [hidx]
  simp only [Int.cast_natCast]
  split_ifs with hc
  · exact ⟨fun _ => hc, fun _ => rfl⟩
  · exact ⟨fun h => by simp at h, fun h => absurd h hc⟩

/-- Negative month indices, which are no months either, are accepted: -1 counts from 365. -/
theorem cal2dec_negative_month : cal2dec (K := ℚ) (-1) 1 0 0 = .ok 365 := by
  have h1 : pyIndex cumulativeMonths (-1) = .ok 365 := rfl
  unfold cal2dec
  simp only [h1]
  norm_num

/-! ## C06, C07 change_dates -/

/-- C06. `change_dates` never raises, returns one number per date, and the number of a date is the one it
gets when it is converted alone. -/
theorem change_dates_elementwise (cal : List (List Char)) :
    ∃ out : List K, changeDates (K := K) cal = .ok out ∧ out.length = cal.length ∧
      ∀ (i : ℕ) (s : List Char), cal[i]? = some s →
        ∃ v, out[i]? = some v ∧ changeDates (K := K) [s] = .ok [v] := by
  refine ⟨_, changeDates_eq cal, by simp, ?_⟩
  intro i s hs
  refine ⟨dateValue s, by simp [hs], ?_⟩
  rw [changeDates_eq]; rfl

/-- C06. A date with an impossible month or day gives 0. -/
theorem change_dates_bad_date_is_zero (year month day : ℕ) (rest : List Char) (hy : year < 10000)
    (hm : month < 100) (hd : day < 100) (hbad : month = 0 ∨ 12 < month ∨ day = 0 ∨ 31 < day) :
    changeDates (K := K) [pad4 year ++ pad2 month ++ pad2 day ++ rest] = .ok [0] := by
  rw [changeDates_eq]
  simp only [List.map_cons, List.map_nil]
  congr 2
  unfold dateValue decodeDate
  set s := pad4 year ++ pad2 month ++ pad2 day ++ rest with hs
  have e1 : pySlice s 0 4 = pad4 year := by simp [hs, pySlice, pad4]
  have e2 : pySlice s 4 6 = pad2 month := by simp [hs, pySlice, pad4, pad2]
  have e3 : pySlice s 6 8 = pad2 day := by simp [hs, pySlice, pad4, pad2]
  rw [e1, e2, e3, pyInt_pad4 _ hy, pyInt_pad2 _ hm, pyInt_pad2 _ hd]
  simp only [bind, Except.bind, pure, Except.pure]
  have hif : ¬ ((13 : ℤ) > (month : ℤ) ∧ (month : ℤ) > 0 ∧ (32 : ℤ) > (day : ℤ) ∧ (day : ℤ) > 0) := by omega
  simp only [hif, if_false]
  split <;> rename_i h
  · split at h <;> simp at h
    split at h <;> simp at h
  · rfl

/-- C06. A text without day digits gives 0. -/
theorem change_dates_short_is_zero (s : List Char) (h : s.length ≤ 6) :
    changeDates (K := K) [s] = .ok [0] := by
  rw [changeDates_eq]
  simp only [List.map_cons, List.map_nil]
  congr 2
  have e3 : pySlice s 6 8 = [] := by simp [pySlice, h]
  have : pyInt [] = .error .valueError := rfl
  unfold dateValue decodeDate
  rw [e3, this]
  simp only [bind, Except.bind]
  cases pyInt (pySlice s 0 4) <;> simp only
  cases pyInt (pySlice s 4 6) <;> simp only

/-- C06. A negative number does not become a date of the present era: it gives 0, or a number less than -98. -/
theorem change_dates_negative (c : Char) (t : List Char) (hc : c.isDigit = true) (h0 : c ≠ '0') :
    ∃ v : K, changeDates (K := K) ['-' :: c :: t] = .ok [v] ∧ (v = 0 ∨ v < -98) := by
  refine ⟨dateValue ('-' :: c :: t), changeDates_eq _, ?_⟩
  unfold dateValue
  cases hd : (decodeDate ('-' :: c :: t) : Except PyErr (Option K)) with
  | error e => exact .inl rfl
  | ok o =>
    cases o with
    | none => exact .inl rfl
    | some v =>
      right
      dsimp only
      unfold decodeDate at hd
      simp only [bind, Except.bind] at hd
      cases hy : pyInt (pySlice ('-' :: c :: t) 0 4) with
      | error e => rw [hy] at hd; simp at hd
      | ok y =>
        rw [hy] at hd
        dsimp only at hd
        cases hm : pyInt (pySlice ('-' :: c :: t) 4 6) with
        | error e => rw [hm] at hd; simp at hd
        | ok m =>
          rw [hm] at hd
          dsimp only at hd
          have hy' : y ≤ -100 := by
            match t, hy, hm with
            | [], _, hm => exact absurd hm (by simp [pySlice, pyInt])
            | [_], _, hm => exact absurd hm (by simp [pySlice, pyInt])
            | a :: b :: r, hy, _ =>
              have e : pySlice ('-' :: c :: a :: b :: r) 0 4 = ['-', c, a, b] := rfl
              rw [e] at hy
              simp only [pyInt, Except.map] at hy
              by_cases hall : [c, a, b].all Char.isDigit = true
              · rw [if_pos ⟨by simp, hall⟩] at hy
                simp only [List.foldl_cons, List.foldl_nil, Except.ok.injEq] at hy
                simp only [List.all_cons, List.all_nil, Bool.and_true, Bool.and_eq_true] at hall
                have dig : ∀ x : Char, x.isDigit = true → (48 : ℤ) ≤ (x.toNat : ℤ) ∧ (x.toNat : ℤ) ≤ 57 := by
                  intro x hx
                  simp only [Char.isDigit, Bool.and_eq_true, decide_eq_true_eq] at hx
                  have h1 := UInt32.le_iff_toNat_le.1 hx.1
                  have h2 := UInt32.le_iff_toNat_le.1 hx.2
                  unfold Char.toNat
                  have e1 : UInt32.toNat '0'.val = 48 := rfl
                  have e2 : UInt32.toNat '9'.val = 57 := rfl
                  omega
                have hc0 : (c.toNat : ℤ) ≠ 48 := by
                  intro hh
                  have hh' : c.toNat = '0'.toNat := by
                    have : '0'.toNat = 48 := rfl
                    omega
                  exact h0 (Char.toNat_inj.1 hh')
                have := dig c hall.1
                have := dig a hall.2.1
                have := dig b hall.2.2
                omega
              · rw [if_neg (by simpa using hall)] at hy
                simp at hy
          cases hdd : pyInt (pySlice ('-' :: c :: t) 6 8) with
          | error e => rw [hdd] at hd; simp at hd
          | ok d =>
            rw [hdd] at hd
            dsimp only at hd
            generalize (if ('-' :: c :: t).length > 9 then pyInt (pySlice ('-' :: c :: t) 8 10) else pure 0) = eh at hd
            generalize (if ('-' :: c :: t).length > 11 then pyInt (pySlice ('-' :: c :: t) 10 12) else pure 0) = em at hd
            cases eh with
            | error e => simp at hd
            | ok hr =>
              cases em with
              | error e => simp at hd
              | ok mi =>
                dsimp only at hd
                split_ifs at hd
                · cases hcd : (cal2dec (m - 1) d hr mi : Except PyErr K) with
                  | error e => rw [hcd] at hd; simp at hd
                  | ok x =>
                    rw [hcd] at hd
                    simp only [pure, Except.pure, Except.ok.injEq, Option.some.injEq] at hd
                    have hx : x ≤ 366 := by
                      unfold cal2dec at hcd
                      split at hcd
                      · simp at hcd
                      · dsimp only at hcd
                        split_ifs at hcd with h6
                        obtain rfl := Except.ok.inj hcd
                        exact not_lt.1 h6
                    have hyk : (y : K) ≤ -100 := by exact_mod_cast hy'
                    have h7 : x / 365 ≤ 366 / 365 := by gcongr
                    rw [← hd]
                    have : (366 : K) / 365 < 2 := by norm_num
                    linarith
                · simp [pure, Except.pure] at hd

/-- A negative number that is read as a date, in the year 201 before our era. -/
example : (match (changeDates ["-20101203054400".toList] : Except PyErr (List ℚ)) with
    | .ok [v] => decide (v = -201 + (19 + 30 / 24 + 54 / 60 / 24) / 365)
    | _ => false) = true := by decide +kernel

/-- C07. Value of a well-formed date: the year plus the elapsed fraction of a 365-day year; text after the minutes
(seconds, or a decimal part) is ignored. -/
theorem change_dates_exact (year : ℕ) (d : DateTime) (rest : List Char) (hy : year < 10000)
    (hv : d.Valid) :
    changeDates (K := K) [dateText year d ++ rest] =
      .ok [(year : K) + (d.minutes : K) / (1440 * 365)] := by
  rw [changeDates_eq]
  simp only [List.map_cons, List.map_nil]
  unfold dateValue
  rw [decodeDate_dateText year d rest hy hv]
  simp only [div_div]

/-- C07. Chronological order is preserved strictly, across years. -/
theorem change_dates_strict_mono (y1 y2 : ℕ) (d1 d2 : DateTime) (r1 r2 : List Char)
    (hy1 : y1 < 10000) (hy2 : y2 < 10000) (h1 : d1.Valid) (h2 : d2.Valid)
    (hlt : y1 < y2 ∨ (y1 = y2 ∧ d1.Before d2)) :
    ∃ v1 v2 : K, changeDates (K := K) [dateText y1 d1 ++ r1, dateText y2 d2 ++ r2] = .ok [v1, v2] ∧
      v1 < v2 ∧ (y1 : K) ≤ v1 ∧ v1 < y1 + 1 := by
  refine ⟨dateValue (dateText y1 d1 ++ r1), dateValue (dateText y2 d2 ++ r2), by rw [changeDates_eq]; rfl, ?_⟩
  have e1 : dateValue (K := K) (dateText y1 d1 ++ r1) = (y1 : K) + (d1.minutes : K) / 1440 / 365 := by
    unfold dateValue; rw [decodeDate_dateText y1 d1 r1 hy1 h1]
  have e2 : dateValue (K := K) (dateText y2 d2 ++ r2) = (y2 : K) + (d2.minutes : K) / 1440 / 365 := by
    unfold dateValue; rw [decodeDate_dateText y2 d2 r2 hy2 h2]
  have b1 : (d1.minutes : K) / 1440 / 365 < 1 := by
    rw [div_lt_iff₀ (by norm_num), div_lt_iff₀ (by norm_num)]
    have := minutes_lt_year d1 h1
    have h : (d1.minutes : K) < ((365 * 1440 : ℕ) : K) := by exact_mod_cast this
    push_cast at h; linarith
  have p1 : (0 : K) ≤ (d1.minutes : K) / 1440 / 365 := by positivity
  have p2 : (0 : K) ≤ (d2.minutes : K) / 1440 / 365 := by positivity
  rw [e1, e2]
  refine ⟨?_, by linarith, by linarith⟩
  rcases hlt with h | ⟨h, hb⟩
  · have : ((y1 + 1 : ℕ) : K) ≤ (y2 : K) := by exact_mod_cast h
    push_cast at this
    linarith
  · subst h
    have := minutes_lt_of_before d1 d2 h1 h2 hb
    gcongr

/-- FINDING. Dates of 8 digits held in a floating-point array have the text `YYYYMMDD.0`; every such valid date is turned into 0,
because characters 8-9 (".0") are read as the hour. -/
theorem change_dates_float_day_is_zero (year : ℕ) (d : DateTime) (hy : year < 10000) (hv : d.Valid) :
    changeDates (K := K) [dayText year d ++ ['.', '0']] = .ok [0] := by
  obtain ⟨⟨len, hlen, h1, h2⟩, hh, hmi⟩ := hv
  obtain ⟨hm, hb, _⟩ := daysBefore_lt _ _ hlen
  rw [changeDates_eq]
  simp only [List.map_cons, List.map_nil]
  congr 2
  unfold dateValue decodeDate
  set s := dayText year d ++ ['.', '0'] with hs
  have e4 : pySlice s 8 10 = ['.', '0'] := by simp [hs, pySlice, dayText, pad4, pad2]
  have el : s.length = 10 := by simp [hs, dayText, pad4, pad2]
  have hbad : pyInt ['.', '0'] = .error .valueError := by decide
  rw [e4, el, if_pos (by omega), hbad]
  simp only [bind, Except.bind]
  cases pyInt (pySlice s 0 4) <;> simp only
  cases pyInt (pySlice s 4 6) <;> simp only
  cases pyInt (pySlice s 6 8) <;> simp only

/-- Non-vacuity of C06/C07: 1974-01-02 03:05:44 as integer and as float text. -/
example : dateText 1974 ⟨0, 2, 3, 5⟩ ++ "44".toList = "19740102030544".toList ∧
    dateText 1974 ⟨0, 2, 3, 5⟩ ++ "44.0".toList = "19740102030544.0".toList ∧
    (⟨0, 2, 3, 5⟩ : DateTime).Valid := by
  refine ⟨by decide, by decide, ⟨31, rfl, ?_⟩, ?_⟩ <;> simp

/-! ## C08 potential_vorticity -/

/-- C08. Never zero. -/
theorem potential_vorticity_ne_zero (lat z : ℝ) : potentialVorticity lat z ≠ 0 := by
  unfold potentialVorticity
  simp only
  split_ifs with h
  · norm_num
  · exact h

/-- C08. For latitudes between the poles other than the equator, the sign is the sign of `lat * z`. -/
theorem potential_vorticity_sign (lat z : ℝ) (hz : z ≠ 0) (h0 : lat ≠ 0) (h1 : -180 < lat) (h2 : lat < 180) :
    (0 < potentialVorticity lat z ↔ 0 < lat * z) := by
  have hpi := Real.pi_pos
  have hsin : (0 < Real.sin (lat * Real.pi / 180) ↔ 0 < lat) ∧ Real.sin (lat * Real.pi / 180) ≠ 0 := by
    rcases lt_or_gt_of_ne h0 with hneg | hpos
    · have : Real.sin (lat * Real.pi / 180) < 0 := by
        apply Real.sin_neg_of_neg_of_neg_pi_lt
        · have : lat * Real.pi < 0 := mul_neg_of_neg_of_pos hneg hpi
          linarith
        · have : -180 * Real.pi < lat * Real.pi := by nlinarith
          linarith
      exact ⟨⟨fun h => absurd h (not_lt.2 this.le), fun h => absurd h (not_lt.2 hneg.le)⟩, this.ne⟩
    · have : 0 < Real.sin (lat * Real.pi / 180) := by
        apply Real.sin_pos_of_pos_of_lt_pi
        · positivity
        · have : lat * Real.pi < 180 * Real.pi := by nlinarith
          linarith
      exact ⟨⟨fun _ => hpos, fun _ => this⟩, this.ne'⟩
  obtain ⟨hs1, hs2⟩ := hsin
  have hc : (0 : ℝ) < 2 * 7.292 * 10 ^ (-5 : ℤ) := by norm_num
  unfold potentialVorticity
  simp only
  rw [if_neg (div_ne_zero (mul_ne_zero hc.ne' hs2) hz)]
  rcases lt_or_gt_of_ne hz with hz' | hz'
  · rw [div_pos_iff]
    rcases lt_or_gt_of_ne h0 with hneg | hpos
    · have : Real.sin (lat * Real.pi / 180) < 0 := lt_of_le_of_ne (not_lt.1 (fun h => absurd (hs1.1 h) (not_lt.2 hneg.le))) hs2
      constructor
      · intro _; exact mul_pos_of_neg_of_neg hneg hz'
      · intro _; right; exact ⟨mul_neg_of_pos_of_neg hc this, hz'⟩
    · have := hs1.2 hpos
      have hp : 0 < 2 * 7.292 * 10 ^ (-5 : ℤ) * Real.sin (lat * Real.pi / 180) := mul_pos hc this
      constructor
      · rintro (⟨_, h⟩ | ⟨h, _⟩)
        · exact absurd h (not_lt.2 hz'.le)
        · exact absurd h (not_lt.2 hp.le)
      · intro h; exact absurd h (not_lt.2 (mul_neg_of_pos_of_neg hpos hz').le)
  · rw [div_pos_iff_of_pos_right hz', mul_pos_iff_of_pos_right hz', mul_pos_iff_of_pos_left hc]
    exact hs1

/-- C08. Antisymmetric in latitude away from the equator; at the equator it is the constant 1e-5. -/
theorem potential_vorticity_antisymm (lat z : ℝ) (hz : z ≠ 0)
    (h : Real.sin (lat * Real.pi / 180) ≠ 0) :
    potentialVorticity (-lat) z = - potentialVorticity lat z := by
  have hc : (2 * 7.292 * 10 ^ (-5 : ℤ) : ℝ) ≠ 0 := by norm_num
  have e : -lat * Real.pi / 180 = -(lat * Real.pi / 180) := by ring
  unfold potentialVorticity
  simp only [e, Real.sin_neg]
  rw [if_neg, if_neg]
  · ring
  · exact div_ne_zero (mul_ne_zero hc h) hz
  · exact div_ne_zero (mul_ne_zero hc (neg_ne_zero.2 h)) hz

/-- C08. The equator. -/
theorem potential_vorticity_equator (z : ℝ) : potentialVorticity 0 z = 10 ^ (-5 : ℤ) := by
  simp [potentialVorticity]

/-- C08. The value away from the equator, `f / z` with `f = 2 Ω sin(lat)`. -/
theorem potential_vorticity_value (lat z : ℝ) (hz : z ≠ 0) (h : Real.sin (lat * Real.pi / 180) ≠ 0) :
    potentialVorticity lat z * z = 2 * 7.292e-5 * Real.sin (lat * Real.pi / 180) := by
  have hc : (2 * 7.292 * 10 ^ (-5 : ℤ) : ℝ) ≠ 0 := by norm_num
  unfold potentialVorticity
  simp only
  rw [if_neg (div_ne_zero (mul_ne_zero hc h) hz), div_mul_cancel₀ _ hz]
  norm_num

/-- Non-vacuity of C08: 30 degrees south, depth -4000 m. -/
example : 0 < potentialVorticity (-30) (-4000) :=
  (potential_vorticity_sign (-30) (-4000) (by norm_num) (by norm_num) (by norm_num) (by norm_num)).2 (by norm_num)

/-! ## C09 spatial_correlation -/

/-- C09. Non-negative. -/
theorem spatial_correlation_nonneg (x1 x2 sx y1 y2 sy t1 t2 st phi p1 p2 : ℝ) :
    0 ≤ spatialCorrelation x1 x2 sx y1 y2 sy t1 t2 st phi p1 p2 := by
  unfold spatialCorrelation
  simp only
  split_ifs <;> positivity

/-- C09. Symmetric in the two points. -/
theorem spatial_correlation_symm (x1 x2 sx y1 y2 sy t1 t2 st phi p1 p2 : ℝ) :
    spatialCorrelation x1 x2 sx y1 y2 sy t1 t2 st phi p1 p2 =
      spatialCorrelation x2 x1 sx y2 y1 sy t2 t1 st phi p2 p1 := by
  unfold spatialCorrelation
  simp only
  rw [show (x1 - x2) ^ 2 = (x2 - x1) ^ 2 by ring, show (y1 - y2) ^ 2 = (y2 - y1) ^ 2 by ring,
    show (t1 - t2) ^ 2 = (t2 - t1) ^ 2 by ring]
  congr 1
  by_cases h : p1 ≠ 0 ∧ p2 ≠ 0
  · rw [if_pos h, if_pos ⟨h.2, h.1⟩, add_comm (p1 ^ 2), div_pow, div_pow, div_pow, div_pow,
      show (p2 - p1) ^ 2 = (p1 - p2) ^ 2 by ring]
  · rw [if_neg h, if_neg (fun h' => h ⟨h'.2, h'.1⟩)]

/-- C09. With non-zero scales, and potential vorticities both non-zero (or not used): zero exactly for coincident points
with equal potential vorticity. -/
theorem spatial_correlation_eq_zero_iff (x1 x2 sx y1 y2 sy t1 t2 st phi p1 p2 : ℝ)
    (hx : sx ≠ 0) (hy : sy ≠ 0) (ht : st ≠ 0) (hphi : phi ≠ 0) :
    spatialCorrelation x1 x2 sx y1 y2 sy t1 t2 st phi p1 p2 = 0 ↔
      x1 = x2 ∧ y1 = y2 ∧ t1 = t2 ∧ (p1 ≠ 0 → p2 ≠ 0 → p1 = p2) := by
  have key : ∀ a b c d : ℝ, 0 ≤ a → 0 ≤ b → 0 ≤ c → 0 ≤ d →
      (a + b + c + d = 0 ↔ a = 0 ∧ b = 0 ∧ c = 0 ∧ d = 0) := by
    intro a b c d ha hb hc hd
    constructor
    · intro h; refine ⟨?_, ?_, ?_, ?_⟩ <;> linarith
    · rintro ⟨rfl, rfl, rfl, rfl⟩; simp
  unfold spatialCorrelation
  simp only
  rw [key _ _ _ _ (by positivity) (by positivity) (by positivity) (by split_ifs <;> positivity)]
  have e : ∀ a b s : ℝ, s ≠ 0 → ((a - b) ^ 2 / s ^ 2 = 0 ↔ a = b) := by
    intro a b s hs
    rw [div_eq_zero_iff]
    simp [hs, sub_eq_zero]
  rw [e _ _ _ hx, e _ _ _ hy, e _ _ _ ht]
  refine and_congr_right fun _ => and_congr_right fun _ => and_congr_right fun _ => ?_
  split_ifs with h
  · have hs : Real.sqrt (p2 ^ 2 + p1 ^ 2) ≠ 0 := by
      have : 0 < p2 ^ 2 + p1 ^ 2 := by have := h.1; positivity
      exact (Real.sqrt_pos.2 this).ne'
    rw [pow_eq_zero_iff (by norm_num), div_eq_zero_iff, div_eq_zero_iff]
    simp only [hphi, hs, or_false, sub_eq_zero]
    constructor
    · intro h' _ _; exact h'.symm
    · intro h'; exact (h' h.1 h.2).symm
  · simp only [true_iff]
    intro a b; exact absurd ⟨a, b⟩ h

/-- C09. Larger scales never increase the value. -/
theorem spatial_correlation_antitone (x1 x2 sx sx' y1 y2 sy sy' t1 t2 st st' phi phi' p1 p2 : ℝ)
    (hx : 0 < sx) (hy : 0 < sy) (ht : 0 < st) (hphi : 0 < phi)
    (hx' : sx ≤ sx') (hy' : sy ≤ sy') (ht' : st ≤ st') (hphi' : phi ≤ phi') :
    spatialCorrelation x1 x2 sx' y1 y2 sy' t1 t2 st' phi' p1 p2 ≤
      spatialCorrelation x1 x2 sx y1 y2 sy t1 t2 st phi p1 p2 := by
  unfold spatialCorrelation
  simp only
  have e : ∀ a s s' : ℝ, 0 < s → s ≤ s' → a ^ 2 / s' ^ 2 ≤ a ^ 2 / s ^ 2 := by
    intro a s s' hs hss
    apply div_le_div_of_nonneg_left (by positivity) (by positivity)
    exact pow_le_pow_left₀ hs.le hss 2
  have := e (x1 - x2) _ _ hx hx'
  have := e (y1 - y2) _ _ hy hy'
  have := e (t1 - t2) _ _ ht ht'
  have : (if p1 ≠ 0 ∧ p2 ≠ 0 then ((p2 - p1) / Real.sqrt (p2 ^ 2 + p1 ^ 2) / phi') ^ 2 else 0) ≤
      (if p1 ≠ 0 ∧ p2 ≠ 0 then ((p2 - p1) / Real.sqrt (p2 ^ 2 + p1 ^ 2) / phi) ^ 2 else 0) := by
    split_ifs
    · rw [div_pow _ phi', div_pow _ phi]
      exact e _ _ _ hphi hphi'
    · exact le_rfl
  linarith

/-- C09. The PV contribution is at most `2 / phi²`. -/
theorem spatial_correlation_pv_bounded (x1 x2 sx y1 y2 sy t1 t2 st phi p1 p2 : ℝ) (hphi : phi ≠ 0) :
    spatialCorrelation x1 x2 sx y1 y2 sy t1 t2 st phi p1 p2 ≤
      spatialCorrelation x1 x2 sx y1 y2 sy t1 t2 st phi 0 0 + 2 / phi ^ 2 := by
  unfold spatialCorrelation
  simp only [ne_eq, not_true_eq_false, false_and, if_false, add_zero]
  gcongr
  split_ifs with h
  · have hp : 0 < p2 ^ 2 + p1 ^ 2 := by have := h.1; positivity
    have hphi2 : 0 < phi ^ 2 := by positivity
    rw [div_pow, div_pow, Real.sq_sqrt hp.le]
    apply div_le_div_of_nonneg_right _ hphi2.le
    rw [div_le_iff₀ hp]
    nlinarith [sq_nonneg (p2 + p1)]
  · positivity

/-- Non-vacuity of C09. -/
example : spatialCorrelation 10 12 4 (-50) (-50) 2 2001 2011 10 0.1 0 0 = 5 / 4 := by
  simp [spatialCorrelation]; norm_num

end Verif.Props
