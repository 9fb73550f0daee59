import Mathlib.Data.List.Basic
import Mathlib.Algebra.Order.Field.Basic

/-!
# Specification vocabulary for `pyowc/utilities.py`

Nothing here refers to the model.
-/

namespace Verif.Spec

/-- Number of days of each month of a non-leap year, January first. -/
def monthLengths : List ℕ := [31, 28, 31, 30, 31, 30, 31, 31, 30, 31, 30, 31]

/-- A date and time of a non-leap year; `month` counts from 0, `day` from 1. -/
structure DateTime where
  month : ℕ
  day : ℕ
  hour : ℕ
  minute : ℕ
  deriving DecidableEq, Repr

/-- The calendar date exists in a non-leap year. -/
def DateTime.Valid (d : DateTime) : Prop :=
  (∃ len, monthLengths[d.month]? = some len ∧ 1 ≤ d.day ∧ d.day ≤ len) ∧ d.hour < 24 ∧ d.minute < 60

/-- Chronological order inside a year: month first, then day, hour, minute. -/
def DateTime.Before (a b : DateTime) : Prop :=
  a.month < b.month ∨ (a.month = b.month ∧ (a.day < b.day ∨ (a.day = b.day ∧
    (a.hour < b.hour ∨ (a.hour = b.hour ∧ a.minute < b.minute)))))

/-- Days before the first of the month. -/
def daysBefore (month : ℕ) : ℕ := (monthLengths.take month).sum

/-- Minutes elapsed since 1 January 00:00. -/
def DateTime.minutes (d : DateTime) : ℕ :=
  ((daysBefore d.month + (d.day - 1)) * 24 + d.hour) * 60 + d.minute

/-- The character of a decimal digit. -/
def digitChar (n : ℕ) : Char := Char.ofNat (48 + n)

/-- Two decimal digits. -/
def pad2 (n : ℕ) : List Char := [digitChar (n / 10), digitChar (n % 10)]

/-- Four decimal digits. -/
def pad4 (n : ℕ) : List Char :=
  [digitChar (n / 1000), digitChar (n / 100 % 10), digitChar (n / 10 % 10), digitChar (n % 10)]

/-- The text `YYYYMMDDhhmm` of a date (months written from 01). -/
def dateText (year : ℕ) (d : DateTime) : List Char :=
  pad4 year ++ pad2 (d.month + 1) ++ pad2 d.day ++ pad2 d.hour ++ pad2 d.minute

/-- The text `YYYYMMDD` of a date. -/
def dayText (year : ℕ) (d : DateTime) : List Char :=
  pad4 year ++ pad2 (d.month + 1) ++ pad2 d.day

end Verif.Spec
