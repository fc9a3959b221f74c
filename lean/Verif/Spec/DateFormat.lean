import Verif.Uni.DateFormat

/-!
# Specification: written dates
-/

namespace Verif.Spec

/-- number of days of a month of the Gregorian calendar -/
def monthDays (y : Nat) : Nat → Nat
  | 2 => if y % 400 = 0 ∨ (y % 4 = 0 ∧ y % 100 ≠ 0) then 29 else 28
  | 4 | 6 | 9 | 11 => 30
  | _ => 31

/-- a time of the years 1 to 9999 -/
structure RealTime (t : Civil) : Prop where
  year : 1 ≤ t.year ∧ t.year ≤ 9999
  month : 1 ≤ t.month ∧ t.month ≤ 12
  day : 1 ≤ t.day ∧ t.day ≤ monthDays t.year t.month
  clock : t.hour ≤ 23 ∧ t.minute ≤ 59 ∧ t.second ≤ 59

/-- decimal digit -/
def dig (n : Nat) : Char := Char.ofNat (48 + n % 10)

def pad2 (n : Nat) : List Char := [dig (n / 10), dig n]
def pad4 (n : Nat) : List Char := [dig (n / 1000), dig (n / 100), dig (n / 10), dig n]

/-- `YYYY-MM-DD` -/
def writeDate (t : Civil) : List Char := pad4 t.year ++ ['-'] ++ pad2 t.month ++ ['-'] ++ pad2 t.day
/-- `HH:MM` -/
def writeHM (t : Civil) : List Char := pad2 t.hour ++ [':'] ++ pad2 t.minute
/-- `HH:MM:SS` -/
def writeHMS (t : Civil) : List Char := writeHM t ++ [':'] ++ pad2 t.second

/-- the five ways to write a time that can be read back -/
inductive Style where
  | zulu
  | iso
  | spaced
  | minutes
  | american
  deriving DecidableEq

/-- the time `t` written in a style -/
def written : Style → Civil → List Char
  | .zulu, t => writeDate t ++ ['T'] ++ writeHMS t ++ ['Z']
  | .iso, t => writeDate t ++ ['T'] ++ writeHMS t
  | .spaced, t => writeDate t ++ [' '] ++ writeHMS t
  | .minutes, t => writeDate t ++ [' '] ++ writeHM t
  | .american, t => pad2 t.month ++ ['/'] ++ pad2 t.day ++ ['/'] ++ pad2 t.year

/-- the times that a style can tell apart: without seconds there are only full minutes, and `MM/DD/YY` has midnights of the years 1969 to 2068 -/
def Style.Covers : Style → Civil → Prop
  | .minutes, t => t.second = 0
  | .american, t => (t.hour = 0 ∧ t.minute = 0 ∧ t.second = 0) ∧ 1969 ≤ t.year ∧ t.year ≤ 2068
  | _, _ => True

/-- the string `s` stands for the time `t` -/
def Writes (t : Civil) (s : List Char) : Prop := ∃ st : Style, st.Covers t ∧ s = written st t

end Verif.Spec
