import Verif.Base
/-!
# Specification: a time stamp
-/
namespace Verif.Spec

/-- year, month, day, hour, minute, second as they are on a calendar and on a clock (the second 60 is a leap second) -/
structure Moment where
  year : Nat
  month : Nat
  day : Nat
  hour : Nat
  minute : Nat
  second : Nat
  deriving DecidableEq, Repr

/-- the year has four digits and the others are what they can be -/
structure Moment.Proper (m : Moment) : Prop where
  year : 1000 ≤ m.year ∧ m.year ≤ 9999
  month : 1 ≤ m.month ∧ m.month ≤ 12
  day : 1 ≤ m.day ∧ m.day ≤ 31
  hour : m.hour ≤ 23
  minute : m.minute ≤ 59
  second : m.second ≤ 60

/-- one moment is before another -/
def Moment.before (a b : Moment) : Prop :=
  [a.year, a.month, a.day, a.hour, a.minute, a.second] < [b.year, b.month, b.day, b.hour, b.minute, b.second]

/-- the digit of `n` with the weight `w` -/
def digitAt (n w : Nat) : UInt8 := UInt8.ofNat (48 + n / w % 10)

/-- fifteen characters: date, the letter T, time -/
def Moment.stamp (m : Moment) : List UInt8 :=
  [digitAt m.year 1000, digitAt m.year 100, digitAt m.year 10, digitAt m.year 1, digitAt m.month 10, digitAt m.month 1,
   digitAt m.day 10, digitAt m.day 1, 84, digitAt m.hour 10, digitAt m.hour 1, digitAt m.minute 10, digitAt m.minute 1,
   digitAt m.second 10, digitAt m.second 1]

end Verif.Spec
