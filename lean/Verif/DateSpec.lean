import Verif.DateModel

/-!
# What dates mean

The calendar by counting days, and the three ways of writing a date that HTTP knows (RFC 2616, section 3.3.1).
-/
namespace Verif.Date

/-- A date and a time of the day; months count from 0, Monday is day 0 of the week. -/
structure Civil where
  year : Nat
  mon : Nat
  mday : Nat
  hour : Nat
  min : Nat
  sec : Nat
deriving DecidableEq, Repr

/-- Years with a day more. -/
def Leap (y : Nat) : Prop := y % 4 = 0 ∧ (y % 100 ≠ 0 ∨ y % 400 = 0)

instance (y : Nat) : Decidable (Leap y) := inferInstanceAs (Decidable (_ ∧ _))

/-- How many days a month has. -/
def monthLen (y m : Nat) : Nat :=
  if m = 1 then (if Leap y then 29 else 28) else if m = 3 ∨ m = 5 ∨ m = 8 ∨ m = 10 then 30 else 31

/-- How many days the first `m` months of a year have. -/
def monthsLen (y : Nat) : Nat → Nat
  | 0 => 0
  | m + 1 => monthsLen y m + monthLen y m

/-- How many days the first `n` years from 1970 on have. -/
def yearsLen : Nat → Nat
  | 0 => 0
  | n + 1 => yearsLen n + monthsLen (1970 + n) 12

/-- A date that exists, from 1970 on; a minute may have a leap second. -/
def Civil.Valid (c : Civil) : Prop :=
  1970 ≤ c.year ∧ c.mon < 12 ∧ 1 ≤ c.mday ∧ c.mday ≤ monthLen c.year c.mon ∧ c.hour < 24 ∧ c.min < 60 ∧ c.sec ≤ 60

instance (c : Civil) : Decidable c.Valid := inferInstanceAs (Decidable (_ ∧ _))

/-- The days since the first of January 1970. -/
def Civil.days (c : Civil) : Nat := yearsLen (c.year - 1970) + monthsLen c.year c.mon + (c.mday - 1)

/-- The seconds since then, in Greenwich. -/
def Civil.unix (c : Civil) : Nat := ((c.days * 24 + c.hour) * 60 + c.min) * 60 + c.sec

/-- A number below 10. -/
def d1 (n : Nat) : List Nat := [48 + n]

/-- A number below 100 with two digits. -/
def d2 (n : Nat) : List Nat := [48 + n / 10, 48 + n % 10]

/-- A number below 10000 with four digits. -/
def d4 (n : Nat) : List Nat := [48 + n / 1000, 48 + n / 100 % 10, 48 + n / 10 % 10, 48 + n % 10]

/-- The name of a month. -/
def monthName (m : Nat) : List Nat :=
  ([[74, 97, 110], [70, 101, 98], [77, 97, 114], [65, 112, 114], [77, 97, 121], [74, 117, 110], [74, 117, 108], [65, 117, 103], [83, 101, 112], [79, 99, 116], [78, 111, 118], [68, 101, 99]] : List (List Nat))[m]?.getD []

/-- The short name of a day of the week. -/
def dayName (w : Nat) : List Nat :=
  ([[77, 111, 110], [84, 117, 101], [87, 101, 100], [84, 104, 117], [70, 114, 105], [83, 97, 116], [83, 117, 110]] : List (List Nat))[w]?.getD []

/-- The long name of a day of the week. -/
def dayLong (w : Nat) : List Nat :=
  ([[77, 111, 110, 100, 97, 121], [84, 117, 101, 115, 100, 97, 121], [87, 101, 100, 110, 101, 115, 100, 97, 121], [84, 104, 117, 114, 115, 100, 97, 121], [70, 114, 105, 100, 97, 121], [83, 97, 116, 117, 114, 100, 97, 121], [83, 117, 110, 100, 97, 121]] : List (List Nat))[w]?.getD []

/-- The time of the day. -/
def Civil.clock (c : Civil) : List Nat := d2 c.hour ++ [58] ++ d2 c.min ++ [58] ++ d2 c.sec

/-- `Sun, 06 Nov 1994 08:49:37 GMT`, with any zone in the place of `GMT`. -/
def Civil.rfc1123 (c : Civil) (w : Nat) (zone : List Nat) : List Nat :=
  dayName w ++ ([44, 32] ++ (d2 c.mday ++ ([32] ++ (monthName c.mon ++ ([32] ++ (d4 c.year ++ ([32] ++ (c.clock ++ ([32] ++ zone)))))))))

/-- `Sunday, 06-Nov-94 08:49:37 GMT`. -/
def Civil.rfc850 (c : Civil) (w : Nat) : List Nat :=
  dayLong w ++ ([44, 32] ++ (d2 c.mday ++ ([45] ++ (monthName c.mon ++ ([45] ++ (d2 (c.year % 100) ++ ([32] ++ (c.clock ++ [32, 71, 77, 84]))))))))

/-- `Sun Nov  6 08:49:37 1994`. -/
def Civil.asctime (c : Civil) (w : Nat) : List Nat :=
  dayName w ++ ([32] ++ (monthName c.mon ++ ((if c.mday < 10 then [32, 32] ++ d1 c.mday else [32] ++ d2 c.mday) ++
    ([32] ++ (c.clock ++ ([32] ++ d4 c.year))))))

/-- The offset of a zone written with a sign, as it is written. -/
def offsetText (east : Bool) (hours mins : Nat) : List Nat := (if east then 43 else 45) :: d4 (hours * 100 + mins)

/-- Its seconds. -/
def offsetSec (east : Bool) (hours mins : Nat) : Int := if east then ((hours * 60 + mins : Nat) : Int) * 60 else -(((hours * 60 + mins : Nat) : Int) * 60)

/-- Each colon of the text has two digits before it and behind it. -/
def Clocks (s : List Nat) : Prop :=
  ∀ a r, s = a ++ 58 :: r →
    (∃ b x y, a = b ++ [x, y] ∧ 48 ≤ x ∧ x ≤ 57 ∧ 48 ≤ y ∧ y ≤ 57) ∧ (∃ x y b, r = x :: y :: b ∧ 48 ≤ x ∧ x ≤ 57 ∧ 48 ≤ y ∧ y ≤ 57)

end Verif.Date
