import Verif.Spec.Chrono
/-
The numbers of dates and times: how many digits they have, and their ranges.
-/
namespace Scn.Spec

/-- The conversions for numbers that have a range (strptime): the character, the number of digits at most, the least value
    and the greatest one. -/
def numberRanges : List (Nat × Nat × Nat × Nat) :=
  [(100, 2, 1, 31), (101, 2, 1, 31), (109, 2, 1, 12), (106, 3, 1, 366), (119, 1, 0, 6), (72, 2, 0, 23), (73, 2, 1, 12), (77, 2, 0, 59), (83, 2, 0, 60)]

/-- The conversions for numbers, and the number of digits that they need. -/
def numberDigits : List (Nat × Nat) :=
  [(89, 4), (121, 2), (67, 2), (100, 1), (101, 1), (109, 1), (106, 1), (119, 1), (117, 1), (72, 1), (73, 1), (77, 1), (83, 1)]

end Scn.Spec
