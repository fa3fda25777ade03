/-! # The numbers that occur in a text -/

namespace Visqol.Spec

/-- The value of every maximal sequence of decimal digits, in order; the first argument is the value of the digits just read, if any. -/
def numbersFrom : Option Nat → List Char → List Nat
  | acc, [] => acc.toList
  | acc, c :: l => if c.isDigit then numbersFrom (some (10 * acc.getD 0 + (c.toNat - '0'.toNat))) l else acc.toList ++ numbersFrom none l

def numbersIn (s : String) : List Nat := numbersFrom none s.toList

end Visqol.Spec
