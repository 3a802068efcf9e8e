import Verif.UtilModel

/-!
# What the utilities for files and keys should do
-/
namespace Verif.Util

/-- A text contains a word. -/
def Contains (t w : List Nat) : Prop := ∃ a b, t = a ++ w ++ b

/-- A block that holds a text as a string of C. -/
def Holds (block t : List Nat) : Prop := block = t ++ [0]

end Verif.Util
