import Verif.GetOptModel

/-!
# C133: how options are written
-/
namespace Verif.GetOpt

/-- A letter without an argument. -/
def Flag (ostr : List Nat) (c : Nat) : Prop :=
  c ≠ 58 ∧ c ≠ 63 ∧ c ≠ 0 ∧ ∃ a b, ostr = a ++ c :: b ∧ c ∉ a ∧ b.head? ≠ some 58

/-- A letter with an argument. -/
def Valued (ostr : List Nat) (c : Nat) : Prop :=
  c ≠ 58 ∧ c ≠ 63 ∧ c ≠ 0 ∧ ∃ a b, ostr = a ++ c :: 58 :: b ∧ c ∉ a

/-- A name or an abbreviation of one name only stands for the entry with this number. -/
def Named (table : List Entry) (n : List Nat) (i : Nat) : Prop :=
  (∃ e, table[i]? = some e ∧ e.name = n ∧ ∀ j d, j < i → table[j]? = some d → d.name ≠ n) ∨
  ((∃ e, table[i]? = some e ∧ n <+: e.name) ∧ ∀ j d, table[j]? = some d → n <+: d.name → j = i)

/-- How options are written.  First what is left of a word with letters (empty at the beginning of a
word), then the words that follow; what they stand for; and the words that are not options.  A letter
without an argument can be followed by others; an argument follows its letter in the same word or is the
next word; that of a long option follows an equals sign or is the next word.  What cannot be understood
ends with `bad`. -/
inductive Reads (ostr : List Nat) (table : List Entry) : List Nat → List (List Nat) → List Event → List (List Nat) → Prop
  | none : Reads ostr table [] [] [] []
  | dashes (args : List (List Nat)) : Reads ostr table [] ([45, 45] :: args) [] args
  | plain (w : List Nat) (args : List (List Nat)) : w.head? ≠ some 45 → Reads ostr table [] (w :: args) [] (w :: args)
  | dash (args : List (List Nat)) : 45 ∉ ostr → Reads ostr table [] ([45] :: args) [] ([45] :: args)
  | word (c : Nat) (cs : List Nat) (args : List (List Nat)) (es : List Event) (rest : List (List Nat)) : c ≠ 45 →
      Reads ostr table (c :: cs) args es rest → Reads ostr table [] ((45 :: c :: cs) :: args) es rest
  | flag (c : Nat) (cs : List Nat) (args : List (List Nat)) (es : List Event) (rest : List (List Nat)) : Flag ostr c →
      Reads ostr table cs args es rest → Reads ostr table (c :: cs) args (.letter c none :: es) rest
  | here (c : Nat) (v : List Nat) (args : List (List Nat)) (es : List Event) (rest : List (List Nat)) : Valued ostr c → v ≠ [] →
      Reads ostr table [] args es rest → Reads ostr table (c :: v) args (.letter c (some v) :: es) rest
  | next (c : Nat) (v : List Nat) (args : List (List Nat)) (es : List Event) (rest : List (List Nat)) : Valued ostr c →
      Reads ostr table [] args es rest → Reads ostr table [c] (v :: args) (.letter c (some v) :: es) rest
  | unknown (c : Nat) (cs : List Nat) (args : List (List Nat)) : c = 58 ∨ c = 63 ∨ c ∉ ostr → c ≠ 45 → c ≠ 0 →
      Reads ostr table (c :: cs) args [.bad] []
  | missing (c : Nat) : Valued ostr c → Reads ostr table [c] [] [.bad] []
  | longEq (n v : List Nat) (i : Nat) (e : Entry) (args : List (List Nat)) (es : List Event) (rest : List (List Nat)) :
      n ≠ [] → 61 ∉ n → Named table n i → table[i]? = some e → e.has ≠ .no →
      Reads ostr table [] args es rest → Reads ostr table [] ((45 :: 45 :: (n ++ 61 :: v)) :: args) (.long i (some v) :: es) rest
  | longNext (n v : List Nat) (i : Nat) (e : Entry) (args : List (List Nat)) (es : List Event) (rest : List (List Nat)) :
      n ≠ [] → 61 ∉ n → Named table n i → table[i]? = some e → e.has = .required →
      Reads ostr table [] args es rest → Reads ostr table [] ((45 :: 45 :: n) :: v :: args) (.long i (some v) :: es) rest
  | longFlag (n : List Nat) (i : Nat) (e : Entry) (args : List (List Nat)) (es : List Event) (rest : List (List Nat)) :
      n ≠ [] → 61 ∉ n → Named table n i → table[i]? = some e → e.has = .no →
      Reads ostr table [] args es rest → Reads ostr table [] ((45 :: 45 :: n) :: args) (.long i none :: es) rest
  | longUnknown (n : List Nat) (args : List (List Nat)) : n ≠ [] → (∀ e ∈ table, ¬ n.takeWhile (· ≠ 61) <+: e.name) →
      Reads ostr table [] ((45 :: 45 :: n) :: args) [.bad] []
  | longMissing (n : List Nat) (i : Nat) (e : Entry) : n ≠ [] → 61 ∉ n → Named table n i → table[i]? = some e → e.has = .required →
      Reads ostr table [] [45 :: 45 :: n] [.bad] []

/-- Words about which there is no doubt: the long names stand for one entry at most, only those of
entries with an argument have an equals sign, and there is no minus sign among letters. -/
def Clear (table : List Entry) (w : List Nat) : Prop :=
  (∀ n, w = 45 :: 45 :: n → n ≠ [] →
    n.takeWhile (· ≠ 61) ≠ [] ∧
    ((∃ i, Named table (n.takeWhile (· ≠ 61)) i ∧ (61 ∈ n → ∃ e, table[i]? = some e ∧ e.has ≠ .no)) ∨
      ∀ e ∈ table, ¬ n.takeWhile (· ≠ 61) <+: e.name)) ∧
  (∀ c cs, w = 45 :: c :: cs → c ≠ 45 → 45 ∉ cs)

end Verif.GetOpt
