/-!
# What comparing subject fields should mean

Independent of the model: a name is a list of identifiers and values.
-/
namespace Verif.SubjField.Spec

/-- The first value of a field in a name. -/
inductive First : List (Nat × List Nat) → Nat → List Nat → Prop
  | here (nid : Nat) (v : List Nat) (rest : List (Nat × List Nat)) : First ((nid, v) :: rest) nid v
  | later (e : Nat × List Nat) (rest : List (Nat × List Nat)) (nid : Nat) (v : List Nat) (h : e.1 ≠ nid)
      (hr : First rest nid v) : First (e :: rest) nid v

/-- All values of a field. -/
def All (name : List (Nat × List Nat)) (nid : Nat) : List (List Nat) :=
  (name.filter fun e => e.1 == nid).map (·.2)

/-- A value that is an ordinary text: not empty, without zero bytes, and not longer than 256 bytes. -/
def Plain (v : List Nat) : Prop := v ≠ [] ∧ 0 ∉ v ∧ v.length ≤ 256

/-- The values of a field are ordinary in a name. -/
def PlainIn (name : List (Nat × List Nat)) (nid : Nat) : Prop := ∀ v, First name nid v → Plain v

/-- The two names have the same device in a field. -/
def Same (a b : List (Nat × List Nat)) (nid : Nat) : Prop := ∃ v, First a nid v ∧ First b nid v

/-- A text of ASCII characters as a `BMPString` (two bytes for each character). -/
def wide (s : List Nat) : List Nat := s.flatMap fun c => [0, c]

end Verif.SubjField.Spec
