/-!
# What reading from memory should mean

Independent of the model.
-/
namespace Verif.Reader.Spec

/-- The bytes are an encoding of the value in a format (1 PEM, 2 DER). -/
inductive Decodes {K : Type} (pem der : List Nat → Option K) (bytes : List Nat) : Int → K → Prop
  | pem (k : K) (h : pem bytes = some k) : Decodes pem der bytes 1 k
  | der (k : K) (h : der bytes = some k) : Decodes pem der bytes 2 k

/-- The length an honest application gives: that of its object or less. -/
def Honest (mem : List Nat) (len : Int) : Prop := 0 ≤ len ∧ len ≤ mem.length

end Verif.Reader.Spec
