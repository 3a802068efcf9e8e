import Verif.PxSampleModel
/-!
# What the options of the sample proxy stand for

After the usage the program prints (`estproxy.c` lines 122-170).
-/
namespace Verif.PxSample

/-- The long options of the table. -/
def longNames : List (List Nat) :=
  [[115, 114, 112], [116, 111, 107, 101, 110], [97, 117, 116, 104, 45, 116, 111, 107, 101, 110], [101, 110, 104, 99, 100, 95, 99, 101, 114, 116, 95, 97, 117, 116, 104], [101, 110, 104, 99, 100, 95, 99, 101, 114, 116, 95, 116, 114, 117, 115, 116, 115, 116, 111, 114, 101], [99, 101, 114, 116, 95, 97, 117, 116, 104, 95, 97, 104, 95, 112, 119, 100],
   [99, 101, 114, 116, 95, 97, 117, 116, 104, 95, 99, 115, 114, 95, 99, 104, 101, 99, 107, 95, 111, 110], [101, 110, 104, 99, 100, 95, 99, 101, 114, 116, 95, 108, 111, 99, 97, 108, 95, 110, 105, 100], [101, 110, 104, 99, 100, 95, 99, 101, 114, 116, 95, 109, 102, 103, 95, 110, 97, 109, 101], [101, 110, 104, 99, 100, 95, 99, 101, 114, 116, 95, 109, 102, 103, 95, 116, 114, 117, 115, 116, 115, 116, 111, 114, 101],
   [101, 110, 104, 99, 100, 95, 99, 101, 114, 116, 95, 109, 102, 103, 95, 110, 105, 100], [112, 97, 116, 104, 45, 115, 101, 103], [101, 110, 97, 98, 108, 101, 45, 99, 111, 97, 112], [100, 116, 108, 115, 45, 104, 97, 110, 100, 115, 104, 97, 107, 101, 45, 116, 105, 109, 101, 111, 117, 116], [100, 116, 108, 115, 45, 104, 97, 110, 100, 115, 104, 97, 107, 101, 45, 109, 116, 117],
   [100, 116, 108, 115, 45, 115, 101, 115, 115, 105, 111, 110, 45, 109, 97, 120], [112, 101, 114, 102, 45, 116, 105, 109, 101, 114, 115, 45, 111, 110]]

/-- What `getopt_long` can return, given the table. -/
def Got.fromTable : Got → Prop
  | .long n _ => n ∈ longNames
  | _ => True

/-- The argument of an option, if it is this letter. -/
def Got.letter (c : Nat) : Got → Option (List Nat)
  | .short c' v => if c' = c then some v else none
  | _ => none

/-- The argument of an option, if it has this name. -/
def Got.named (n : List Nat) : Got → Option (List Nat)
  | .long n' v => if n' = n then some v else none
  | _ => none

/-- The argument given last. -/
def lastOf (f : Got → Option (List Nat)) (got : List Got) : Option (List Nat) :=
  (got.filterMap f).getLast?

/-- Whether it is given at all. -/
def given (f : Got → Option (List Nat)) (got : List Got) : Bool := (lastOf f got).isSome

/-- The options whose arguments are copied, with the number of bytes there is room for. -/
def room : List ((Got → Option (List Nat)) × Nat) :=
  [(Got.letter 115, 31), (Got.letter 99, 254), (Got.letter 107, 254), (Got.letter 114, 254),
   (Got.named [115, 114, 112], 254), (Got.named [101, 110, 104, 99, 100, 95, 99, 101, 114, 116, 95, 108, 111, 99, 97, 108, 95, 110, 105, 100], 255),
   (Got.named [101, 110, 104, 99, 100, 95, 99, 101, 114, 116, 95, 109, 102, 103, 95, 116, 114, 117, 115, 116, 115, 116, 111, 114, 101], 254), (Got.named [101, 110, 104, 99, 100, 95, 99, 101, 114, 116, 95, 109, 102, 103, 95, 110, 105, 100], 255)]

/-- No argument is longer than that. -/
def Fits (got : List Got) : Prop := ∀ p ∈ room, ∀ v, lastOf p.1 got = some v → v.length ≤ p.2

end Verif.PxSample
