import Verif.HookModel
/-!
# What registering means

Written over the history of what the application called, not over what the contexts hold.
-/
namespace Verif.Hook

/-- What an operation registers for an event of a context, if it is a registration for it. -/
def Op.forEvent (e : Ev) (c : Nat) : Op → Option (Option Nat)
  | .onEvent e' (some c') cb => if e' = e ∧ c' = c then some cb else none
  | _ => none

/-- What an operation registers for a BRSKI request of a context; registering nothing does not
count. -/
def Op.forBrski (b : Br) (c : Nat) : Op → Option (Option Nat)
  | .onBrski b' (some c') (some f) => if b' = b ∧ c' = c then some (some f) else none
  | _ => none

/-- What an operation sets as the data of a context. -/
def Op.forData (c : Nat) : Op → Option (Option Nat)
  | .setData (some c') d => if c' = c then some d else none
  | _ => none

/-- What an operation registers for errors. -/
def Op.forError : Op → Option (Option Nat)
  | .onError cb => some cb
  | _ => none

/-- The last one in a history, nothing if there is none. -/
def latest (f : Op → Option (Option Nat)) (h : List Op) : Option Nat :=
  ((h.filterMap f).getLast?).getD none

/-- The level asked for last, errors at the beginning. -/
def latestLevel (h : List Op) : Nat :=
  ((h.filterMap fun o => match o with | .logger l => some l | _ => none).getLast?).getD 1

/-- Whether an operation says anything about a context. -/
def Op.about (c : Nat) : Op → Bool
  | .onEvent _ ctx _ => ctx == some c
  | .onBrski _ ctx _ => ctx == some c
  | .setData ctx _ => ctx == some c
  | _ => false

end Verif.Hook
