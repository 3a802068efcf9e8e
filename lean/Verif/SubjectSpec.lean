import Verif.SubjectModel

/-!
# C132: how names are written, and what they stand for
-/
namespace Verif.Subject

/-! ## How a name is written -/

/-- `t` is a way to write `s`: each character as it is, unless it is a backslash or ends the part, or
with a backslash before it. -/
inductive Esc (stop : Nat → Bool) : List Nat → List Nat → Prop
  | nil : Esc stop [] []
  | plain (c : Nat) (t s : List Nat) : c ≠ 92 → stop c = false → Esc stop t s → Esc stop (c :: t) (c :: s)
  | esc (c : Nat) (t s : List Nat) : Esc stop t s → Esc stop (92 :: c :: t) (c :: s)

/-- An element: whether it belongs to the relative name before it, its type and its value. -/
structure Elem where
  join : Bool
  type : List Nat
  value : List Nat
deriving DecidableEq, Repr

/-- An equals sign ends a type. -/
def endType (c : Nat) : Bool := c = 61

/-- A slash ends a value, and a plus sign if there can be relative names with several values. -/
def endValue (multi : Bool) (c : Nat) : Bool := c = 47 || (c = 43 && multi)

/-- The text behind the first slash, and the elements it stands for; the flag is that of the first. -/
inductive Body (multi : Bool) : Bool → List Nat → List Elem → Prop
  | done (j : Bool) : Body multi j [] []
  | last (j : Bool) (t ty v val : List Nat) : Esc endType t ty → Esc (endValue multi) v val → v ≠ [] →
      Body multi j (t ++ 61 :: v) [⟨j, ty, val⟩]
  | slash (j : Bool) (t ty v val r : List Nat) (l : List Elem) : Esc endType t ty → Esc (endValue multi) v val →
      Body multi false r l → Body multi j (t ++ 61 :: (v ++ 47 :: r)) (⟨j, ty, val⟩ :: l)
  | plus (j : Bool) (t ty v val r : List Nat) (l : List Elem) : multi = true → Esc endType t ty → Esc (endValue multi) v val →
      Body multi true r l → Body multi j (t ++ 61 :: (v ++ 43 :: r)) (⟨j, ty, val⟩ :: l)

/-- The text is a way to write these elements. -/
def Written (multi : Bool) (s : List Nat) (l : List Elem) : Prop := ∃ b, s = 47 :: b ∧ Body multi false b l

/-- An element that is kept: its type is known and it has a value. -/
def keep (nid : List Nat → Option Nat) (e : Elem) : Option (Bool × Nat × List Nat) :=
  match nid e.type with
  | some k => if e.value = [] then none else some (e.join, k, e.value)
  | none => none

/-- Elements as relative names: one that belongs to the one before it is in the same. -/
def group {α : Type} : List (Bool × α) → List (List α)
  | [] => []
  | (_, x) :: l =>
    match l, group l with
    | (true, _) :: _, r :: rs => (x :: r) :: rs
    | _, g => [x] :: g

/-- The relative names as they were written, without the elements that are left out. -/
def asWritten (nid : List Nat → Option Nat) (l : List Elem) : Name :=
  ((group (l.map fun e => (e.join, e))).map (·.filterMap fun e => (keep nid e).map (·.2))).filter (· ≠ [])

/-- No element belongs to one that is left out. -/
def Whole (nid : List Nat → Option Nat) : List Elem → Prop
  | e :: d :: l => (keep nid e = none → d.join = false) ∧ Whole nid (d :: l)
  | _ => True

/-- A text with a backslash before each character that needs one. -/
def escape (stop : Nat → Bool) (s : List Nat) : List Nat := s.flatMap fun c => if c = 92 || stop c then [92, c] else [c]

/-- Elements as a text.  A last element without a value needs a slash behind it. -/
def body (multi : Bool) : List Elem → List Nat
  | [] => []
  | e :: l =>
    escape endType e.type ++ 61 :: (escape (endValue multi) e.value ++
      match l with
      | [] => if e.value = [] then [47] else []
      | d :: _ => (if d.join then 43 else 47) :: body multi l)

/-- A name as a text. -/
def text (multi : Bool) (l : List Elem) : List Nat := 47 :: body multi l

end Verif.Subject
