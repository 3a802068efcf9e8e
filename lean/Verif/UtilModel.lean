/-!
# Model of the utilities of the sample programs for files and keys

Source: `/repo/example/util/utils.c` lines 55-101 (`read_binary_file`), 107-118 (`write_binary_file`), 142-158 (`BIO_copy_data`),
160-195 (`generate_private_RSA_key`), 197-246 (`generate_private_EC_key`), 265-295 (`load_private_key`), 300-326 (`read_private_key`).
What is printed is left out.
-/
namespace Verif.Util

/-- The system while a file is read or written: the file (none: it cannot be opened), whether telling the place, going back to the
beginning, getting memory and reading succeed, how much of a text is written.  Called in `utils.c` lines 60-93 and 111-117. -/
structure Sys where
  file : Option (List Nat)
  tell : Bool := true
  rewind : Bool := true
  malloc : Bool := true
  read : Bool := true
  opens : Bool := true
  writes : Option Nat := none

/-- A `long` taken for an `int` of 32 bits, `utils.c` lines 70-70. -/
def toInt (n : Nat) : Int := if n % 2 ^ 32 < 2 ^ 31 then (n % 2 ^ 32 : Nat) else (n % 2 ^ 32 : Nat) - 2 ^ 32

/-- How reading ends: with a number, the block at `*contents` if one was made, and whether the file is closed; or undefined.
`utils.c` lines 55-101. -/
inductive Read where
  | ret (code : Int) (block : Option (List Nat)) (closed : Bool)
  | ub
deriving DecidableEq, Repr

/-- `read_binary_file`, `utils.c` lines 55-101.  A block whose bytes are not known is taken as empty; `fread` of one item
of size 0 reads no item. -/
def readFile (s : Sys) : Read :=
  match s.file with
  | none => .ret (-1) none true
  | some bytes =>
    let len := if s.tell then toInt bytes.length else -1
    if len < 0 then .ret (-2) none true
    else if !s.rewind then .ret (-2) none true
    else if len + 1 ≥ 2 ^ 31 then .ub
    else if !s.malloc then .ret (-2) none true
    else if len = 0 ∨ !s.read then .ret (-2) (some []) true
    else .ret len (some (bytes.take len.toNat ++ [0])) true

/-- `write_binary_file`, `utils.c` lines 107-118: what is in the file afterwards, none if it was not opened. -/
def writeFile (s : Sys) (contents : List Nat) : Option (List Nat) :=
  if !s.opens then none
  else
    match s.writes with
    | none => some contents
    | some n => some (contents.take n)

/-- What is allocated: keys, numbers, groups, memory BIOs, blocks.  `utils.c` lines 142-246. -/
structure Live where
  keys : Nat := 0
  nums : Nat := 0
  groups : Nat := 0
  bios : Nat := 0
  blocks : Nat := 0
deriving DecidableEq, Repr

/-- One round of writing a key: whether there is a BIO, the text written into it, whether there is memory for the copy.
`utils.c` lines 178-189 and 229-241. -/
structure Round where
  bio : Bool
  text : List Nat
  malloc : Bool

/-- The text up to its NUL, as the string functions of `utils.c` lines 185 and 237 see it. -/
def cstr (t : List Nat) : List Nat := t.takeWhile (· ≠ 0)

/-- `strstr`, `utils.c` lines 237-237. -/
def hasWord (w : List Nat) : List Nat → Bool
  | [] => w.isEmpty
  | c :: r => w.isPrefixOf (c :: r) || hasWord w r

/-- The loop, `utils.c` lines 177-190 and 228-242, over the rounds to come.  None: it has not ended after these rounds. -/
def loop (cb : Bool) (good : List Nat → Bool) : List Round → Live → Option (Option (List Nat) × Live)
  | [], _ => none
  | a :: l, m =>
    if !a.bio then some (none, m)
    else if !a.malloc then
      if cb then loop cb good l m else some (none, m)
    else if good (cstr a.text) then some (some (a.text ++ [0]), { m with blocks := m.blocks + 1 })
    else if cb then loop cb good l m
    else some (none, m)

/-- `generate_private_RSA_key`, `utils.c` lines 160-195; `rsa`, `bn`: whether these can be had. -/
def genRsa (rsa bn cb : Bool) (l : List Round) (m : Live) : Option (Option (List Nat) × Live) :=
  if !rsa then some (none, m)
  else
    let m := { m with keys := m.keys + 1 }
    if !bn then some (none, { m with keys := m.keys - 1 })
    else
      let m := { m with nums := m.nums + 1 }
      (loop cb (fun t => !t.isEmpty) l m).map fun r => (r.1, { r.2 with keys := r.2.keys - 1, nums := r.2.nums - 1 })

/-- The line looked for in `utils.c` lines 237-237. -/
def ecLine : List Nat := [45, 45, 45, 45, 45, 66, 69, 71, 73, 78, 32, 69, 67, 32, 80, 82, 73, 86, 65, 84, 69, 32, 75, 69, 89, 45, 45, 45, 45, 45]

/-- `generate_private_EC_key`, `utils.c` lines 197-246; the first parameters tell whether a key, the group, the setting of the group
and the generating succeed. -/
def genEc (key group set gen cb : Bool) (l : List Round) (m : Live) : Option (Option (List Nat) × Live) :=
  if !key then some (none, m)
  else
    let m := { m with keys := m.keys + 1 }
    if !group then some (none, m)
    else
      let m := { m with groups := m.groups + 1 }
      if !set then some (none, m)
      else if !gen then some (none, m)
      else (loop cb (hasWord ecLine) l m).map fun r => (r.1, { r.2 with keys := r.2.keys - 1 })

/-- `load_private_key`, `utils.c` lines 265-295: the key that the decoder of the format (1 PEM, 2 DER, `EST_FORMAT_PEM` and
`EST_FORMAT_DER`) finds in the text, and the BIOs left. -/
def loadKey {K : Type} (pem der : List Nat → Option K) (text : Option (List Nat)) (format : Int) (bio : Bool) (bios : Nat) : Option K × Nat :=
  match text with
  | none => (none, bios)
  | some t =>
    if !bio then (none, bios)
    else if format = 1 then (pem t, bios + 1 - 1)
    else if format = 2 then (der t, bios + 1 - 1)
    else (none, bios + 1 - 1)

/-- `read_private_key`, `utils.c` lines 300-326: the key in the file, and the BIOs left. -/
def readKey {K : Type} (pem : List Nat → Option K) (file : Option (List Nat)) (bios : Nat) : Option K × Nat :=
  match file with
  | none => (none, bios + 1)
  | some t => (pem t, bios + 1 - 1)

end Verif.Util
