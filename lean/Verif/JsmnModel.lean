/-!
# Model of the JSON tokeniser

Source: `/repo/src/est/jsmn.c` (all), built without `JSMN_PARENT_LINKS` and `JSMN_STRICT`.
The client calls it once per voucher, on a fresh parser with an array of 100 tokens
(`est_client.c` lines 5402-5410).

The text is a list of bytes; `len` is its length.  Only texts shorter than 2^31 bytes are meant
(positions are `int` in the tokens); the received message is at most 2000000 bytes long.
The count-only mode (`tokens == NULL`) and resuming after an error are not modelled; neither is
used.
-/
namespace Verif.Jsmn

/-- `jsmntype_t` of a token in use.  `jsmn.h` lines 17-23. -/
inductive Ty | object | array | string | primitive
deriving DecidableEq, Repr

/-- `jsmntok_t`.  `fin = none` is the value -1 of `end`.  Every allocated token has its `start`
set before anything can read it.  `jsmn.h` lines 40-48. -/
structure Tok where
  ty : Ty
  start : Nat
  fin : Option Nat
  size : Nat
deriving DecidableEq, Repr

/-- The tokens allocated so far (`toknext` is their number) and `toksuper` (`none` is
-1).  `jsmn.h` lines 54-58. -/
structure St where
  toks : List Tok
  super : Option Nat
deriving DecidableEq, Repr

/-- Results.  `undef`: an access to a token that was not allocated.  `hang`: the step bound of
the model was used up.  The outcomes of `jsmn.c` lines 151-303; the error codes are
`jsmn.h` lines 25-32. -/
inductive Res
  | ok (count : Nat) (toks : List Tok)
  | nomem
  | inval
  | part
  | undef
  | hang
deriving DecidableEq, Repr

/-- `tokens[i].size++`; `none` if there is no such token.  `jsmn.c` lines 180-182,
246-247 and 285-286. -/
def bumpAt (toks : List Tok) (i : Nat) : Option (List Tok) :=
  match toks[i]? with
  | none => none
  | some t => some (toks.set i { t with size := t.size + 1 })

/-- `if (toksuper != -1) tokens[toksuper].size++`, `jsmn.c` lines 180-182, 246-247, 285-286. -/
def bump (st : St) : Option (List Tok) :=
  match st.super with
  | none => some st.toks
  | some i => bumpAt st.toks i

/-- An object or array whose end has not been seen: `start != -1 && end == -1`.
`jsmn.c` lines 192-238 and 297-301. -/
def isOpen (t : Tok) : Bool := t.fin.isNone

/-- `for (i = n - 1; i >= 0; i--)` up to the first token with `p`.  The loops of
`jsmn.c` lines 192-238 and 253-270. -/
def findDown (p : Tok → Bool) (toks : List Tok) : Nat → Option Nat
  | 0 => none
  | n + 1 =>
    match toks[n]? with
    | none => findDown p toks n
    | some t => if p t then some n else findDown p toks n

/-- The characters at which a primitive ends, `jsmn.c` lines 44-50. -/
def primEnd (c : Nat) : Bool :=
  c == 58 || c == 9 || c == 13 || c == 10 || c == 32 || c == 44 || c == 93 || c == 125

/-- The loop of `jsmn_parse_primitive`, `jsmn.c` lines 42-56: the number of characters of the
primitive, `none` for `JSMN_ERROR_INVAL`. -/
def primLen : List Nat → Option Nat
  | [] => some 0
  | c :: rest =>
    if c = 0 then some 0
    else if primEnd c then some 0
    else if c < 32 ∨ c ≥ 127 then none
    else (primLen rest).map (· + 1)

/-- Hexadecimal digits, `jsmn.c` lines 122-124. -/
def isHex (c : Nat) : Bool := (48 ≤ c && c ≤ 57) || (65 ≤ c && c ≤ 70) || (97 ≤ c && c ≤ 102)

/-- The loop for the digits of `\uXXXX`, `jsmn.c` lines 120-130: how many characters it takes, at most
`k`; `none` for a character that is no digit. -/
def hexRun : Nat → List Nat → Option Nat
  | 0, _ => some 0
  | _ + 1, [] => some 0
  | k + 1, c :: rest =>
    if c = 0 then some 0
    else if isHex c then (hexRun k rest).map (· + 1)
    else none

/-- Characters that may follow a backslash, `jsmn.c` lines 115-116. -/
def isEsc (c : Nat) : Bool :=
  c == 34 || c == 47 || c == 92 || c == 98 || c == 102 || c == 114 || c == 110 || c == 116

/-- The loop of `jsmn_parse_string`, `jsmn.c` lines 92-143, behind the opening quote: the number of
characters before the closing quote, or the error. -/
def strLen : Nat → List Nat → Except Res Nat
  | 0, _ => .error .hang
  | _ + 1, [] => .error .part
  | f + 1, c :: rest =>
    if c = 0 then .error .part
    else if c = 34 then .ok 0
    else if c = 92 then
      match rest with
      | [] =>
        -- `parser->pos + 1 < len` is false: an ordinary character, then the end of the text
        .error .part
      | e :: rest' =>
        if isEsc e then
          match strLen f rest' with
          | .ok n => .ok (n + 2)
          | .error r => .error r
        else if e = 117 then
          match hexRun 4 rest' with
          | none => .error .inval
          | some k =>
            match strLen f (rest'.drop k) with
            | .ok n => .ok (n + 2 + k)
            | .error r => .error r
        else .error .inval
    else
      match strLen f rest with
      | .ok n => .ok (n + 1)
      | .error r => .error r

/-- A token is added if there is room (`jsmn_alloc_token`, `jsmn.c` lines 6-20, and
`jsmn_fill_token`). -/
def alloc (num : Nat) (toks : List Tok) (t : Tok) : Option (List Tok) :=
  if toks.length ≥ num then none else some (toks ++ [t])

/-- `{` and `[`, `jsmn.c` lines 162-191.  The counter of the parent is incremented after the
allocation; the parent is an older token. -/
def opening (num pos : Nat) (ty : Ty) (st : St) : Except Res St :=
  if st.toks.length ≥ num then .error .nomem
  else
    match bump st with
    | none => .error .undef
    | some ts =>
      .ok { toks := ts ++ [{ ty := ty, start := pos, fin := none, size := 0 }]
            super := some ts.length }

/-- `}` and `]`, `jsmn.c` lines 192-238. -/
def closing (pos : Nat) (ty : Ty) (st : St) : Except Res St :=
  match findDown isOpen st.toks st.toks.length with
  | none => .error .inval
  | some i =>
    match st.toks[i]? with
    | none => .error .undef
    | some t =>
      if t.ty ≠ ty then .error .inval
      else
        let ts := st.toks.set i { t with fin := some (pos + 1) }
        .ok { toks := ts, super := findDown isOpen ts (i + 1) }

/-- A string or primitive has been recognised: token, then the counter of the parent, `jsmn.c` lines
62-76, 98-110, 242-247 and 281-286. -/
def scalar (num : Nat) (t : Tok) (st : St) : Except Res St :=
  match alloc num st.toks t with
  | none => .error .nomem
  | some ts =>
    match bump { st with toks := ts } with
    | none => .error .undef
    | some ts' => .ok { st with toks := ts' }

/-- `:`, `jsmn.c` line 251: `toksuper = toknext - 1`. -/
def colon (st : St) : St :=
  { st with super := if st.toks.length = 0 then none else some (st.toks.length - 1) }

/-- `jsmn.c` lines 253-270. -/
def isContainer (t : Tok) : Bool := t.ty == .array || t.ty == .object

/-- `,`, `jsmn.c` lines 253-270. -/
def comma (st : St) : Except Res St :=
  match st.super with
  | none => .ok st
  | some s =>
    match st.toks[s]? with
    | none => .error .undef
    | some t =>
      if isContainer t then .ok st
      else
        match findDown (fun u => isContainer u && isOpen u) st.toks st.toks.length with
        | none => .ok st
        | some i => .ok { st with super := some i }

/-- The main loop of `jsmn_parse`, `jsmn.c` lines 158-295: `rest` is the text from `pos` on. -/
def loop (num : Nat) : Nat → Nat → List Nat → St → Except Res St
  | 0, _, _, _ => .error .hang
  | _ + 1, _, [], st => .ok st
  | f + 1, pos, c :: rest, st =>
    if c = 0 then .ok st
    else if c = 123 ∨ c = 91 then
      match opening num pos (if c = 123 then .object else .array) st with
      | .error r => .error r
      | .ok st => loop num f (pos + 1) rest st
    else if c = 125 ∨ c = 93 then
      match closing pos (if c = 125 then .object else .array) st with
      | .error r => .error r
      | .ok st => loop num f (pos + 1) rest st
    else if c = 34 then
      match strLen (rest.length + 1) rest with
      | .error r => .error r
      | .ok n =>
        match scalar num { ty := .string, start := pos + 1, fin := some (pos + 1 + n), size := 0 } st with
        | .error r => .error r
        | .ok st => loop num f (pos + 1 + n + 1) (rest.drop (n + 1)) st
    else if c = 9 ∨ c = 13 ∨ c = 10 ∨ c = 32 then loop num f (pos + 1) rest st
    else if c = 58 then loop num f (pos + 1) rest (colon st)
    else if c = 44 then
      match comma st with
      | .error r => .error r
      | .ok st => loop num f (pos + 1) rest st
    else
      match primLen (c :: rest) with
      | none => .error .inval
      | some n =>
        -- `pos--` in the function and `pos++` of the loop cancel
        match scalar num { ty := .primitive, start := pos, fin := some (pos + n), size := 0 } st with
        | .error r => .error r
        | .ok st => loop num f (pos + n) ((c :: rest).drop n) st

/-- `jsmn_parse` on a parser fresh from `jsmn_init`, `jsmn.c` lines 151-303 and 309-313.  `count` grows
with every token allocated. -/
def parse (num : Nat) (js : List Nat) : Res :=
  match loop num (js.length + 1) 0 js { toks := [], super := none } with
  | .error r => r
  | .ok st =>
    match findDown isOpen st.toks st.toks.length with
    | some _ => .part
    | none => .ok st.toks.length st.toks

end Verif.Jsmn
