/-!
# The subject names of the sample certification authority

`parse_name` of `example/server/ossl_srv.c` makes an X.509 name from a text like
`/CN=a/O=b+OU=c`.  It copies the parts into one buffer, keeps pointers to them in two arrays and
a flag for each in a third, and then adds them to the name one by one.  Pointers are offsets
into the buffer; writing behind the end of a block, reading a string without an end and reading
a flag that was not set are undefined.
-/
namespace Verif.Subject

/-- How a step goes on: with a value, to the label `error`, undefined, or (never, as is proved) not
at all.  `example/server/ossl_srv.c` lines 1180-1295. -/
inductive Res (α : Type) where
  | ok (a : α)
  | fail
  | ub
  | stuck
deriving DecidableEq, Repr

/-- `*bp++ = c` with `buf` the part of the block of `cap` bytes written so far.
`example/server/ossl_srv.c` lines 1215, 1222, 1225, 1237, 1253 and 1255-1255. -/
def put (cap : Nat) (buf : List Nat) (c : Nat) : Res (List Nat) :=
  if buf.length < cap then .ok (buf ++ [c]) else .ub

/-- The loop that collects a type; the text that is left and the buffer.
`example/server/ossl_srv.c` lines 1211-1226. -/
def typeLoop (cap : Nat) : List Nat → List Nat → Res (List Nat × List Nat)
  | [], buf => .ok ([], buf)
  | c :: sp, buf =>
    if c = 92 then
      match sp with
      | [] => .fail
      | d :: sp =>
        match put cap buf d with
        | .ok buf => typeLoop cap sp buf
        | .fail => .fail
        | .ub => .ub
        | .stuck => .stuck
    else if c = 61 then
      match put cap buf 0 with
      | .ok buf => .ok (sp, buf)
      | .fail => .fail
      | .ub => .ub
      | .stuck => .stuck
    else
      match put cap buf c with
      | .ok buf => typeLoop cap sp buf
      | .fail => .fail
      | .ub => .ub
      | .stuck => .stuck

/-- `mval[ne_num + 1] = b`, where the flags up to `ne_num` are set.  `example/server/ossl_srv.c`
lines 1245 and 1250-1250. -/
def flag (max : Nat) (mval : List Bool) (b : Bool) : Res (List Bool) :=
  if mval.length < max then .ok (mval ++ [b]) else .ub

/-- The loop that collects a value; the text that is left, the buffer and the flags.
`example/server/ossl_srv.c` lines 1234-1254. -/
def valueLoop (multi : Bool) (cap max : Nat) : List Nat → List Nat → List Bool → Res (List Nat × List Nat × List Bool)
  | [], buf, mval => .ok ([], buf, mval)
  | c :: sp, buf, mval =>
    if c = 92 then
      match sp with
      | [] => .fail
      | d :: sp =>
        match put cap buf d with
        | .ok buf => valueLoop multi cap max sp buf mval
        | .fail => .fail
        | .ub => .ub
        | .stuck => .stuck
    else if c = 47 then
      match flag max mval false with
      | .ok mval => .ok (sp, buf, mval)
      | .fail => .fail
      | .ub => .ub
      | .stuck => .stuck
    else if c = 43 && multi then
      match flag max mval true with
      | .ok mval => .ok (sp, buf, mval)
      | .fail => .fail
      | .ub => .ub
      | .stuck => .stuck
    else
      match put cap buf c with
      | .ok buf => valueLoop multi cap max sp buf mval
      | .fail => .fail
      | .ub => .ub
      | .stuck => .stuck

/-- The buffer, the pointers in `ne_types` and `ne_values`, and the flags in `mval` (true for -1).
`example/server/ossl_srv.c` lines 1181-1189. -/
structure St where
  buf : List Nat
  types : List Nat
  values : List Nat
  mval : List Bool
deriving DecidableEq, Repr

/-- The loop over the elements; the first argument bounds the number of rounds and is not in the
program.  `example/server/ossl_srv.c` lines 1208-1257. -/
def loop (multi : Bool) (cap max : Nat) : Nat → List Nat → St → Res St
  | 0, _, _ => .stuck
  | k + 1, sp, s =>
    if sp = [] then .ok s
    else if s.types.length < max then
      match typeLoop cap sp s.buf with
      | .ok (sp1, buf1) =>
        if sp1 = [] then .fail
        else if s.values.length < max then
          match valueLoop multi cap max sp1 buf1 s.mval with
          | .ok (sp2, buf2, mval) =>
            match put cap buf2 0 with
            | .ok buf3 => loop multi cap max k sp2 ⟨buf3, s.types ++ [s.buf.length], s.values ++ [buf1.length], mval⟩
            | .fail => .fail
            | .ub => .ub
            | .stuck => .stuck
          | .fail => .fail
          | .ub => .ub
          | .stuck => .stuck
        else .ub
      | .fail => .fail
      | .ub => .ub
      | .stuck => .stuck
    else .ub

/-- The string that a pointer into the buffer points to; `none` without a zero byte.
`example/server/ossl_srv.c` lines 1263, 1270 and 1278-1278. -/
def strAt (buf : List Nat) (off : Nat) : Option (List Nat) :=
  if 0 ∈ buf.drop off then some ((buf.drop off).takeWhile (· ≠ 0)) else none

/-- A name: a list of relative names, each a list of objects and values.
`example/server/ossl_srv.c` lines 1191 and 1277-1278. -/
abbrev Name := List (List (Nat × List Nat))

/-- `X509_NAME_add_entry_by_NID(n, nid, chtype, v, -1, -1, m)` when it succeeds: with `m` 0 a new
relative name at the end, with -1 a further value of the last one, if there is one.
`example/server/ossl_srv.c` lines 1277-1278. -/
def addEntry (n : Name) (k : Nat) (v : List Nat) (m : Bool) : Name :=
  match m, n.getLast? with
  | true, some r => n.dropLast ++ [r ++ [(k, v)]]
  | _, _ => n ++ [[(k, v)]]

/-- The loop over the elements found; `nid` is `OBJ_txt2nid`, `add` says for which objects and values
OpenSSL takes the value.  `example/server/ossl_srv.c` lines 1262-1280. -/
def build (nid : List Nat → Option Nat) (add : Nat → List Nat → Bool) (buf : List Nat) :
    List Nat → List Nat → List Bool → Name → Res Name
  | [], _, _, n => .ok n
  | t :: ts, v :: vs, m :: ms, n =>
    match strAt buf t, strAt buf v with
    | some t, some v =>
      match nid t with
      | none => build nid add buf ts vs ms n
      | some k =>
        if v = [] then build nid add buf ts vs ms n
        else if add k v then build nid add buf ts vs ms (addEntry n k v m)
        else .fail
    | _, _ => .ub
  | _ :: _, _, _, _ => .ub

/-- The four blocks of memory.  `example/server/ossl_srv.c` lines 1182-1186. -/
inductive Blk where
  | buf | types | values | mval
deriving DecidableEq, Repr

/-- Which blocks there is memory for, and for the name.  `example/server/ossl_srv.c` lines 1182-1186
and 1259-1259. -/
structure Mem where
  buf : Bool := true
  types : Bool := true
  values : Bool := true
  mval : Bool := true
  name : Bool := true
deriving DecidableEq, Repr

/-- The blocks there are.  `example/server/ossl_srv.c` lines 1182-1186. -/
def Mem.has (m : Mem) : Blk → Bool
  | .buf => m.buf
  | .types => m.types
  | .values => m.values
  | .mval => m.mval

/-- What comes out: the name, or `NULL`, and the blocks freed on the way.
`example/server/ossl_srv.c` lines 1282-1294. -/
inductive Out where
  | ret (n : Option Name) (freed : List Blk)
  | ub
  | stuck
deriving DecidableEq, Repr

/-- The label `error`.  `example/server/ossl_srv.c` lines 1287-1294. -/
def error (m : Mem) : Out :=
  .ret none ((if m.values then [.values] else []) ++ (if m.types then [.types] else []) ++ (if m.buf then [.buf] else []))

/-- `parse_name(subject, chtype, multirdn)`.  What is printed is left out.
`example/server/ossl_srv.c` lines 1180-1295. -/
def parseName (m : Mem) (multi : Bool) (nid : List Nat → Option Nat) (add : Nat → List Nat → Bool) (subject : List Nat) : Out :=
  if !m.buf || !m.types || !m.values then error m
  else
    match subject with
    | [] => error m
    | c :: sp =>
      if c ≠ 47 then error m
      else if !m.mval then .ub
      else
        match loop multi (subject.length + 1) ((subject.length + 1) / 2 + 1) subject.length sp ⟨[], [], [], [false]⟩ with
        | .ok s =>
          if !m.name then error m
          else
            match build nid add s.buf s.types s.values s.mval [] with
            | .ok n => .ret (some n) [.values, .types, .buf]
            | .fail => error m
            | .ub => .ub
            | .stuck => .stuck
        | .fail => error m
        | .ub => .ub
        | .stuck => .stuck

end Verif.Subject
