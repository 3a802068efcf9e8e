import Verif.SampleArgsModel

/-!
# Taking a command line apart

`getopt_long` of `example/windows_util/getopt_long.c`, which the sample programs use on Windows
(on other systems they use that of the C library), and the loop of the sample client that calls it.

The command line is a list of strings without null bytes, the first of which is the name of the
program; behind the last there is a null pointer, and reading behind that is undefined.  The static
variables are in the state.  What is printed is left out.
-/
namespace Verif.GetOpt
open Verif.SampleArgs (Arg)

/-- `no_argument`, `required_argument` and `optional_argument`.  `getopt_long.c` lines 202-209. -/
inductive Has where
  | no | required | optional
deriving DecidableEq, Repr

/-- An entry of the table of long options; `flag` and `val` are 0 in all entries of the sample client.
`getopt_long.c` lines 190-231, `estclient.c` lines 1110-1128. -/
structure Entry where
  name : List Nat
  has : Has
deriving DecidableEq, Repr

/-- The static variables: `optind`, the rest of the word that `place` points to, `optarg` and the index
that is stored through a pointer.  `getopt_long.c` lines 40-44, 82 and 232-233. -/
structure St where
  optind : Nat := 1
  place : List Nat := []
  optarg : Option (List Nat) := none
  index : Nat := 0
deriving DecidableEq, Repr

/-- What a call returns and leaves behind, or something undefined.  `getopt_long.c` lines 162-236. -/
inductive Got where
  | ret (r : Int) (s : St)
  | ub
deriving DecidableEq, Repr

/-- `nargv[i]`: a string, the null pointer behind the last, or (`none`) undefined.
`getopt_long.c` lines 90, 130, 178 and 207-207. -/
def read (argv : List (List Nat)) (i : Nat) : Option (Option (List Nat)) :=
  if i ≤ argv.length then some argv[i]? else none

/-- `strchr(ostr, c)` and the character behind: `none` if there is no such letter, else whether it needs
an argument.  `getopt_long.c` lines 101 and 115-115. -/
def needs (ostr : List Nat) (c : Nat) : Option Bool :=
  match ostr.dropWhile (· ≠ c) with
  | [] => none
  | _ :: r => some (r.head? = some 58)

/-- The part of `getopt_internal` from the letter on.  With nothing left `strchr` finds the end of
`ostr`, and the character behind it is read.  `getopt_long.c` lines 100-134. -/
def letter (argv : List (List Nat)) (ostr : List Nat) (s : St) : Got :=
  match s.place with
  | [] => .ub
  | c :: rest =>
    match (if c = 58 then none else needs ostr c) with
    | none =>
      if c = 45 then .ret (-1) { s with place := rest }
      else .ret 63 { s with place := rest, optind := if rest = [] then s.optind + 1 else s.optind }
    | some false =>
      .ret c { s with place := rest, optarg := none, optind := if rest = [] then s.optind + 1 else s.optind }
    | some true =>
      if rest ≠ [] then .ret c { s with place := [], optarg := some rest, optind := s.optind + 1 }
      else if argv.length ≤ s.optind + 1 then .ret 58 { s with place := [], optind := s.optind + 1 }
      else
        match read argv (s.optind + 1) with
        | some v => .ret c { s with place := [], optarg := v, optind := s.optind + 2 }
        | none => .ub

/-- `getopt_internal`, `getopt_long.c` lines 77-135.  `optreset` is left out: the scan starts with an
empty word. -/
def internal (argv : List (List Nat)) (ostr : List Nat) (s : St) : Got :=
  if s.place = [] then
    if argv.length ≤ s.optind then .ret (-1) s
    else
      match read argv s.optind with
      | some (some w) =>
        if w.head? ≠ some 45 then .ret (-1) s
        else
          match w.tail with
          | [] => letter argv ostr { s with place := w }
          | d :: r => if d = 45 then .ret (-2) s else letter argv ostr { s with place := d :: r }
      | _ => .ub
  else letter argv ostr s

/-- The loop over the table; `n` is the text up to an equals sign, the number that of the entry, the last
argument `match`.  `getopt_long.c` lines 190-200. -/
def search (n : List Nat) : List Entry → Nat → Option Nat → Option Nat
  | [], _, m => m
  | e :: es, i, m =>
    if n.isPrefixOf e.name then
      if e.name.length = n.length then some i
      else search n es (i + 1) (if m = none then some i else m)
    else search n es (i + 1) m

/-- The text behind an equals sign, if there is one.  `getopt_long.c` lines 184-188. -/
def hasEqual (w : List Nat) : Option (List Nat) :=
  match w.dropWhile (· ≠ 61) with
  | [] => none
  | _ :: v => some v

/-- `getopt_long`, `getopt_long.c` lines 162-236. -/
def getoptLong (argv : List (List Nat)) (ostr : List Nat) (table : List Entry) (s : St) : Got :=
  match internal argv ostr s with
  | .ub => .ub
  | .ret r s =>
    if r ≠ -2 then .ret r s
    else
      match read argv s.optind with
      | some (some w) =>
        let cur := w.drop 2
        let s := { s with optind := s.optind + 1 }
        if cur = [] then .ret (-1) s
        else
          match search (cur.takeWhile (· ≠ 61)) table 0 none with
          | none => .ret 63 s
          | some i =>
            match table[i]? with
            | none => .ub
            | some e =>
              if e.has = .no then .ret 0 { s with index := i }
              else
                match (match hasEqual cur with
                  | some v => some (some v, s.optind)
                  | none => (read argv s.optind).map fun v => (v, s.optind + 1)) with
                | none => .ub
                | some (v, n) =>
                  if e.has = .required ∧ v = none then .ret 58 { s with optarg := v, optind := n }
                  else .ret 0 { s with optarg := v, optind := n, index := i }
      | _ => .ub

/-- What the `switch` of the sample client sees: a long option with its number and its argument, if it is
one that has an argument; a letter and its argument; or something for which the usage is shown.
`estclient.c` lines 1147-1320. -/
inductive Event where
  | long (i : Nat) (v : Option (List Nat))
  | letter (c : Nat) (v : Option (List Nat))
  | bad
deriving DecidableEq, Repr

/-- The `switch`, as far as it only looks at the result; `estclient.c` lines 1148-1149 and 1317-1319. -/
def event (table : List Entry) (r : Int) (s : St) : Event :=
  if r = 0 then .long s.index (match table[s.index]? with | some ⟨_, .no⟩ => none | _ => s.optarg)
  else if r = 63 ∨ r = 58 then .bad
  else .letter r.toNat s.optarg

/-- What the loop comes to: the events and the words that are left, or something undefined, or (as is
proved, never) no end.  `estclient.c` lines 1147-1328. -/
inductive Out where
  | ok (es : List Event) (rest : List (List Nat))
  | ub
  | stuck
deriving DecidableEq, Repr

/-- One more event in front.  `estclient.c` lines 1147-1320. -/
def Out.push (e : Event) : Out → Out
  | .ok es rest => .ok (e :: es) rest
  | .ub => .ub
  | .stuck => .stuck

/-- The loop of the sample client, which leaves the process at the first thing that is bad (then no words are left); the number
bounds the rounds and is not in the program.  `estclient.c` lines 1147-1321. -/
def loop (argv : List (List Nat)) (ostr : List Nat) (table : List Entry) : Nat → St → Out
  | 0, _ => .stuck
  | k + 1, s =>
    match getoptLong argv ostr table s with
    | .ub => .ub
    | .ret r s =>
      if r = -1 then .ok [] (argv.drop s.optind)
      else
        match event table r s with
        | .bad => .ok [.bad] []
        | e => (loop argv ostr table k s).push e

/-- The whole loop.  `estclient.c` lines 1147-1328. -/
def parse (argv : List (List Nat)) (ostr : List Nat) (table : List Entry) : Out :=
  loop argv ostr table ((argv.map fun w => w.length + 1).sum + 1) {}

/-- The letters of the sample client.  `estclient.c` lines 1147-1147. -/
def clientLetters : List Nat := [63, 122, 102, 118, 97, 113, 103, 101, 114, 120, 58, 121, 58, 107, 58, 115, 58, 112, 58, 111, 58, 99, 58, 116, 58, 119, 58, 105, 58, 117, 58, 104, 58]

/-- The long options of the sample client.  `estclient.c` lines 1110-1128. -/
def clientNames : List (SampleArgs.Name × Has) :=
  [(.trustanchor, .required), (.srp, .no), (.srpUser, .required), (.srpPassword, .required), (.authToken, .required),
   (.commonName, .required), (.pemOutput, .no), (.pathSeg, .required), (.keypassStdin, .required), (.keypassArg, .required),
   (.proxyServer, .required), (.proxyPort, .required), (.proxyProto, .required), (.proxyAuth, .required),
   (.proxyUsername, .required), (.proxyPassword, .required)]

/-- The same as a table.  `estclient.c` lines 1110-1128. -/
def clientTable : List Entry := clientNames.map fun p => ⟨p.1.text, p.2⟩

/-- An event as an option of the model of the rest of `main`.  `estclient.c` lines 1148-1320. -/
def toArg : Event → Arg
  | .long i v =>
    match clientNames[i]? with
    | some (n, _) => .long n (v.getD [])
    | none => .other
  | .letter c v => .short (Char.ofNat c) (v.getD [])
  | .bad => .other

/-- The sample client from its command line.  `estclient.c` lines 1095-1571. -/
def client (e : SampleArgs.Env) (argv : List (List Nat)) : Option SampleArgs.Out :=
  match parse argv clientLetters clientTable with
  | .ok es _ => some (SampleArgs.main e (es.map toArg))
  | .ub => some .ub
  | .stuck => none

end Verif.GetOpt
