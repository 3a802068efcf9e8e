/-!
# Model of the server's URL decoding and path normalisation

Source: `/repo/src/est/est_server_http.c` lines 703-733 (`url_decode`), 761-783
(`remove_double_dots_and_double_slashes`) and 1263-1275 (`handle_request`).

Characters are byte values.  Both functions work in place in the code; the write
position never passes the read position, so a functional model gives the same
bytes.
-/
namespace Verif.Url

/-- C `isdigit` in the C locale.  Used by HEXTOI, `est_server_http.c` line 713. -/
def isDigit (c : Nat) : Bool := 48 ≤ c && c ≤ 57

/-- C `isxdigit` in the C locale.  Called at `est_server_http.c` lines 717-718. -/
def isXDigit (c : Nat) : Bool := isDigit c || (65 ≤ c && c ≤ 70) || (97 ≤ c && c ≤ 102)

/-- C `tolower` in the C locale.  Called at `est_server_http.c` lines 719-720. -/
def toLower (c : Nat) : Nat := if 65 ≤ c ∧ c ≤ 90 then c + 32 else c

/-- `HEXTOI(tolower(x))`, `est_server_http.c` lines 713, 719-721 (`'W'` is 87). -/
def hexToI (x : Nat) : Nat :=
  let a := toLower x
  if isDigit a then a - 48 else a - 87

/-- The loop of `url_decode`, `est_server_http.c` lines 715-728.

* `src`: the readable memory from `src + i` on (the terminating NUL included);
* `n`: `src_len - i`, 0 if `i >= src_len`;
* `room`: `dst_len - 1 - j`.

Result: the bytes stored, and whether the loop ended with `i >= src_len`.
`none` is an out-of-bounds read. -/
def decodeLoop (form : Bool) : (room : Nat) → (src : List Nat) → (n : Nat) →
    Option (List Nat × Bool)
  | _, _, 0 => some ([], true)
  | 0, _, _ + 1 => some ([], false)
  | _ + 1, [], _ + 1 => none
  | room + 1, c :: rest, n + 1 =>
    let emit (x : Nat) (r : Option (List Nat × Bool)) :=
      r.map (fun p => (x :: p.1, p.2))
    let plain := emit (if form && c == 43 then 32 else c) (decodeLoop form room rest n)
    if c = 37 then
      match rest with
      | [] => none
      | a :: rest' =>
        if isXDigit a then
          match rest' with
          | [] => none
          | b :: rest'' =>
            if isXDigit b then
              emit ((hexToI a <<< 4) ||| hexToI b) (decodeLoop form room rest'' (n - 2))
            else plain
        else plain
    else plain

/-- `url_decode (src, src_len, dst, dst_len, is_form_url_encoded)`, `est_server_http.c` lines
708-733.  Result: the bytes stored before the NUL and the return value.  `none`
is undefined behaviour (read outside `src`, or `dst_len <= 0` in which case line
730 stores outside `dst`). -/
def urlDecode (src : List Nat) (srcLen dstLen : Nat) (form : Bool) :
    Option (List Nat × Int) :=
  if dstLen = 0 then none
  else
    (decodeLoop form (dstLen - 1) src srcLen).map fun p =>
      (p.1, if p.2 then (p.1.length : Int) else -1)

/-- `s[0] == '/' || s[0] == '\\'`, `est_server_http.c` lines 769 and 772. -/
def isSep (c : Nat) : Bool := c == 47 || c == 92

/-- Inner loop, `est_server_http.c` lines 771-779: skip separators and double dots.  At the end of
the string `s[1]` is the NUL. -/
def skipSeps : List Nat → List Nat
  | [] => []
  | c :: rest =>
    if isSep c then skipSeps rest
    else if c = 46 then
      match rest with
      | [] => [c]
      | d :: rest' => if d = 46 then skipSeps rest' else c :: d :: rest'
    else c :: rest

theorem skipSeps_length (l : List Nat) : (skipSeps l).length ≤ l.length := by
  fun_induction skipSeps l <;> simp_all <;> omega

/-- `remove_double_dots_and_double_slashes`, `est_server_http.c` lines 763-783. -/
def removeDots : List Nat → List Nat
  | [] => []
  | c :: rest =>
    if isSep c then c :: removeDots (skipSeps rest) else c :: removeDots rest
termination_by l => l.length
decreasing_by
  · have := skipSeps_length rest; simp; omega
  · simp

/-- The C string stored in a buffer: everything before the first NUL.  The NUL is stored
at `est_server_http.c` line 730. -/
def cstr (l : List Nat) : List Nat := l.takeWhile (· ≠ 0)

/-- `EST_URI_MAX_LEN`, `est_locl.h`: 16 + 2*128.  `est_locl.h` lines 64-66 and `est.h`
(EST_MAX_PATH_SEGMENT_LEN); used at `est_server_http.c` line 1272. -/
def uriMaxLen : Nat := 272

/-- The treatment of the request URI in `handle_request`, `est_server_http.c` lines 1269-1274: cut at
the first `?`, decode in place at most `EST_URI_MAX_LEN` characters, then
normalise.  `uri` is the URI text from the request line (no NUL inside). -/
def requestPath (uri : List Nat) : Option (List Nat) :=
  let u := uri.takeWhile (· ≠ 63)
  let len := min u.length uriMaxLen
  (urlDecode (u ++ [0]) len (len + 1) false).map fun p => removeDots (cstr p.1)

end Verif.Url
