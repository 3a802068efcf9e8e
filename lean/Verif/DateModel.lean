import Verif.HostModel
import Verif.ClientRespModel

/-!
# Dates in the header Retry-After

`parsedate` of `src/est/est_client_http.c`, which is compiled only if
`RETRY_AFTER_DELAY_TIME_SUPPORT` is defined, with the functions it calls, and the use made of it.

A text is a list of bytes without a null byte; behind it there is one.  The pointer into it is
what is left of the text, with the byte before.  Moving the pointer behind the null byte is
undefined, as the byte there is read next.  Letters and digits are those of ASCII.
-/
namespace Verif.Date
open Verif.ClientResp (numVal isDigit)
open Verif.HttpHdr (Hdr caseEq isSpace)

/-- `ISALPHA`, `src/est/est_client_http.c` lines 89-89. -/
def isAlpha (c : Nat) : Bool := (65 ≤ c && c ≤ 90) || (97 ≤ c && c ≤ 122)

/-- `ISALNUM`, `src/est/est_client_http.c` lines 86-86. -/
def isAlnum (c : Nat) : Bool := isAlpha c || isDigit c

/-- `Curl_wkday`, `src/est/est_client_http.c` lines 150-151. -/
def shortDays : List (List Nat) := [[77, 111, 110], [84, 117, 101], [87, 101, 100], [84, 104, 117], [70, 114, 105], [83, 97, 116], [83, 117, 110]]

/-- `weekday`, `src/est/est_client_http.c` lines 152-154. -/
def longDays : List (List Nat) :=
  [[77, 111, 110, 100, 97, 121], [84, 117, 101, 115, 100, 97, 121], [87, 101, 100, 110, 101, 115, 100, 97, 121], [84, 104, 117, 114, 115, 100, 97, 121], [70, 114, 105, 100, 97, 121], [83, 97, 116, 117, 114, 100, 97, 121], [83, 117, 110, 100, 97, 121]]

/-- `Curl_month`, `src/est/est_client_http.c` lines 155-157. -/
def months : List (List Nat) :=
  [[74, 97, 110], [70, 101, 98], [77, 97, 114], [65, 112, 114], [77, 97, 121], [74, 117, 110], [74, 117, 108], [65, 117, 103], [83, 101, 112], [79, 99, 116], [78, 111, 118], [68, 101, 99]]

/-- `tz`: the names of time zones with the minutes that are added.  `src/est/est_client_http.c` lines
187-262. -/
def zones : List (List Nat × Int) :=
  [([71, 77, 84], 0), ([85, 84, 67], 0), ([87, 69, 84], 0), ([66, 83, 84], -60), ([87, 65, 84], 60), ([65, 83, 84], 240), ([65, 68, 84], 180),
   ([69, 83, 84], 300), ([69, 68, 84], 240), ([67, 83, 84], 360), ([67, 68, 84], 300), ([77, 83, 84], 420), ([77, 68, 84], 360),
   ([80, 83, 84], 480), ([80, 68, 84], 420), ([89, 83, 84], 540), ([89, 68, 84], 480), ([72, 83, 84], 600), ([72, 68, 84], 540),
   ([67, 65, 84], 600), ([65, 72, 83, 84], 600), ([78, 84], 660), ([73, 68, 76, 87], 720), ([67, 69, 84], -60), ([77, 69, 84], -60),
   ([77, 69, 87, 84], -60), ([77, 69, 83, 84], -120), ([67, 69, 83, 84], -120), ([77, 69, 83, 90], -120), ([70, 87, 84], -60), ([70, 83, 84], -120),
   ([69, 69, 84], -120), ([87, 65, 83, 84], -420), ([87, 65, 68, 84], -480), ([67, 67, 84], -480), ([74, 83, 84], -540), ([69, 65, 83, 84], -600),
   ([69, 65, 68, 84], -660), ([71, 83, 84], -600), ([78, 90, 84], -720), ([78, 90, 83, 84], -720), ([78, 90, 68, 84], -780), ([73, 68, 76, 69], -720),
   ([65], 60), ([66], 120), ([67], 180), ([68], 240), ([69], 300), ([70], 360), ([71], 420),
   ([72], 480), ([73], 540), ([75], 600), ([76], 660), ([77], 720), ([78], -60), ([79], -120),
   ([80], -180), ([81], -240), ([82], -300), ([83], -360), ([84], -420), ([85], -480), ([86], -540),
   ([87], -600), ([88], -660), ([89], -720), ([90], 0)]

/-- The place of a word in a table, in either case, or -1.  The loops of `src/est/est_client_http.c`
lines 278-285 and 295-302. -/
def find (table : List (List Nat)) (w : List Nat) : Int :=
  match table.findIdx? (fun x => Host.rawEqual w x) with
  | some i => i
  | none => -1

/-- `checkday`, `src/est/est_client_http.c` lines 269-286. -/
def checkday (w : List Nat) : Int := if w.length > 3 then find longDays w else find shortDays w

/-- `checkmonth`, `src/est/est_client_http.c` lines 288-303. -/
def checkmonth (w : List Nat) : Int := find months w

/-- `checktz`, `src/est/est_client_http.c` lines 308-323. -/
def checktz (w : List Nat) : Int :=
  match zones.find? (fun x => Host.rawEqual w x.1) with
  | some x => x.2 * 60
  | none => -1

/-- What a number is taken for next; `DATE_TIME` is never used.  `src/est/est_client_http.c` lines
332-336. -/
inductive Dig where
  | mday | year
deriving DecidableEq, Repr

/-- The variables of `parsedate`: the byte before the pointer (none at the start), the text from the
pointer on, and the numbers found.  `src/est/est_client_http.c` lines 398-410. -/
structure St where
  prev : Option Nat := none
  rest : List Nat
  wday : Int := -1
  mon : Int := -1
  mday : Int := -1
  hour : Int := -1
  min : Int := -1
  sec : Int := -1
  year : Int := -1
  tz : Int := -1
  dig : Dig := .mday
deriving DecidableEq, Repr

/-- How a step goes on: with a value, with `PARSEDATE_FAIL`, or undefined.
`src/est/est_client_http.c` lines 412-544. -/
inductive Res (α : Type) where
  | ok (a : α)
  | fail
  | ub
deriving DecidableEq, Repr

/-- `skip_over_white`, `src/est/est_client_http.c` lines 325-330. -/
def skip : Option Nat → List Nat → Option Nat × List Nat
  | p, [] => (p, [])
  | p, c :: r => if isAlnum c then (p, c :: r) else skip (some c) r

/-- `date += n`.  `src/est/est_client_http.c` lines 446, 455, 460 and 539-539. -/
def advance (n : Nat) (s : St) : Res St :=
  if n ≤ s.rest.length then .ok { s with prev := if n = 0 then s.prev else s.rest[n - 1]?, rest := s.rest.drop n }
  else .ub

/-- The letters that `sscanf` stores, at most 31.  `src/est/est_client_http.c` lines 419-423. -/
def word (r : List Nat) : List Nat := (r.takeWhile isAlpha).take 31

/-- What a name is taken for.  `src/est/est_client_http.c` lines 425-444. -/
def name (w : List Nat) (s : St) : Option St :=
  if s.wday = -1 ∧ checkday w ≠ -1 then some { s with wday := checkday w }
  else if s.mon = -1 ∧ checkmonth w ≠ -1 then some { s with mon := checkmonth w }
  else if s.tz = -1 ∧ checktz w ≠ -1 then some { s with tz := checktz w }
  else none

/-- `%02d` of `sscanf`: white space, then at most two characters, the first of which may be a sign.
`src/est/est_client_http.c` lines 453 and 458-458. -/
def scan2 (t : List Nat) : Option (Int × List Nat) :=
  match t.dropWhile isSpace with
  | 45 :: r => match (r.takeWhile isDigit).take 1 with
    | [] => none
    | ds => some (-(numVal ds : Int), r.drop ds.length)
  | 43 :: r => match (r.takeWhile isDigit).take 1 with
    | [] => none
    | ds => some ((numVal ds : Int), r.drop ds.length)
  | r => match (r.takeWhile isDigit).take 2 with
    | [] => none
    | ds => some ((numVal ds : Int), r.drop ds.length)

/-- A colon.  `src/est/est_client_http.c` lines 453 and 458-458. -/
def colon : List Nat → Option (List Nat)
  | 58 :: r => some r
  | _ => none

/-- `sscanf(date, "%02d:%02d:%02d", …)`: how many numbers are stored, and the variables then; the second
call at line 458 finds the first two of them again.  `src/est/est_client_http.c` lines 453-458. -/
def scanTime (t : List Nat) (h m x : Int) : Nat × Int × Int × Int :=
  match scan2 t with
  | none => (0, h, m, x)
  | some (h, r) =>
    match (colon r).bind scan2 with
    | none => (1, h, m, x)
    | some (m, r) =>
      match (colon r).bind scan2 with
      | none => (2, h, m, x)
      | some (x, _) => (3, h, m, x)

/-- A number taken for the year, if it can be.  `src/est/est_client_http.c` lines 523-537. -/
def yearPart (val : Int) (s : St) : Option St :=
  if s.dig = .year ∧ s.year = -1 then
    some { s with year := if val < 1900 then (if val > 70 then val + 1900 else val + 2000) else val,
                  dig := if s.mday = -1 then .mday else s.dig }
  else none

/-- What a number with the value `val` and `n` digits is taken for.  `src/est/est_client_http.c` lines
483-537. -/
def number (val : Int) (n : Nat) (s : St) : Option St :=
  if s.tz = -1 ∧ n = 4 ∧ val ≤ 1400 ∧ (s.prev = some 43 ∨ s.prev = some 45) then
    some { s with tz := if s.prev = some 43 then -((val / 100 * 60 + val % 100) * 60) else (val / 100 * 60 + val % 100) * 60 }
  else if n = 8 ∧ s.year = -1 ∧ s.mon = -1 ∧ s.mday = -1 then
    some { s with year := val / 10000, mon := val % 10000 / 100 - 1, mday := val % 100 }
  else if s.dig = .mday ∧ s.mday = -1 then
    if 0 < val ∧ val < 32 then some { s with mday := val, dig := .year }
    else yearPart val { s with dig := .year }
  else yearPart val s

/-- A number that is no time; too large ones fail (`long` has 64 bits, `ERRNO` is `errno`).
`src/est/est_client_http.c` lines 463-540. -/
def digits (s : St) : Res St :=
  let ds := s.rest.takeWhile isDigit
  if numVal ds > 2147483647 then .fail
  else
    match number (numVal ds) ds.length s with
    | none => .fail
    | some s => advance ds.length s

/-- One round of the loop.  `src/est/est_client_http.c` lines 413-543. -/
def step (s : St) : Res St :=
  let q := skip s.prev s.rest
  let s := { s with prev := q.1, rest := q.2 }
  match s.rest with
  | [] => .ok s
  | c :: _ =>
    if isAlpha c then
      match name (word s.rest) s with
      | none => .fail
      | some s => advance (word s.rest).length s
    else if s.sec = -1 then
      let q := scanTime s.rest s.hour s.min s.sec
      if q.1 = 3 then advance 8 { s with hour := q.2.1, min := q.2.2.1, sec := q.2.2.2 }
      else if q.1 = 2 then advance 5 { s with hour := q.2.1, min := q.2.2.1, sec := 0 }
      else digits { s with hour := q.2.1, min := q.2.2.1 }
    else digits s

/-- The loop, with the number of parts that may still come.  `src/est/est_client_http.c` lines 412-544. -/
def loop : Nat → St → Res St
  | 0, s => .ok s
  | k + 1, s =>
    if s.rest = [] then .ok s
    else
      match step s with
      | .ok s => loop k s
      | .fail => .fail
      | .ub => .ub

/-- `month_days_cumulative`, `src/est/est_client_http.c` lines 356-357. -/
def cumulative : List Int := [0, 31, 59, 90, 120, 151, 181, 212, 243, 273, 304, 334]

/-- `my_timegm`, `src/est/est_client_http.c` lines 354-383, without limits on the numbers.  What is divided is never
negative. -/
def timegm (sec min hour mday mon tyear : Int) : Int :=
  if tyear < 70 then -1
  else
    let p : Int × Int :=
      if mon < 0 then (tyear + 1900 + (11 - mon) / 12, 11 - (11 - mon) % 12)
      else if mon ≥ 12 then (tyear + 1900 - mon / 12, mon % 12)
      else (tyear + 1900, mon)
    let l := p.1 - (if mon ≤ 1 then 1 else 0)
    let leap := l / 4 - l / 100 + l / 400 - 1969 / 4 + 1969 / 100 - 1969 / 400
    ((((p.1 - 1970) * 365 + leap + (cumulative[p.2.toNat]?).getD 0 + mday - 1) * 24 + hour) * 60 + min) * 60 + sec

/-- The result: `PARSEDATE_OK` with the time, `PARSEDATE_FAIL`, `PARSEDATE_LATER` (which stores
0x7fffffff) and `PARSEDATE_SOONER` (which stores 0), or undefined.  `src/est/est_client_http.c` lines
177-180. -/
inductive Out where
  | ok (t : Int)
  | fail
  | later
  | sooner
  | ub
deriving DecidableEq, Repr

/-- What follows the loop.  `narrow`: `SIZEOF_TIME_T < 5`, which is so for the preprocessor if the name is
not defined, as in this library.  `src/est/est_client_http.c` lines 546-602. -/
def finish (narrow : Bool) (s : St) : Out :=
  let s := if s.sec = -1 then { s with sec := 0, min := 0, hour := 0 } else s
  if s.mday = -1 ∨ s.mon = -1 ∨ s.year = -1 then .fail
  else if narrow ∧ s.year > 2037 then .later
  else if s.year < 1970 then .sooner
  else if s.mday > 31 ∨ s.mon > 11 ∨ s.hour > 23 ∨ s.min > 59 ∨ s.sec > 60 then .fail
  else
    let t := timegm s.sec s.min s.hour s.mday s.mon (s.year - 1900)
    if t % 4294967296 = 4294967295 then .ok t
    else .ok (t + if s.tz ≠ -1 then s.tz else 0)

/-- `parsedate`, `src/est/est_client_http.c` lines 396-603. -/
def parsedate (narrow : Bool) (text : List Nat) : Out :=
  match loop 6 { rest := text } with
  | .ok s => finish narrow s
  | .fail => .fail
  | .ub => .ub

/-- The result, the delay and the date in the context.  `src/est/est_client_http.c` lines 1331-1342. -/
structure Retry where
  rv : EstErr := .invalidRetryValue
  delay : Nat := 0
  date : Int := 0
deriving DecidableEq, Repr

/-- The loop over the headers with support for dates; none is undefined.  `src/est/est_client_http.c` lines
1344-1394. -/
def retryLoop (narrow : Bool) : List Hdr → Retry → Option Retry
  | [], r => some r
  | h :: hs, r =>
    if caseEq h.name [82, 101, 116, 114, 121, 45, 65, 102, 116, 101, 114] then
      if isAlpha (h.value.headD 0) then
        match parsedate narrow h.value with
        | .ok t => retryLoop narrow hs { r with date := t }
        | .fail => retryLoop narrow hs r
        | .later => retryLoop narrow hs { r with date := 2147483647 }
        | .sooner => retryLoop narrow hs { r with date := 0 }
        | .ub => none
      else if h.value != [] && h.value.all isDigit && decide (numVal h.value ≤ 2147483647) then
        retryLoop narrow hs { r with rv := .caEnrollRetry, delay := numVal h.value }
      else retryLoop narrow hs r
    else retryLoop narrow hs r

/-- `est_io_parse_http_retry_after_resp` with support for dates.  `src/est/est_client_http.c` lines
1327-1399. -/
def retryAfter (narrow : Bool) (hs : List Hdr) : Option Retry := retryLoop narrow hs {}

end Verif.Date
