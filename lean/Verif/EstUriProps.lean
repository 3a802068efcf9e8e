import Verif.EstUriModel
import Verif.UrlProps

/-!
# Properties of request path parsing (C17, C52, C53)
-/
namespace Verif.EstUri

/-! ## Specification -/

/-- The names of the operations (RFC 7030 section 3.2.2 and the BRSKI draft). -/
def opName : Op → List Nat
  | .cacerts => [99, 97, 99, 101, 114, 116, 115]
  | .simpleEnroll => [115, 105, 109, 112, 108, 101, 101, 110, 114, 111, 108, 108]
  | .simpleReenroll => [115, 105, 109, 112, 108, 101, 114, 101, 101, 110, 114, 111, 108, 108]
  | .csrattrs => [99, 115, 114, 97, 116, 116, 114, 115]
  | .serverKeygen => [115, 101, 114, 118, 101, 114, 107, 101, 121, 103, 101, 110]
  | .reqVoucher => [114, 101, 113, 117, 101, 115, 116, 118, 111, 117, 99, 104, 101, 114]
  | .voucherStatus => [118, 111, 117, 99, 104, 101, 114, 95, 115, 116, 97, 116, 117, 115]
  | .enrollStatus => [101, 110, 114, 111, 108, 108, 115, 116, 97, 116, 117, 115]

/-- Is this one of the BRSKI operations? -/
def isBrski : Op → Bool
  | .reqVoucher | .voucherStatus | .enrollStatus => true
  | _ => false

/-- "/.well-known/est/" followed by the name. -/
def opPath (op : Op) : List Nat := [47, 46, 119, 101, 108, 108, 45, 107, 110, 111, 119, 110, 47, 101, 115, 116, 47] ++ opName op

/-- ASCII case folding. -/
def fold (c : Nat) : Nat := if 97 ≤ c ∧ c ≤ 122 then c - 32 else c

/-- Equality up to ASCII letter case. -/
def SameFold (a b : List Nat) : Prop := a.map fold = b.map fold

instance (a b : List Nat) : Decidable (SameFold a b) := by unfold SameFold; infer_instance

/-! ## Lemmas -/

theorem strncmpEq_iff (n : Nat) (a b : List Nat) : strncmpEq n a b = true ↔ a.take n = b.take n := by
  induction n generalizing a b with
  | zero => simp [strncmpEq]
  | succ n ih =>
    cases a with
    | nil => cases b <;> simp [strncmpEq]
    | cons x a =>
      cases b with
      | nil => simp [strncmpEq]
      | cons y b => simp [strncmpEq, ih]

theorem strncmpEq_exact (a b : List Nat) (h : b.length < uriMaxLen) :
    strncmpEq uriMaxLen a b = true ↔ a = b := by
  rw [strncmpEq_iff]
  constructor
  · intro hh
    rw [List.take_of_length_le (Nat.le_of_lt h)] at hh
    have := congrArg List.length hh
    simp at this
    rw [List.take_of_length_le (by omega)] at hh
    exact hh
  · rintro rfl; rfl

theorem opPath_injective (a b : Op) (h : opPath a = opPath b) : a = b := by
  revert h
  cases a <;> cases b <;> decide

/-! ## C17 -/

/-- C17: `est_parse_uri` (build without path segments) yields an operation exactly
for that operation's path. -/
theorem C17_exact_paths (brski : Bool) (uri : List Nat) (op : Op) (seg : Option (List Nat)) :
    parseUriPlain brski uri = .ok op seg ↔
      uri = opPath op ∧ seg = none ∧ (isBrski op = true → brski = true) := by
  have e1 : strncmpEq uriMaxLen uri cacertsUri = true ↔ uri = opPath .cacerts :=
    strncmpEq_exact uri _ (by decide)
  have e2 : strncmpEq uriMaxLen uri simpleEnrollUri = true ↔ uri = opPath .simpleEnroll :=
    strncmpEq_exact uri _ (by decide)
  have e3 : strncmpEq uriMaxLen uri reEnrollUri = true ↔ uri = opPath .simpleReenroll :=
    strncmpEq_exact uri _ (by decide)
  have e4 : strncmpEq uriMaxLen uri csrAttrsUri = true ↔ uri = opPath .csrattrs :=
    strncmpEq_exact uri _ (by decide)
  have e5 : strncmpEq uriMaxLen uri keygenUri = true ↔ uri = opPath .serverKeygen :=
    strncmpEq_exact uri _ (by decide)
  have e6 : strncmpEq uriMaxLen uri voucherUri = true ↔ uri = opPath .reqVoucher :=
    strncmpEq_exact uri _ (by decide)
  have e7 : strncmpEq uriMaxLen uri voucherStatusUri = true ↔ uri = opPath .voucherStatus :=
    strncmpEq_exact uri _ (by decide)
  have e8 : strncmpEq uriMaxLen uri enrollStatusUri = true ↔ uri = opPath .enrollStatus :=
    strncmpEq_exact uri _ (by decide)
  unfold parseUriPlain
  constructor
  · intro h
    simp only [Bool.and_eq_true, e1, e2, e3, e4, e5, e6, e7, e8] at h
    repeat' split at h
    all_goals simp at h
    all_goals obtain ⟨rfl, rfl⟩ := h
    all_goals simp_all [isBrski]
  · rintro ⟨h, rfl, hb⟩
    simp only [Bool.and_eq_true, e1, e2, e3, e4, e5, e6, e7, e8]
    subst h
    cases op <;> cases brski <;> first | (simp [isBrski] at hb; done) | decide

theorem plain_cases (brski : Bool) (uri : List Nat) :
    parseUriPlain brski uri = .err .invalidPathSegment ∨
    ∃ op seg, parseUriPlain brski uri = .ok op seg := by
  unfold parseUriPlain
  repeat' split
  all_goals simp

/-- C17: every other string is answered with the invalid-path error; the outcome
is never undefined. -/
theorem C17_others_rejected (brski : Bool) (uri : List Nat)
    (h : ∀ op, uri = opPath op → isBrski op = true ∧ brski = false) :
    parseUriPlain brski uri = .err .invalidPathSegment := by
  cases hr : parseUriPlain brski uri with
  | ok op seg =>
    obtain ⟨h1, _, h3⟩ := (C17_exact_paths brski uri op seg).1 hr
    obtain ⟨h4, h5⟩ := h op h1
    rw [h3 h4] at h5; cases h5
  | ub => rcases plain_cases brski uri with h' | ⟨_, _, h'⟩ <;> rw [hr] at h' <;> cases h'
  | err e => rcases plain_cases brski uri with h' | ⟨_, _, h'⟩ <;> rw [hr] at h' <;> cases h'; rfl

/-- "/.well-known/est/cacert" satisfies the hypothesis. -/
example : parseUriPlain true [47, 46, 119, 101, 108, 108, 45, 107, 110, 111, 119, 110, 47, 101, 115, 116, 47, 99, 97, 99, 101, 114, 116] = .err .invalidPathSegment := by decide
example : parseUriPlain true [47, 46, 119, 101, 108, 108, 45, 107, 110, 111, 119, 110, 47, 101, 115, 116, 47, 99, 97, 99, 101, 114, 116, 115] = .ok .cacerts none := by decide

/-- C17: different operations have different paths. -/
theorem C17_paths_distinct (a b : Op) : opPath a = opPath b ↔ a = b :=
  ⟨opPath_injective a b, fun h => by rw [h]⟩

/-! ## C52 -/

/-- The operation a request is dispatched to, from the URI text of the request
line (build without path segments); `handle_request` then `est_parse_uri`. -/
def dispatched (brski : Bool) (uri : List Nat) : Option Op :=
  match Url.requestPath uri with
  | none => none
  | some p =>
    match parseUriPlain brski p with
    | .ok op _ => some op
    | _ => none

/-- C52, the part that holds: if the URI is at most 272 characters long and its
decoding has no NUL and needs no normalisation, then it is dispatched to an
operation exactly if its decoding is that operation's path. -/
theorem C52_exact_dispatch_partial (brski : Bool) (e d query : List Nat) (op : Op)
    (he : Url.PctEnc e d) (hq : 63 ∉ e) (hlen : e.length ≤ 272) (h0 : 0 ∉ d)
    (hc : Url.CleanPath d) (hquery : query = [] ∨ query.head? = some 63) :
    dispatched brski (e ++ query) = some op ↔
      d = opPath op ∧ (isBrski op = true → brski = true) := by
  have htw : (e ++ query).takeWhile (· ≠ 63) = e := by
    rw [List.takeWhile_append_of_pos (by
      intro x hx; simp; rintro rfl; exact hq hx)]
    rcases hquery with rfl | hh
    · simp
    · cases query with
      | nil => simp
      | cons c q => simp at hh; subst hh; simp
  have hdl : d.length ≤ e.length := by
    clear hq hlen h0 hc htw
    induction he with
    | nil => simp
    | lit _ _ ih => simp; omega
    | pct _ _ _ ih => simp; omega
  have hp : Url.requestPath (e ++ query) = some d := by
    unfold Url.requestPath
    simp only [htw]
    rw [Nat.min_eq_left (by unfold Url.uriMaxLen; omega)]
    rw [Url.C15_decode_inverts_encoding he [0] _ (by omega)]
    simp only [Option.map_some, Url.cstr]
    have : d.takeWhile (· ≠ 0) = d := by
      have := List.takeWhile_append_of_pos (p := fun x : Nat => decide (x ≠ 0)) (l₁ := d) (l₂ := [])
        (by intro x hx; simp; rintro rfl; exact h0 hx)
      simpa using this
    rw [this, Url.C16_clean_unchanged d hc]
  unfold dispatched
  rw [hp]
  simp only
  cases hr : parseUriPlain brski d with
  | ok o s =>
    obtain ⟨h1, h2, h3⟩ := (C17_exact_paths brski d o s).1 hr
    simp only [Option.some.injEq]
    constructor
    · rintro rfl; exact ⟨h1, h3⟩
    · rintro ⟨h4, _⟩; exact opPath_injective _ _ (h1 ▸ h4)
  | ub =>
    simp only [reduceCtorEq, false_iff]
    rintro ⟨h1, h2⟩
    rw [(C17_exact_paths brski d op none).2 ⟨h1, rfl, h2⟩] at hr
    cases hr
  | err x =>
    simp only [reduceCtorEq, false_iff]
    rintro ⟨h1, h2⟩
    rw [(C17_exact_paths brski d op none).2 ⟨h1, rfl, h2⟩] at hr
    cases hr

/-- "%2F.well-known/est/cacerts?x=1". -/
example : dispatched true ([37, 50, 70, 46, 119, 101, 108, 108, 45, 107, 110, 111, 119, 110, 47, 101, 115, 116, 47, 99, 97, 99, 101, 114, 116, 115] ++ [63, 120, 61, 49]) = some .cacerts := by
  decide +kernel

/-- C52 is false as stated (1): an encoded NUL hides the rest of the path.
"/.well-known/est/cacerts%00/anything" is served as cacerts. -/
theorem C52_encoded_nul_false :
    dispatched false [47, 46, 119, 101, 108, 108, 45, 107, 110, 111, 119, 110, 47, 101, 115, 116, 47, 99, 97, 99, 101, 114, 116, 115, 37, 48, 48, 47, 97, 110, 121, 116, 104, 105, 110, 103] = some .cacerts := by
  decide +kernel

/-- C52 is false as stated (2): only the first 272 characters count.  The path
"/.well-known/est/cacerts" padded with leading slashes and followed by other
segments is served as cacerts. -/
theorem C52_long_path_false :
    dispatched false (List.replicate 249 47 ++ [46, 119, 101, 108, 108, 45, 107, 110, 111, 119, 110, 47, 101, 115, 116, 47, 99, 97, 99, 101, 114, 116, 115] ++ [47, 111, 116, 104, 101, 114, 47, 112, 97, 116, 104])
      = some .cacerts := by decide +kernel

/-! ## C53 -/

theorem caseLoop_iff (a b : List Nat) : caseLoop a b = true ↔ SameFold a b := by
  unfold SameFold
  induction a generalizing b with
  | nil => cases b <;> simp [caseLoop]
  | cons x a ih =>
    cases b with
    | nil => simp [caseLoop]
    | cons y b =>
      have : ∀ z, toUpper z = fold z := fun z => rfl
      simp only [caseLoop, List.map_cons, List.cons.injEq, this]
      by_cases h : fold x = fold y
      · simp [h, ih]
      · simp [h]

theorem strcaseEq_iff (a b : List Nat) (h : a ≠ []) : strcaseEq a b = true ↔ SameFold a b := by
  unfold strcaseEq; rw [if_neg h]; exact caseLoop_iff a b

theorem sameFold_trans {a b c : List Nat} (h : SameFold a b) (h2 : SameFold a c) : SameFold b c := by
  unfold SameFold at *; rw [← h, ← h2]

theorem opName_fold_injective (a b : Op) (h : SameFold (opName a) (opName b)) : a = b := by
  revert h; cases a <;> cases b <;> decide

/-- For a text that is not empty, `est_parse_operation` finds exactly the operation
whose name it is, up to letter case. -/
theorem parseOperation_iff (brski : Bool) (s : List Nat) (hs : s ≠ []) (op : Op) :
    parseOperation brski s = some op ↔
      SameFold s (opName op) ∧ (isBrski op = true → brski = true) := by
  unfold parseOperation
  simp only [Bool.and_eq_true, strcaseEq_iff s _ hs]
  constructor
  · intro h
    repeat' split at h
    all_goals simp at h
    all_goals subst h
    all_goals simp_all [isBrski, opName]
  · rintro ⟨h, hb⟩
    have key : ∀ (o : Op), SameFold s (opName o) → o = op := fun o ho =>
      opName_fold_injective _ _ (sameFold_trans ho h)
    have k1 := key .cacerts
    have k2 := key .csrattrs
    have k3 := key .simpleEnroll
    have k4 := key .simpleReenroll
    have k5 := key .serverKeygen
    have k6 := key .reqVoucher
    have k7 := key .voucherStatus
    simp only [opName] at k1 k2 k3 k4 k5 k6 k7
    cases op
    all_goals simp only [opName] at h
    all_goals simp at k1 k2 k3 k4 k5 k6 k7
    all_goals simp [isBrski] at hb
    all_goals simp [*]

theorem parseOperation_nil (brski : Bool) : parseOperation brski [] = some .cacerts := rfl

theorem splitSlash_free (s : List Nat) (h : 47 ∉ s) : splitSlash s = [s] := by
  induction s with
  | nil => rfl
  | cons c s ih =>
    simp only [List.mem_cons, not_or] at h
    simp only [splitSlash]
    rw [if_neg (fun hc => h.1 hc.symm), ih h.2]

theorem splitSlash_append (s rest : List Nat) (h : 47 ∉ s) :
    splitSlash (s ++ 47 :: rest) = s :: splitSlash rest := by
  induction s with
  | nil => simp [splitSlash]
  | cons c s ih =>
    simp only [List.mem_cons, not_or] at h
    simp only [List.cons_append, splitSlash]
    rw [if_neg (fun hc => h.1 hc.symm), ih h.2]

theorem splitSlash_cases (l s : List Nat) (ss : List (List Nat)) (h : splitSlash l = s :: ss) :
    47 ∉ s ∧ ((ss = [] ∧ l = s) ∨ ∃ rest, l = s ++ 47 :: rest ∧ splitSlash rest = ss) := by
  induction l generalizing s ss with
  | nil => simp [splitSlash] at h; simp [h]
  | cons c l ih =>
    simp only [splitSlash] at h
    split at h
    · rename_i hc; subst hc
      simp at h
      obtain ⟨rfl, h⟩ := h
      exact ⟨by simp, Or.inr ⟨l, rfl, h⟩⟩
    · rename_i hc
      cases hs : splitSlash l with
      | nil => rw [hs] at h; cases l <;> simp [splitSlash] at hs; split at hs <;> (try split at hs) <;> simp at hs
      | cons t ts =>
        rw [hs] at h
        simp at h
        obtain ⟨rfl, rfl⟩ := h
        obtain ⟨h1, h2⟩ := ih t ts hs
        refine ⟨by simp [h1]; exact fun h => hc h.symm, ?_⟩
        rcases h2 with ⟨h2, rfl⟩ | ⟨rest, rfl, h2⟩
        · exact Or.inl ⟨h2, rfl⟩
        · exact Or.inr ⟨rest, rfl, h2⟩

theorem prefix_before (p s t : List Nat) (c : Nat) (hc : c ∉ p) (h : p <+: s ++ c :: t) : p <+: s := by
  induction p generalizing s with
  | nil => exact List.nil_prefix
  | cons x p ih =>
    simp only [List.mem_cons, not_or] at hc
    cases s with
    | nil =>
      simp [List.cons_prefix_cons] at h
      exact absurd h.1.symm hc.1
    | cons y s =>
      simp only [List.cons_append, List.cons_prefix_cons] at h ⊢
      exact ⟨h.1, ih s hc.2 h.2⟩

theorem dropWhile_slash (s t : List Nat) (h : 47 ∉ s) :
    (s ++ 47 :: t).dropWhile (· ≠ 47) = 47 :: t := by
  induction s with
  | nil => simp
  | cons c s ih =>
    simp only [List.mem_cons, not_or] at h
    simp only [List.cons_append]
    rw [List.dropWhile_cons_of_pos (by simpa using fun hc => h.1 (by omega)), ih h.2]

theorem textFrom_succ (k : Nat) (s t : List Nat) (h : 47 ∉ s) :
    textFrom (k + 1) (s ++ 47 :: t) = textFrom k t := by
  simp only [textFrom, dropWhile_slash s t h, List.drop_one, List.tail_cons]

/-- A segment text: no slash, no query or fragment mark. -/
def SegText (s : List Nat) : Prop := 47 ∉ s ∧ 63 ∉ s ∧ 35 ∉ s

theorem mem_takeWhile_true {p : Nat → Bool} {l : List Nat} {x : Nat} (h : x ∈ l.takeWhile p) :
    p x = true := by
  induction l with
  | nil => simp at h
  | cons c l ih =>
    rw [List.takeWhile_cons] at h
    split at h
    · rename_i hc
      simp at h
      rcases h with rfl | h
      · exact hc
      · exact ih h
    · simp at h

theorem takeWhile_path (p t : List Nat) (hp : 63 ∉ p ∧ 35 ∉ p)
    (ht : t = [] ∨ t.head? = some 63 ∨ t.head? = some 35) :
    (p ++ t).takeWhile (fun c => !pathEnd c) = p := by
  rw [List.takeWhile_append_of_pos]
  · have : t.takeWhile (fun c => !pathEnd c) = [] := by
      rcases ht with rfl | h | h
      · rfl
      · cases t with
        | nil => simp at h
        | cons c t => simp at h; subst h; rfl
      · cases t with
        | nil => simp at h
        | cons c t => simp at h; subst h; rfl
    rw [this, List.append_nil]
  · intro x hx
    simp only [pathEnd, Bool.not_eq_true', Bool.or_eq_false_iff, beq_eq_false_iff_ne]
    exact ⟨fun h => hp.1 (h ▸ hx), fun h => hp.2 (h ▸ hx)⟩

/-- Evaluation of the model on a path of three or more segments. -/
theorem parseUriLib_eval (brski : Bool) (uriOk : List Nat → Bool) (after s2 behind : List Nat)
    (x y : List Nat) (hx : SegText x) (hy : SegText y) (h2 : SegText s2)
    (hb : behind = [] ∨ behind.head? = some 47 ∨ behind.head? = some 63 ∨ behind.head? = some 35)
    (hok : uriOk (47 :: ([46, 119, 101, 108, 108, 45, 107, 110, 111, 119, 110] ++ x) ++ 47 :: ([101, 115, 116] ++ y) ++ 47 :: s2 ++ behind) = true) :
    parseUriLib brski uriOk after
      (47 :: ([46, 119, 101, 108, 108, 45, 107, 110, 111, 119, 110] ++ x) ++ 47 :: ([101, 115, 116] ++ y) ++ 47 :: s2 ++ behind) =
    if s2.length > 128 then .err .invalidPathSegment
    else match parseOperation brski s2 with
      | none =>
        match parseOperation brski (match behind with | [] => after | _ :: b => b) with
        | none => .err .badReq
        | some op => .ok op (some s2)
      | some op =>
        if s2 = [] then .err .invalidPathSegment
        else if behind = [] then .ok op none else .err .invalidPathSegment := by
  have hS0 : 47 ∉ [46, 119, 101, 108, 108, 45, 107, 110, 111, 119, 110] ++ x := by
    intro h; rcases List.mem_append.1 h with h | h
    · revert h; decide
    · exact hx.1 h
  have hS1 : 47 ∉ [101, 115, 116] ++ y := by
    intro h; rcases List.mem_append.1 h with h | h
    · revert h; decide
    · exact hy.1 h
  -- the path part
  obtain ⟨p2, tl, hbeh, hp2, htl, hp2s⟩ : ∃ p2 tl, behind = p2 ++ tl ∧ (63 ∉ p2 ∧ 35 ∉ p2) ∧
      (tl = [] ∨ tl.head? = some 63 ∨ tl.head? = some 35) ∧
      (p2 = [] ∨ p2.head? = some 47) := by
    refine ⟨behind.takeWhile (fun c => !pathEnd c), behind.dropWhile (fun c => !pathEnd c),
      (List.takeWhile_append_dropWhile).symm, ?_, ?_, ?_⟩
    · constructor
      · intro h; have := mem_takeWhile_true h; simp [pathEnd] at this
      · intro h; have := mem_takeWhile_true h; simp [pathEnd] at this
    · cases hd : behind.dropWhile (fun c => !pathEnd c) with
      | nil => left; rfl
      | cons c t =>
        right
        have := List.head?_dropWhile_not (fun c => !pathEnd c) behind
        rw [hd] at this
        simp [pathEnd] at this
        simp; omega
    · rcases hb with rfl | hb | hb | hb
      · left; rfl
      all_goals
        cases behind with
        | nil => simp at hb
        | cons c t => simp at hb; subst hb; simp [List.takeWhile, pathEnd]
  subst hbeh
  have hsegs : ∃ r, uriSegments (47 :: ([46, 119, 101, 108, 108, 45, 107, 110, 111, 119, 110] ++ x) ++ 47 :: ([101, 115, 116] ++ y) ++ 47 :: s2
      ++ (p2 ++ tl)) = ([46, 119, 101, 108, 108, 45, 107, 110, 111, 119, 110] ++ x) :: ([101, 115, 116] ++ y) :: s2 :: r := by
    unfold uriSegments
    have hpath : (47 :: ([46, 119, 101, 108, 108, 45, 107, 110, 111, 119, 110] ++ x) ++ 47 :: ([101, 115, 116] ++ y) ++ 47 :: s2 ++
        (p2 ++ tl)).takeWhile (fun c => !pathEnd c) =
        47 :: (([46, 119, 101, 108, 108, 45, 107, 110, 111, 119, 110] ++ x) ++ 47 :: (([101, 115, 116] ++ y) ++ 47 :: (s2 ++ p2))) := by
      have := takeWhile_path
        (47 :: (([46, 119, 101, 108, 108, 45, 107, 110, 111, 119, 110] ++ x) ++ 47 :: (([101, 115, 116] ++ y) ++ 47 :: (s2 ++ p2)))) tl ?_ htl
      · simpa using this
      · constructor
        · simp [hx.2.1, hy.2.1, h2.2.1, hp2.1]
        · simp [hx.2.2, hy.2.2, h2.2.2, hp2.2]
    rw [hpath]
    simp only [if_true]
    rw [if_neg (by simp)]
    rw [splitSlash_append _ _ hS0, splitSlash_append _ _ hS1]
    rcases hp2s with rfl | hp
    · rw [List.append_nil, splitSlash_free s2 h2.1]; exact ⟨[], rfl⟩
    · cases p2 with
      | nil => simp at hp
      | cons c p2 =>
        simp at hp; subst hp
        rw [splitSlash_append s2 p2 h2.1]; exact ⟨_, rfl⟩
  obtain ⟨r, hsegs⟩ := hsegs
  unfold parseUriLib
  rw [hok]
  simp only [Bool.not_true, Bool.false_eq_true, if_false]
  rw [hsegs]
  have htext : (47 :: ([46, 119, 101, 108, 108, 45, 107, 110, 111, 119, 110] ++ x) ++ 47 :: ([101, 115, 116] ++ y) ++ 47 :: s2 ++ (p2 ++ tl)).drop 1
      = ([46, 119, 101, 108, 108, 45, 107, 110, 111, 119, 110] ++ x) ++ 47 :: (([101, 115, 116] ++ y) ++ 47 :: (s2 ++ (p2 ++ tl))) := by
    simp
  rw [if_pos (by simp), htext, textFrom_succ 0 _ _ hS0, textFrom_succ 1 _ _ hS0,
    textFrom_succ 0 _ _ hS1]
  simp only [textFrom, maxSeg]
  have hc1 : (decide ([101, 115, 116] ++ y = []) ||
      !([101, 115, 116].isPrefixOf (([101, 115, 116] ++ y) ++ 47 :: (s2 ++ (p2 ++ tl))))) = false := by simp
  have hc0 : (decide ([46, 119, 101, 108, 108, 45, 107, 110, 111, 119, 110] ++ x = []) ||
      !([46, 119, 101, 108, 108, 45, 107, 110, 111, 119, 110].isPrefixOf (([46, 119, 101, 108, 108, 45, 107, 110, 111, 119, 110] ++ x) ++
        47 :: (([101, 115, 116] ++ y) ++ 47 :: (s2 ++ (p2 ++ tl)))))) = false := by simp
  simp only [hc1, hc0]
  simp only [Bool.false_eq_true, if_false, List.drop_left]
  rfl

/-- C53, the part that holds (1): a path of the two documented shapes gets exactly
its operation and segment. -/
theorem C53_documented_paths_partial (brski : Bool) (uriOk : List Nat → Bool)
    (after seg name : List Nat) (op : Op)
    (hname : SameFold name (opName op)) (hn : SegText name) (hne : name ≠ [])
    (hb : isBrski op = true → brski = true) (hlen : name.length ≤ 128)
    (hseg : SegText seg) (hs0 : seg ≠ []) (hs1 : seg.length ≤ 128)
    (hs2 : ∀ o, ¬ SameFold seg (opName o))
    (hok : ∀ u, uriOk u = true) :
    parseUriLib brski uriOk after ([47, 46, 119, 101, 108, 108, 45, 107, 110, 111, 119, 110, 47, 101, 115, 116, 47] ++ name) = .ok op none ∧
    parseUriLib brski uriOk after ([47, 46, 119, 101, 108, 108, 45, 107, 110, 111, 119, 110, 47, 101, 115, 116, 47] ++ seg ++ 47 :: name)
      = .ok op (some seg) := by
  have hnil : SegText [] := by simp [SegText]
  have hp : parseOperation brski name = some op := (parseOperation_iff brski name hne op).2 ⟨hname, hb⟩
  have hps : parseOperation brski seg = none := by
    cases h : parseOperation brski seg with
    | none => rfl
    | some o => exact absurd ((parseOperation_iff brski seg hs0 o).1 h).1 (hs2 o)
  constructor
  · have := parseUriLib_eval brski uriOk after name [] [] [] hnil hnil hn (Or.inl rfl) (hok _)
    simp only [List.append_nil] at this
    have hh : [47, 46, 119, 101, 108, 108, 45, 107, 110, 111, 119, 110, 47, 101, 115, 116, 47] ++ name =
      47 :: [46, 119, 101, 108, 108, 45, 107, 110, 111, 119, 110] ++ 47 :: [101, 115, 116] ++ 47 :: name := by simp
    rw [hh, this, if_neg (by omega), hp]
    simp [hne]
  · have := parseUriLib_eval brski uriOk after seg (47 :: name) [] [] hnil hnil hseg
      (Or.inr (Or.inl rfl)) (hok _)
    simp only [List.append_nil] at this
    have hh : [47, 46, 119, 101, 108, 108, 45, 107, 110, 111, 119, 110, 47, 101, 115, 116, 47] ++ seg ++ 47 :: name =
      47 :: [46, 119, 101, 108, 108, 45, 107, 110, 111, 119, 110] ++ 47 :: [101, 115, 116] ++ 47 :: seg ++ 47 :: name := by simp
    rw [hh, this, if_neg (by omega), hps]
    simp only [hp]

example : parseUriLib true (fun _ => true) [] [47, 46, 119, 101, 108, 108, 45, 107, 110, 111, 119, 110, 47, 101, 115, 116, 47, 67, 97, 67, 101, 114, 116, 115] = .ok .cacerts none ∧
    parseUriLib true (fun _ => true) [] [47, 46, 119, 101, 108, 108, 45, 107, 110, 111, 119, 110, 47, 101, 115, 116, 47, 108, 97, 98, 55, 47, 115, 105, 109, 112, 108, 101, 101, 110, 114, 111, 108, 108]
      = .ok .simpleEnroll (some [108, 97, 98, 55]) := by decide

/-- C53, the part that holds (2): whatever is accepted starts with two segments
that begin with ".well-known" and "est"; then either the third segment is the
operation's name and nothing follows, or the third segment is the reported path
segment, of at most 128 characters. -/
theorem C53_accepted_shape_partial (brski : Bool) (uriOk : List Nat → Bool)
    (after uri : List Nat) (op : Op) (seg : Option (List Nat))
    (h : parseUriLib brski uriOk after uri = .ok op seg) :
    ∃ lead x y s2 behind,
      uri = lead ++ ([46, 119, 101, 108, 108, 45, 107, 110, 111, 119, 110] ++ x) ++ 47 :: ([101, 115, 116] ++ y) ++ 47 :: s2 ++ behind ∧
      (lead = [] ∨ lead = [47]) ∧ 47 ∉ x ∧ 47 ∉ y ∧ 47 ∉ s2 ∧ s2.length ≤ 128 ∧
      ((seg = none ∧ behind = [] ∧ s2 ≠ [] ∧ SameFold s2 (opName op)) ∨
       (seg = some s2 ∧ s2 ≠ [] ∧ ∀ o, (isBrski o = true → brski = true) → ¬ SameFold s2 (opName o))) := by
  unfold parseUriLib at h
  split at h
  · cases h
  · simp only at h
    generalize htext : (if uri.head? = some 47 then uri.drop 1 else uri) = text at h
    -- the segments
    have hlead : ∃ lead, (lead = [] ∨ lead = [47]) ∧ uri = lead ++ text := by
      by_cases hh : uri.head? = some 47
      · rw [if_pos hh] at htext
        cases uri with
        | nil => simp at hh
        | cons c u => simp at hh htext; exact ⟨[47], Or.inr rfl, by simp [hh, htext]⟩
      · rw [if_neg hh] at htext; exact ⟨[], Or.inl rfl, htext⟩
    have hsplit : uriSegments uri ≠ [] → ∃ p tl, text = p ++ tl ∧ uriSegments uri = splitSlash p := by
      intro hne
      unfold uriSegments at hne ⊢
      have huri := (List.takeWhile_append_dropWhile (p := fun c => !pathEnd c) (l := uri)).symm
      generalize hpath : uri.takeWhile (fun c => !pathEnd c) = path at hne huri
      generalize uri.dropWhile (fun c => !pathEnd c) = tl at huri
      cases path with
      | nil => simp at hne
      | cons c rest =>
        simp only at hne ⊢
        by_cases hc : c = 47
        · subst hc
          simp only [if_true] at hne ⊢
          by_cases hr : rest = []
          · rw [if_pos hr] at hne; exact absurd rfl hne
          · rw [if_neg hr]
            rw [huri] at htext
            simp at htext
            exact ⟨rest, tl, htext.symm, rfl⟩
        · rw [if_neg hc]
          rw [huri] at htext
          simp [hc] at htext
          exact ⟨c :: rest, tl, by simp [htext], rfl⟩
    split at h
    · cases h
    · rename_i s0 r0 hsegs
      obtain ⟨p, tl, htp, hsp⟩ := hsplit (by rw [hsegs]; simp)
      rw [hsegs] at hsp
      split at h
      · cases h
      · rename_i hc0
        split at h
        · cases h
        · rename_i s1 r1
          split at h
          · cases h
          · rename_i hc1
            split at h
            · cases h
            · rename_i s2 r2
              obtain ⟨n0, hq0⟩ := splitSlash_cases _ _ _ hsp.symm
              obtain ⟨hq0, _⟩ | ⟨p1, rfl, hsp1⟩ := hq0
              · simp at hq0
              obtain ⟨n1, hq1⟩ := splitSlash_cases _ _ _ hsp1
              obtain ⟨hq1, _⟩ | ⟨p2, rfl, hsp2⟩ := hq1
              · simp at hq1
              obtain ⟨n2, hq2⟩ := splitSlash_cases _ _ _ hsp2
              obtain ⟨b, hb⟩ : ∃ b, p2 = s2 ++ b := by
                rcases hq2 with ⟨_, h2⟩ | ⟨rest, h2, _⟩
                · exact ⟨[], by simp [h2]⟩
                · exact ⟨_, h2⟩
              have ht1 : text = s0 ++ 47 :: (s1 ++ 47 :: (p2 ++ tl)) := by rw [htp]; simp
              rw [ht1, textFrom_succ 0 _ _ n0] at hc1
              rw [ht1] at hc0
              rw [ht1, textFrom_succ 1 _ _ n0, textFrom_succ 0 _ _ n1] at h
              simp only [textFrom, Bool.or_eq_true, decide_eq_true_eq, Bool.not_eq_true',
                not_or, Bool.not_eq_false] at hc0 hc1
              simp only [textFrom] at h
              obtain ⟨x, hx⟩ := prefix_before _ _ _ 47 (by decide) (List.isPrefixOf_iff_prefix.1 hc0.2)
              obtain ⟨y, hy⟩ := prefix_before _ _ _ 47 (by decide) (List.isPrefixOf_iff_prefix.1 hc1.2)
              obtain ⟨lead, hlead1, hlead2⟩ := hlead
              have hbehind : (p2 ++ tl).drop s2.length = b ++ tl := by rw [hb]; simp
              simp only [hbehind] at h
              refine ⟨lead, x, y, s2, b ++ tl, ?_, hlead1, ?_, ?_, n2, ?_, ?_⟩
              · rw [hlead2, ht1, ← hx, ← hy, hb]; simp
              · intro hm; exact n0 (by rw [← hx]; exact List.mem_append_right _ hm)
              · intro hm; exact n1 (by rw [← hy]; exact List.mem_append_right _ hm)
              · split at h
                · cases h
                · rename_i hl; simpa [maxSeg] using hl
              · split at h
                · cases h
                · split at h
                  · rename_i hpo
                    have hne : s2 ≠ [] := by
                      rintro rfl; rw [parseOperation_nil] at hpo; cases hpo
                    right
                    split at h
                    · cases h
                    · simp at h
                      refine ⟨h.2.symm, hne, ?_⟩
                      intro o ho hsf
                      rw [(parseOperation_iff brski s2 hne o).2 ⟨hsf, ho⟩] at hpo
                      cases hpo
                  · rename_i o hpo
                    left
                    split at h
                    · cases h
                    · rename_i hne
                      split at h
                      · rename_i hbe
                        simp at h
                        obtain ⟨rfl, rfl⟩ := h
                        exact ⟨rfl, hbe, hne, ((parseOperation_iff brski s2 hne o).1 hpo).1⟩
                      · cases h

/-- C53 is false as stated (1): the requests for "/", "/.well-known" and
"/.well-known/est" run into undefined behaviour (unset operation; NULL pointer). -/
theorem C53_short_paths_undefined_false :
    parseUriLib true (fun _ => true) [] [47] = .ub ∧
    parseUriLib true (fun _ => true) [] [47, 46, 119, 101, 108, 108, 45, 107, 110, 111, 119, 110] = .ub ∧
    parseUriLib true (fun _ => true) [] [47, 46, 119, 101, 108, 108, 45, 107, 110, 111, 119, 110, 47, 101, 115, 116] = .ub := by decide

/-- C53 is false as stated (2): the first two segments are compared as prefixes.
"/.well-known-x/estate/cacerts" is accepted. -/
theorem C53_prefix_accepted_false :
    parseUriLib false (fun _ => true) [] [47, 46, 119, 101, 108, 108, 45, 107, 110, 111, 119, 110, 45, 120, 47, 101, 115, 116, 97, 116, 101, 47, 99, 97, 99, 101, 114, 116, 115] = .ok .cacerts none := by
  decide

/-- C53 is false as stated (3): an empty operation is taken for cacerts, because the
case-insensitive comparison answers "equal" for an empty text. -/
theorem C53_empty_operation_false :
    parseUriLib false (fun _ => true) [] [47, 46, 119, 101, 108, 108, 45, 107, 110, 111, 119, 110, 47, 101, 115, 116, 47, 108, 97, 98, 55, 47] = .ok .cacerts (some [108, 97, 98, 55]) := by
  decide

/-- C53 is false as stated (4): when the path ends after the segment, the operation
is looked for behind the end of the path, where the query string stands:
"/.well-known/est/lab7?cacerts" is served as cacerts. -/
theorem C53_operation_from_query_false :
    parseUriLib false (fun _ => true) [99, 97, 99, 101, 114, 116, 115] [47, 46, 119, 101, 108, 108, 45, 107, 110, 111, 119, 110, 47, 101, 115, 116, 47, 108, 97, 98, 55]
      = .ok .cacerts (some [108, 97, 98, 55]) := by
  decide

end Verif.EstUri
