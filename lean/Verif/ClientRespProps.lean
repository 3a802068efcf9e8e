import Verif.ClientRespModel
import Verif.HttpHdrProps
import Verif.ServerModel

/-!
# C24, C25, C28, C45: responses as the client sees them
-/
namespace Verif.ClientResp
open Verif.HttpHdr (Hdr skip skipWord caseEq isSpace WellFormed line lines SameText)

/-! ## C45 -/

/-- C45: for every operation the entry of the table at its index exists and is the entry of
that operation. -/
theorem C45_table_entry (op : Op) : ∃ ct, opMap[op.idx]? = some (op, ct) ∧ opType op = ct := by
  cases op <;> exact ⟨_, rfl, rfl⟩

/-- C45: the content type that is expected, per RFC 7030 (and the voucher types of BRSKI). -/
theorem C45_content_types (op : Op) :
    opType op = match op with
      | .enroll | .reenroll => [97, 112, 112, 108, 105, 99, 97, 116, 105, 111, 110, 47, 112, 107, 99, 115, 55, 45, 109, 105, 109, 101, 59, 32, 115, 109, 105, 109, 101, 45, 116, 121, 112, 101, 61, 99, 101, 114, 116, 115, 45, 111, 110, 108, 121]
      | .cacerts => [97, 112, 112, 108, 105, 99, 97, 116, 105, 111, 110, 47, 112, 107, 99, 115, 55, 45, 109, 105, 109, 101]
      | .csrattrs => [97, 112, 112, 108, 105, 99, 97, 116, 105, 111, 110, 47, 99, 115, 114, 97, 116, 116, 114, 115]
      | .keygen => [97, 112, 112, 108, 105, 99, 97, 116, 105, 111, 110, 47, 112, 107, 99, 115, 56]
      | .voucherReq => [97, 112, 112, 108, 105, 99, 97, 116, 105, 111, 110, 47, 118, 111, 117, 99, 104, 101, 114, 43, 99, 109, 115]
      | .voucherStatus | .enrollStatus => [97, 112, 112, 108, 105, 99, 97, 116, 105, 111, 110, 47, 106, 115, 111, 110] := by
  cases op <;> rfl

example : opType .csrattrs = [97, 112, 112, 108, 105, 99, 97, 116, 105, 111, 110, 47, 99, 115, 114, 97, 116, 116, 114, 115] := rfl

/-! ## Numbers -/

theorem decimal_digits (n : Nat) : ∀ c ∈ decimal n, 48 ≤ c ∧ c ≤ 57 := by
  induction n using Nat.strongRecOn with
  | ind n ih =>
    unfold decimal
    split
    · intro c hc; simp at hc; omega
    · intro c hc
      rw [List.mem_append] at hc
      rcases hc with hc | hc
      · exact ih (n / 10) (by omega) c hc
      · simp at hc; omega

theorem decimal_ne_nil (n : Nat) : decimal n ≠ [] := by
  unfold decimal; split <;> simp

theorem numVal_decimal (n : Nat) : numVal (decimal n) = n := by
  induction n using Nat.strongRecOn with
  | ind n ih =>
    unfold decimal
    split
    · simp [numVal]
    · have := ih (n / 10) (by omega)
      unfold numVal at this ⊢
      rw [List.foldl_append, this]
      simp
      omega

/-! ## Splitting a response -/

theorem findDelim_skip (w t : List Nat) (h : ∀ c ∈ w, c ≠ 13) :
    findDelim (w ++ t) = findDelim t := by
  induction w with
  | nil => rfl
  | cons a w ih =>
    have ha := h a (by simp)
    simp only [List.cons_append, findDelim]
    rw [if_neg (by simp; omega)]
    exact ih (fun c hc => h c (by simp [hc]))

theorem findDelim_crlf (t : List Nat) (h : t.head? ≠ some 13) :
    findDelim (13 :: 10 :: t) = findDelim t := by
  cases t with
  | nil => simp [findDelim]
  | cons c t =>
    have hc : c ≠ 13 := by simpa using h
    have hc' : ¬ 13 = c := fun h => hc h.symm
    simp [findDelim, hc']

theorem findDelim_here (b : List Nat) :
    findDelim (13 :: 10 :: 13 :: 10 :: b) = some (4 + b.length) := by
  simp [findDelim]; omega

theorem lines_head (hs : List (Hdr × Nat)) (hw : ∀ p ∈ hs, WellFormed p.1) (hne : hs ≠ [])
    (t : List Nat) : (lines hs t).head? ≠ some 13 ∧ (lines hs t).head? ≠ some 10 := by
  cases hs with
  | nil => exact absurd rfl hne
  | cons p hs =>
    obtain ⟨h, k⟩ := p
    have := Verif.HttpHdr.line_head h (hw (h, k) (by simp)) k (lines hs t)
    simp only [lines]
    constructor
    · intro hx; exact this 13 hx (by simp)
    · intro hx; exact this 10 hx (by simp)

theorem findDelim_line (h : Hdr) (hw : WellFormed h) (k : Nat) (t : List Nat) :
    findDelim (line h k ++ t) = findDelim (13 :: 10 :: t) := by
  have : line h k ++ t =
      (h.name ++ 58 :: (List.replicate k 32 ++ h.value)) ++ 13 :: 10 :: t := by
    simp [line]
  rw [this, findDelim_skip]
  intro c hc
  simp only [List.mem_append, List.mem_cons, List.mem_replicate] at hc
  rcases hc with hc | hc | hc | hc
  · exact (hw.name c hc).2.1
  · omega
  · omega
  · exact (hw.value c hc).1

theorem findDelim_lines (hs : List (Hdr × Nat)) (hw : ∀ p ∈ hs, WellFormed p.1) (hne : hs ≠ [])
    (b : List Nat) : findDelim (lines hs (13 :: 10 :: b)) = some (4 + b.length) := by
  induction hs with
  | nil => exact absurd rfl hne
  | cons p hs ih =>
    obtain ⟨h, k⟩ := p
    simp only [lines]
    rw [findDelim_line h (hw (h, k) (by simp))]
    by_cases he : hs = []
    · subst he; exact findDelim_here b
    · rw [findDelim_crlf _ (lines_head hs (fun p hp => hw p (by simp [hp])) he _).1]
      exact ih (fun p hp => hw p (by simp [hp])) he

/-- A response: status line without CR and LF, header lines, blank line, body. -/
def response (status : List Nat) (hs : List (Hdr × Nat)) (b : List Nat) : List Nat :=
  status ++ 13 :: 10 :: lines hs (13 :: 10 :: b)

theorem dropWhile_crlf (t : List Nat) (h : t.head? ≠ some 13 ∧ t.head? ≠ some 10) :
    t.dropWhile (fun c => [13, 10].contains c) = t := by
  apply Verif.HttpHdr.dropWhile_none
  intro c hc
  simp only [List.mem_cons, List.not_mem_nil, or_false, not_or]
  constructor
  · rintro rfl; exact h.1 hc
  · rintro rfl; exact h.2 hc

theorem parse_step (e : Option Nat) (n : Nat) (h : Hdr) (hw : WellFormed h) (k : Nat) (t : List Nat) :
    parseHdrs e (n + 1) (line h k ++ t) =
      let r := t.dropWhile (fun c => [13, 10].contains c)
      if past e r then ([h], r) else (h :: (parseHdrs e n r).1, (parseHdrs e n r).2) := by
  have h1 : skipWord [58] [32] (line h k ++ t) = (h.name, h.value ++ 13 :: 10 :: t) := by
    have : line h k ++ t = h.name ++ 58 :: (List.replicate k 32 ++ (h.value ++ 13 :: 10 :: t)) := by
      simp [line]
    rw [this, Verif.HttpHdr.skipWord_append [58] [32] _ _ 58 (fun c hc => by
      have := hw.name c hc; simp; exact this.1) (by simp), Verif.HttpHdr.dropWhile_replicate,
      Verif.HttpHdr.dropWhile_none]
    intro c hc
    cases hv : h.value with
    | nil => rw [hv] at hc; simp at hc; subst hc; simp
    | cons x xs =>
      rw [hv] at hc; simp at hc; subst hc
      have := hw.start
      rw [hv] at this
      simpa using this
  have h2 : skip [13, 10] (h.value ++ 13 :: 10 :: t) =
      (h.value, t.dropWhile (fun c => [13, 10].contains c)) := by
    unfold skip
    rw [Verif.HttpHdr.skipWord_append [13, 10] [13, 10] _ _ 13 (fun c hc => by
      have := hw.value c hc; simp; exact this) (by simp)]
    congr 1
  simp only [parseHdrs, h1, h2]
  rw [if_neg hw.nonempty]

theorem line_length (h : Hdr) (hw : WellFormed h) (k : Nat) : 4 ≤ (line h k).length := by
  have : h.name.length ≠ 0 := by simpa using hw.nonempty
  simp [line]; omega

theorem parse_lines (n : Nat) (hs : List (Hdr × Nat)) (hw : ∀ p ∈ hs, WellFormed p.1)
    (hne : hs ≠ []) (hn : hs.length ≤ n) (b : List Nat)
    (hb : b.head? ≠ some 13 ∧ b.head? ≠ some 10) :
    parseHdrs (some (4 + b.length)) n (lines hs (13 :: 10 :: b)) = (hs.map (·.1), b) := by
  induction hs generalizing n with
  | nil => exact absurd rfl hne
  | cons p hs ih =>
    obtain ⟨h, k⟩ := p
    cases n with
    | zero => simp at hn
    | succ n =>
      simp only [lines]
      rw [parse_step _ _ h (hw (h, k) (by simp))]
      by_cases he : hs = []
      · subst he
        have : (13 :: 10 :: b).dropWhile (fun c => [13, 10].contains c) = b := by
          have := dropWhile_crlf b hb
          simpa using this
        simp only [lines, this, past]
        simp
      · have hd := dropWhile_crlf (lines hs (13 :: 10 :: b))
          (lines_head hs (fun p hp => hw p (by simp [hp])) he _)
        simp only [hd]
        have hl : ¬ (lines hs (13 :: 10 :: b)).length < 4 + b.length := by
          cases hs with
          | nil => exact absurd rfl he
          | cons q hs =>
            obtain ⟨h', k'⟩ := q
            have := line_length h' (hw (h', k') (by simp)) k'
            have hrest : ∀ hs : List (Hdr × Nat), 2 + b.length ≤ (lines hs (13 :: 10 :: b)).length := by
              intro hs
              induction hs with
              | nil => simp [lines]; omega
              | cons q hs ih => simp [lines]; omega
            have := hrest hs
            simp [lines]; omega
        simp only [past, hl]
        rw [ih n (fun p hp => hw p (by simp [hp])) he (by simpa using hn)]
        simp

theorem clientHeaders_response (status : List Nat) (hst : ∀ c ∈ status, c ≠ 13 ∧ c ≠ 10)
    (hs : List (Hdr × Nat)) (hw : ∀ p ∈ hs, WellFormed p.1) (hne : hs ≠ [])
    (hn : hs.length ≤ 16) (b : List Nat) (hb : b.head? ≠ some 13 ∧ b.head? ≠ some 10) :
    clientHeaders (response status hs b) = (hs.map (·.1), b) := by
  unfold clientHeaders response
  have hd : findDelim (status ++ 13 :: 10 :: lines hs (13 :: 10 :: b)) = some (4 + b.length) := by
    rw [findDelim_skip _ _ (fun c hc => (hst c hc).1),
      findDelim_crlf _ (lines_head hs hw hne _).1, findDelim_lines hs hw hne]
  have hsk : (skip [13, 10] (status ++ 13 :: 10 :: lines hs (13 :: 10 :: b))).2 =
      lines hs (13 :: 10 :: b) := by
    unfold skip
    rw [Verif.HttpHdr.skipWord_append [13, 10] [13, 10] _ _ 13 (fun c hc => by
      have := hst c hc; simp; exact this) (by simp)]
    have := dropWhile_crlf _ (lines_head hs hw hne (13 :: 10 :: b))
    simpa using this
  rw [hd, hsk, parse_lines 16 hs hw hne hn b hb]

theorem lines_append (hs : List (Hdr × Nat)) (t b : List Nat) :
    lines hs (t ++ b) = lines hs t ++ b := by
  induction hs with
  | nil => rfl
  | cons p hs ih => obtain ⟨h, k⟩ := p; simp [lines, ih]

theorem response_append (status : List Nat) (hs : List (Hdr × Nat)) (b : List Nat) :
    response status hs b = response status hs [] ++ b := by
  have := lines_append hs [13, 10] b
  simp only [List.cons_append, List.nil_append] at this
  simp [response, this]

/-- Header lines without NUL. -/
def NoNul (hs : List (Hdr × Nat)) : Prop :=
  ∀ p ∈ hs, (∀ c ∈ p.1.name, c ≠ 0) ∧ (∀ c ∈ p.1.value, c ≠ 0)

theorem lines_noNul (hs : List (Hdr × Nat)) (h : NoNul hs) (t : List Nat) (ht : ∀ c ∈ t, c ≠ 0) :
    ∀ c ∈ lines hs t, c ≠ 0 := by
  induction hs with
  | nil => exact ht
  | cons p hs ih =>
    obtain ⟨x, k⟩ := p
    have hx := h (x, k) (by simp)
    have ih := ih (fun p hp => h p (by simp [hp]))
    intro c hc
    simp only [lines, line, List.mem_append, List.mem_cons, List.mem_replicate] at hc
    rcases hc with (hc | hc | hc | hc | hc | hc | hc) | hc
    · exact hx.1 c hc
    · omega
    · omega
    · exact hx.2 c hc
    · omega
    · omega
    · simp at hc
    · exact ih c hc

theorem takeWhile_noNul (p b : List Nat) (h : ∀ c ∈ p, c ≠ 0) :
    (p ++ b).takeWhile (· != 0) = p ++ b.takeWhile (· != 0) := by
  rw [List.takeWhile_append_of_pos]
  intro c hc; simpa using h c hc

theorem head_takeWhile {b : List Nat} (hb : b.head? ≠ some 13 ∧ b.head? ≠ some 10) :
    (b.takeWhile (· != 0)).head? ≠ some 13 ∧ (b.takeWhile (· != 0)).head? ≠ some 10 := by
  cases b with
  | nil => simp
  | cons c b =>
    simp only [List.takeWhile]
    cases c with
    | zero => simp
    | succ c => simpa using hb

/-- A response that can be split: no CR, LF, NUL in the status line, well-formed headers
without NUL, at least one and at most 16 of them, and a body that does not begin with CR or
LF. -/
structure Good (status : List Nat) (hs : List (Hdr × Nat)) (b : List Nat) : Prop where
  st : ∀ c ∈ status, c ≠ 13 ∧ c ≠ 10 ∧ c ≠ 0
  wf : ∀ p ∈ hs, WellFormed p.1
  nonul : NoNul hs
  ne : hs ≠ []
  few : hs.length ≤ 16
  body : b.head? ≠ some 13 ∧ b.head? ≠ some 10

theorem split_response {status : List Nat} {hs : List (Hdr × Nat)} {b : List Nat}
    (g : Good status hs b) :
    let raw := response status hs b
    let s := raw.takeWhile (· != 0)
    clientHeaders s = (hs.map (·.1), b.takeWhile (· != 0)) ∧
      raw.drop s.length = b.drop (b.takeWhile (· != 0)).length ∧
      s = response status hs (b.takeWhile (· != 0)) := by
  have hp : ∀ c ∈ response status hs [], c ≠ 0 := by
    intro c hc
    simp only [response, List.mem_append, List.mem_cons] at hc
    rcases hc with hc | hc | hc | hc
    · exact (g.st c hc).2.2
    · omega
    · omega
    · exact lines_noNul hs g.nonul [13, 10] (by simp) c hc
  have hs' : (response status hs b).takeWhile (· != 0) =
      response status hs (b.takeWhile (· != 0)) := by
    rw [response_append, takeWhile_noNul _ _ hp, ← response_append]
  refine ⟨?_, ?_, hs'⟩
  · rw [hs']
    exact clientHeaders_response status (fun c hc => ⟨(g.st c hc).1, (g.st c hc).2.1⟩) hs g.wf g.ne
      g.few _ (head_takeWhile g.body)
  · rw [hs', response_append status hs b, response_append status hs (b.takeWhile _)]
    simp

theorem statusCode_append {p t : List Nat} {k : Nat} (h : statusCode p = some k)
    (_hl : 12 ≤ p.length) : statusCode (p ++ t) = some k := by
  match p, _hl with
  | a1 :: a2 :: a3 :: a4 :: a5 :: a6 :: a7 :: a8 :: a9 :: a10 :: a11 :: a12 :: p, _ =>
    simpa [statusCode] using h

theorem payload_eq (b : List Nat) :
    b.takeWhile (· != 0) ++ b.drop (b.takeWhile (· != 0)).length = b := by
  have h := @List.takeWhile_append_dropWhile _ (fun x : Nat => x != 0) b
  have : b.drop (b.takeWhile (· != 0)).length = b.dropWhile (· != 0) := by
    conv => lhs; rw [← h]
    rw [List.drop_append]
    simp
  rw [this, h]

theorem getResponse_good {status : List Nat} {hs : List (Hdr × Nat)} {b : List Nat}
    (g : Good status hs b) {k : Nat} (hk : statusCode status = some k) (hl : 12 ≤ status.length)
    (tok) (ctx : Ctx) (op : Op) :
    getResponse tok ctx op (response status hs b) =
      if k = 200 then
        ⟨(okBody op (hs.map (·.1)) b).1, ctx.mode, ctx.delay, (okBody op (hs.map (·.1)) b).2⟩
      else
        let r := statusErr tok ctx (hs.map (·.1)) (some k)
        ⟨r.1, r.2.1, r.2.2, none⟩ := by
  obtain ⟨h1, h2, h3⟩ := split_response g
  have hne : response status hs b ≠ [] := by unfold response; simp
  unfold getResponse
  rw [if_neg hne]
  simp only [h1, h2, payload_eq]
  rw [h3]
  have hst : statusCode (response status hs (b.takeWhile (· != 0))) = some k :=
    statusCode_append hk hl
  simp only [hst, Option.some.injEq]

theorem statusCode_200 {t : List Nat} (h : statusCode t = some 200) : [72, 84, 84, 80, 47, 49, 46, 49, 32, 50, 48, 48] <+: t := by
  unfold statusCode at h
  split at h
  · rw [← List.isPrefixOf_iff_prefix]; assumption
  · exfalso
    repeat' split at h
    all_goals simp at h

theorem wf_of {n v : List Nat} (h1 : n ≠ []) (h2 : ∀ c ∈ n, c ≠ 58 ∧ c ≠ 13 ∧ c ≠ 10)
    (h3 : ∀ c ∈ v, c ≠ 13 ∧ c ≠ 10) (h4 : v.head? ≠ some 32) : WellFormed ⟨n, v⟩ :=
  ⟨h1, h2, h3, h4⟩

/-! ## C28 -/

theorem checkLoop_some (ct : List Nat) (hs : List Hdr) (r : Bool × Option Int)
    (h : ∀ x ∈ hs, x.name = [67, 111, 110, 116, 101, 110, 116, 45, 84, 121, 112, 101] → ct <+: x.value) :
    ∃ r', checkLoop ct hs r = some r' ∧
      (r'.1 = true ↔ r.1 = true ∨ ∃ x ∈ hs, x.name = [67, 111, 110, 116, 101, 110, 116, 45, 84, 121, 112, 101]) ∧
      (∀ n : Int, (∀ x ∈ hs, x.name = [67, 111, 110, 116, 101, 110, 116, 45, 76, 101, 110, 103, 116, 104] → atoi x.value = n) →
        r'.2 = if (∃ x ∈ hs, x.name = [67, 111, 110, 116, 101, 110, 116, 45, 76, 101, 110, 103, 116, 104]) then some n else r.2) := by
  induction hs generalizing r with
  | nil => exact ⟨r, rfl, by simp, by simp⟩
  | cons x hs ih =>
    obtain ⟨seen, cl⟩ := r
    unfold checkLoop
    have hd : ¬ ([67, 111, 110, 116, 101, 110, 116, 45, 84, 121, 112, 101] = [67, 111, 110, 116, 101, 110, 116, 45, 76, 101, 110, 103, 116, 104]) := by decide
    by_cases h1 : x.name = [67, 111, 110, 116, 101, 110, 116, 45, 84, 121, 112, 101]
    · have hp : ct.isPrefixOf x.value = true := List.isPrefixOf_iff_prefix.2 (h x (by simp) h1)
      rw [if_pos h1, if_pos hp]
      obtain ⟨r', e, a, b⟩ := ih (true, cl) (fun y hy => h y (by simp [hy]))
      refine ⟨r', e, ?_, ?_⟩
      · rw [a]; simp [h1]
      · intro n hn
        rw [b n (fun y hy => hn y (by simp [hy]))]
        have : ¬ x.name = [67, 111, 110, 116, 101, 110, 116, 45, 76, 101, 110, 103, 116, 104] := by rw [h1]; exact hd
        simp [this]
    · rw [if_neg h1]
      by_cases h2 : x.name = [67, 111, 110, 116, 101, 110, 116, 45, 76, 101, 110, 103, 116, 104]
      · rw [if_pos h2]
        obtain ⟨r', e, a, b⟩ := ih (seen, some (atoi x.value)) (fun y hy => h y (by simp [hy]))
        refine ⟨r', e, ?_, ?_⟩
        · rw [a]; simp [h1]
        · intro n hn
          rw [b n (fun y hy => hn y (by simp [hy]))]
          have hx := hn x (by simp) h2
          simp [h2, hx]
      · rw [if_neg h2]
        obtain ⟨r', e, a, b⟩ := ih (seen, cl) (fun y hy => h y (by simp [hy]))
        refine ⟨r', e, ?_, ?_⟩
        · rw [a]; simp [h1]
        · intro n hn
          rw [b n (fun y hy => hn y (by simp [hy]))]
          simp [h2]

theorem checkLoop_sound (ct : List Nat) (hs : List Hdr) (r r' : Bool × Option Int)
    (h : checkLoop ct hs r = some r') :
    (∀ x ∈ hs, x.name = [67, 111, 110, 116, 101, 110, 116, 45, 84, 121, 112, 101] → ct <+: x.value) ∧
    (r'.1 = true → r.1 = true ∨ ∃ x ∈ hs, x.name = [67, 111, 110, 116, 101, 110, 116, 45, 84, 121, 112, 101]) ∧
    (∀ n, r'.2 = some n → r.2 = some n ∨ ∃ x ∈ hs, x.name = [67, 111, 110, 116, 101, 110, 116, 45, 76, 101, 110, 103, 116, 104] ∧ atoi x.value = n) := by
  induction hs generalizing r with
  | nil => simp [checkLoop] at h; subst h; simp
  | cons x hs ih =>
    obtain ⟨seen, cl⟩ := r
    unfold checkLoop at h
    by_cases h1 : x.name = [67, 111, 110, 116, 101, 110, 116, 45, 84, 121, 112, 101]
    · rw [if_pos h1] at h
      by_cases hp : ct.isPrefixOf x.value = true
      · rw [if_pos hp] at h
        obtain ⟨a, b, c⟩ := ih _ h
        refine ⟨?_, ?_, ?_⟩
        · intro y hy hn
          rcases List.mem_cons.1 hy with rfl | hy
          · exact List.isPrefixOf_iff_prefix.1 hp
          · exact a y hy hn
        · intro _; exact .inr ⟨x, by simp, h1⟩
        · intro n hn
          rcases c n hn with c | ⟨y, hy, hy2⟩
          · exact .inl c
          · exact .inr ⟨y, by simp [hy], hy2⟩
      · rw [if_neg hp] at h; simp at h
    · rw [if_neg h1] at h
      have step : ∀ cl', checkLoop ct hs (seen, cl') = some r' →
          (∀ y ∈ x :: hs, y.name = [67, 111, 110, 116, 101, 110, 116, 45, 84, 121, 112, 101] → ct <+: y.value) ∧
          (r'.1 = true → seen = true ∨ ∃ y ∈ x :: hs, y.name = [67, 111, 110, 116, 101, 110, 116, 45, 84, 121, 112, 101]) ∧
          (∀ n, r'.2 = some n → cl' = some n ∨
            ∃ y ∈ hs, y.name = [67, 111, 110, 116, 101, 110, 116, 45, 76, 101, 110, 103, 116, 104] ∧ atoi y.value = n) := by
        intro cl' h'
        obtain ⟨a, b, c⟩ := ih _ h'
        refine ⟨?_, ?_, c⟩
        · intro y hy hn
          rcases List.mem_cons.1 hy with rfl | hy
          · exact absurd hn h1
          · exact a y hy hn
        · intro hr
          rcases b hr with b | ⟨y, hy, hn⟩
          · exact .inl b
          · exact .inr ⟨y, by simp [hy], hn⟩
      by_cases h2 : x.name = [67, 111, 110, 116, 101, 110, 116, 45, 76, 101, 110, 103, 116, 104]
      · rw [if_pos h2] at h
        obtain ⟨a, b, c⟩ := step _ h
        refine ⟨a, b, ?_⟩
        intro n hn
        rcases c n hn with c | ⟨y, hy, hy2⟩
        · simp at c; exact .inr ⟨x, by simp, h2, c⟩
        · exact .inr ⟨y, by simp [hy], hy2⟩
      · rw [if_neg h2] at h
        obtain ⟨a, b, c⟩ := step _ h
        refine ⟨a, b, ?_⟩
        intro n hn
        rcases c n hn with c | ⟨y, hy, hy2⟩
        · exact .inl c
        · exact .inr ⟨y, by simp [hy], hy2⟩

theorem atoi_decimal (n : Nat) (h : n < 2 ^ 31) : atoi (decimal n) = n := by
  have hd := decimal_digits n
  have hne := decimal_ne_nil n
  have hv := numVal_decimal n
  revert hd hne hv
  generalize decimal n = t
  intro hd hne hv
  have htw : t.takeWhile isDigit = t := by
    have h1 : (t ++ []).takeWhile isDigit = t ++ ([] : List Nat).takeWhile isDigit :=
      List.takeWhile_append_of_pos (fun c hc => by have := hd c hc; simp [isDigit]; omega)
    simpa using h1
  cases t with
  | nil => exact absurd rfl hne
  | cons c t =>
    have hc := hd c (by simp)
    have hsp : isSpace c = false := by
      simp [isSpace]; omega
    unfold atoi
    simp only [List.dropWhile, hsp]
    have h45 : c ≠ 45 := by omega
    have h43 : c ≠ 43 := by omega
    have hsg : splitSign (c :: t) = (false, c :: t) := by
      unfold splitSign
      split <;> simp_all
    rw [hsg]
    simp only [htw, hv]
    simp
    omega

/-- C28: a complete response (status 200, the content type of the operation, a Content-Length
that is the size of the body, at most 16 headers and a body that does not begin with a line
end) is accepted, and the body is handed over byte for byte. -/
theorem C28_complete_response_accepted (tok) (ctx : Ctx) (op : Op) (status : List Nat)
    (hs : List (Hdr × Nat)) (b : List Nat) (g : Good status hs b)
    (h200 : [72, 84, 84, 80, 47, 49, 46, 49, 32, 50, 48, 48] <+: status)
    (hop : op ≠ .voucherStatus ∧ op ≠ .enrollStatus)
    (hct : ∀ p ∈ hs, p.1.name = [67, 111, 110, 116, 101, 110, 116, 45, 84, 121, 112, 101] → opType op <+: p.1.value)
    (hct1 : ∃ p ∈ hs, p.1.name = [67, 111, 110, 116, 101, 110, 116, 45, 84, 121, 112, 101])
    (hcl : ∀ p ∈ hs, p.1.name = [67, 111, 110, 116, 101, 110, 116, 45, 76, 101, 110, 103, 116, 104] → p.1.value = decimal b.length)
    (hcl1 : ∃ p ∈ hs, p.1.name = [67, 111, 110, 116, 101, 110, 116, 45, 76, 101, 110, 103, 116, 104])
    (hb : b.length ≤ 2000000) :
    getResponse tok ctx op (response status hs b) =
      ⟨.none, ctx.mode, ctx.delay, if b = [] then none else some b⟩ := by
  have hk : statusCode status = some 200 := by
    unfold statusCode
    rw [if_pos (List.isPrefixOf_iff_prefix.2 h200)]
  rw [getResponse_good g hk (by simpa using h200.length_le), if_pos rfl]
  obtain ⟨r', e, a, c⟩ := checkLoop_some (opType op) (hs.map (·.1)) (false, none)
    (by simpa using hct)
  have c := c b.length (by
    intro x hx hn
    simp only [List.mem_map] at hx
    obtain ⟨p, hp, rfl⟩ := hx
    rw [hcl p hp hn, atoi_decimal _ (by omega)])
  have h1 : r'.1 = true := a.2 (.inr (by
    obtain ⟨p, hp, hn⟩ := hct1; exact ⟨p.1, by simpa using ⟨p.2, hp⟩, hn⟩))
  rw [if_pos (by obtain ⟨p, hp, hn⟩ := hcl1; exact ⟨p.1, by simpa using ⟨p.2, hp⟩, hn⟩)] at c
  have hchk : checkHdrs op (hs.map (·.1)) = some (b.length : Int) := by
    unfold checkHdrs
    rw [e]
    cases r' with
    | mk x y => simp only at h1 c; rw [h1, c]
  have hok : okBody op (hs.map (·.1)) b = (.none, if b = [] then none else some b) := by
    unfold okBody
    rw [if_neg (by simp [hop.1, hop.2]), hchk]
    unfold takeBody caMax
    simp only
    rw [if_neg (by omega), if_neg (by omega), if_neg (by simp)]
    by_cases hbe : b = []
    · subst hbe; simp
    · have : b.length ≠ 0 := by simpa using hbe
      simp [hbe]
  rw [hok]

/-- C28: the body that is handed over for a response that can be split is exactly the body of
the response; the status was 200, every Content-Type matches and there is one, and there is a
Content-Length that equals the length of the body, which is between 1 and `EST_CA_MAX`.
Responses with more than 16 headers are excluded; see `C28_many_headers_false`. -/
theorem C28_body_complete_and_typed_partial (tok) (ctx : Ctx) (op : Op) (status : List Nat)
    (hs : List (Hdr × Nat)) (b r : List Nat) (g : Good status hs b)
    (hl : 12 ≤ status.length)
    (h : (getResponse tok ctx op (response status hs b)).body = some r) :
    r = b ∧ [72, 84, 84, 80, 47, 49, 46, 49, 32, 50, 48, 48] <+: status ∧ 0 < b.length ∧ b.length ≤ 2000000 ∧
      (∀ p ∈ hs, p.1.name = [67, 111, 110, 116, 101, 110, 116, 45, 84, 121, 112, 101] → opType op <+: p.1.value) ∧
      (∃ p ∈ hs, p.1.name = [67, 111, 110, 116, 101, 110, 116, 45, 84, 121, 112, 101]) ∧
      (∃ p ∈ hs, p.1.name = [67, 111, 110, 116, 101, 110, 116, 45, 76, 101, 110, 103, 116, 104] ∧ atoi p.1.value = b.length) := by
  have h200 : [72, 84, 84, 80, 47, 49, 46, 49, 32, 50, 48, 48].isPrefixOf status = true := by
    obtain ⟨h1, h2, h3⟩ := split_response g
    have hne : response status hs b ≠ [] := by unfold response; simp
    by_cases hst : statusCode (response status hs (b.takeWhile (· != 0))) = some 200
    · have hp := statusCode_200 hst
      rw [List.isPrefixOf_iff_prefix]
      exact List.prefix_of_prefix_length_le hp (List.prefix_append _ _) (by simpa using hl)
    · exfalso
      unfold getResponse at h
      rw [if_neg hne] at h
      simp only at h h3
      rw [h3, if_neg hst] at h
      simp at h
  have hk : statusCode status = some 200 := by
    unfold statusCode
    rw [if_pos h200]
  rw [getResponse_good g hk hl, if_pos rfl] at h
  simp only at h
  unfold okBody at h
  split at h
  · simp at h
  split at h
  · simp at h
  rename_i cl hchk
  unfold checkHdrs at hchk
  split at hchk
  · rename_i n hcl
    simp only [Option.some.injEq] at hchk
    subst hchk
    obtain ⟨a, c, d⟩ := checkLoop_sound _ _ _ _ hcl
    unfold takeBody at h
    split at h
    · simp at h
    split at h
    · simp at h
    split at h
    · simp at h
    split at h
    · simp at h
    rename_i h1 h2 h3 h4
    simp only [Option.some.injEq] at h
    have hd := d n rfl
    have hc := c rfl
    refine ⟨h.symm, List.isPrefixOf_iff_prefix.1 h200, ?_, ?_, ?_, ?_, ?_⟩
    · have : (n : Int) = b.length := by simpa using h3
      omega
    · have : (n : Int) = b.length := by simpa using h3
      unfold caMax at h1
      omega
    · intro p hp hn; exact a p.1 (by simpa using ⟨p.2, hp⟩) hn
    · rcases hc with hc | ⟨x, hx, hn⟩
      · simp at hc
      · simp only [List.mem_map] at hx; obtain ⟨p, hp, rfl⟩ := hx; exact ⟨p, hp, hn⟩
    · rcases hd with hd | ⟨x, hx, hn, hv⟩
      · simp at hd
      · simp only [List.mem_map] at hx; obtain ⟨p, hp, rfl⟩ := hx
        refine ⟨p, hp, hn, ?_⟩
        rw [hv]
        simpa using h3
  · simp at hchk

/-- The example response. -/
def demo : List Nat :=
  response [72, 84, 84, 80, 47, 49, 46, 49, 32, 50, 48, 48, 32, 79, 75] [(⟨[67, 111, 110, 116, 101, 110, 116, 45, 84, 121, 112, 101], [97, 112, 112, 108, 105, 99, 97, 116, 105, 111, 110, 47, 99, 115, 114, 97, 116, 116, 114, 115]⟩, 1),
    (⟨[67, 111, 110, 116, 101, 110, 116, 45, 76, 101, 110, 103, 116, 104], [52]⟩, 1)] [84, 87, 70, 117]

example : getResponse (fun _ => true) ⟨.none, 0⟩ .csrattrs demo =
    ⟨.none, .none, 0, some [84, 87, 70, 117]⟩ := by decide +kernel

/-- C28 is false with more than 16 headers: the rest of the headers counts as body. -/
theorem C28_many_headers_false :
    (getResponse (fun _ => true) ⟨.none, 0⟩ .csrattrs
      (response [72, 84, 84, 80, 47, 49, 46, 49, 32, 50, 48, 48, 32, 79, 75] ([(⟨[67, 111, 110, 116, 101, 110, 116, 45, 84, 121, 112, 101], [97, 112, 112, 108, 105, 99, 97, 116, 105, 111, 110, 47, 99, 115, 114, 97, 116, 116, 114, 115]⟩, 1),
        (⟨[67, 111, 110, 116, 101, 110, 116, 45, 76, 101, 110, 103, 116, 104], [49, 50]⟩, 1)] ++ List.replicate 15 (⟨[88], [49]⟩, 1)) [84, 87, 70, 117])).body =
      some ([88, 58, 32, 49] ++ [13, 10, 13, 10] ++ [84, 87, 70, 117]) := by decide +kernel

/-- A complete response whose body begins with a line end is refused: the line end is taken
for a part of the blank line. -/
theorem C28_leading_newline_refused :
    getResponse (fun _ => true) ⟨.none, 0⟩ .csrattrs
      (response [72, 84, 84, 80, 47, 49, 46, 49, 32, 50, 48, 48, 32, 79, 75] [(⟨[67, 111, 110, 116, 101, 110, 116, 45, 84, 121, 112, 101], [97, 112, 112, 108, 105, 99, 97, 116, 105, 111, 110, 47, 99, 115, 114, 97, 116, 116, 114, 115]⟩, 1),
        (⟨[67, 111, 110, 116, 101, 110, 116, 45, 76, 101, 110, 103, 116, 104], [53]⟩, 1)] (10 :: [84, 87, 70, 117])) =
      ⟨.httpUnsupported, .none, 0, none⟩ := by decide +kernel

/-! ## C24 -/

/-- What the application should see for an error of the server: the errors that the protocol
has a status for are reported as such, everything else as an unspecific error. -/
def clientSees (e : EstErr) : EstErr :=
  match e with
  | .httpNoContent => .httpNoContent
  | .httpBadReq | .csrAttrMissing | .badAsn1Hex | .badPkcs10 | .badContentType | .wrongMethod
  | .noSslCtx => .httpBadReq
  | .authFail | .authFailTlsuid => .authFail
  | .httpNotFound | .httpInvalidPathSegment => .httpNotFound
  | .httpLocked => .httpLocked
  | .caEnrollRetry => .caEnrollRetry
  | _ => .unknown

def statusLine (st : Nat) : List Nat := [72, 84, 84, 80, 47, 49, 46, 49, 32] ++ decimal st ++ [32] ++ reason st

theorem errorText_eq (st : Nat) (text : List Nat) (keep : Bool) :
    errorText st text keep = response (statusLine st)
      [(⟨[67, 111, 110, 116, 101, 110, 116, 45, 76, 101, 110, 103, 116, 104], decimal (errorBody st text).length⟩, 1),
       (⟨[67, 111, 110, 110, 101, 99, 116, 105, 111, 110], if keep then [107, 101, 101, 112, 45, 97, 108, 105, 118, 101] else [99, 108, 111, 115, 101]⟩, 1)] (errorBody st text) := by
  simp [errorText, response, lines, line, statusLine]

theorem decimal_ok (n : Nat) : ∀ c ∈ decimal n, c ≠ 13 ∧ c ≠ 10 ∧ c ≠ 0 ∧ c ≠ 32 := by
  intro c hc; have := decimal_digits n c hc; omega

theorem decimal3 {n : Nat} (h1 : 100 ≤ n) (h2 : n < 1000) :
    decimal n = [48 + n / 100, 48 + n / 10 % 10, 48 + n % 10] := by
  unfold decimal
  rw [if_neg (by omega)]
  unfold decimal
  rw [if_neg (by omega)]
  unfold decimal
  rw [if_pos (by omega)]
  simp
  omega

theorem reason_ok (st : Nat) : ∀ c ∈ reason st, c ≠ 13 ∧ c ≠ 10 ∧ c ≠ 0 := by
  unfold reason
  repeat' split
  all_goals decide

theorem statusLine_ok (st : Nat) : ∀ c ∈ statusLine st, c ≠ 13 ∧ c ≠ 10 ∧ c ≠ 0 := by
  intro c hc
  unfold statusLine at hc
  simp only [List.mem_append] at hc
  rcases hc with ((hc | hc) | hc) | hc
  · revert c; decide
  · have := decimal_ok st c hc; exact ⟨this.1, this.2.1, this.2.2.1⟩
  · simp at hc; omega
  · exact reason_ok st c hc

theorem wf_connection (keep : Bool) :
    WellFormed ⟨[67, 111, 110, 110, 101, 99, 116, 105, 111, 110], if keep then [107, 101, 101, 112, 45, 97, 108, 105, 118, 101] else [99, 108, 111, 115, 101]⟩ := by
  cases keep <;> exact wf_of (by decide) (by decide) (by decide) (by decide)

theorem decimal_head (n : Nat) : (decimal n).head? ≠ some 32 := by
  intro h
  have := decimal_ok n 32 (List.mem_of_head? h)
  exact this.2.2.2 rfl

theorem errorText_good (st : Nat) (text : List Nat) (keep : Bool) :
    Good (statusLine st)
      [(⟨[67, 111, 110, 116, 101, 110, 116, 45, 76, 101, 110, 103, 116, 104], decimal (errorBody st text).length⟩, 1),
       (⟨[67, 111, 110, 110, 101, 99, 116, 105, 111, 110], if keep then [107, 101, 101, 112, 45, 97, 108, 105, 118, 101] else [99, 108, 111, 115, 101]⟩, 1)] (errorBody st text) := by
  constructor
  · exact statusLine_ok st
  · intro p hp
    simp only [List.mem_cons, List.not_mem_nil, or_false] at hp
    rcases hp with rfl | rfl
    · exact wf_of (by decide) (by decide)
        (fun c hc => ⟨(decimal_ok _ c hc).1, (decimal_ok _ c hc).2.1⟩) (decimal_head _)
    · exact wf_connection keep
  · intro p hp
    simp only [List.mem_cons, List.not_mem_nil, or_false] at hp
    rcases hp with rfl | rfl
    · exact ⟨(by decide : ∀ c ∈ [67, 111, 110, 116, 101, 110, 116, 45, 76, 101, 110, 103, 116, 104], c ≠ 0), fun c hc => (decimal_ok _ c hc).2.2.1⟩
    · refine ⟨(by decide : ∀ c ∈ [67, 111, 110, 110, 101, 99, 116, 105, 111, 110], c ≠ 0), ?_⟩
      cases keep
      · exact (by decide : ∀ c ∈ [99, 108, 111, 115, 101], c ≠ 0)
      · exact (by decide : ∀ c ∈ [107, 101, 101, 112, 45, 97, 108, 105, 118, 101], c ≠ 0)
  · simp
  · simp
  · unfold errorBody
    split <;> simp

theorem statusCode_line (st : Nat) (h : st ∈ [202, 204, 400, 401, 404, 423, 500, 502, 504]) :
    statusCode (statusLine st) = some st := by
  have h3 := @decimal3 st (by simp at h; omega) (by simp at h; omega)
  unfold statusLine
  rw [h3]
  simp at h
  rcases h with rfl | rfl | rfl | rfl | rfl | rfl | rfl | rfl | rfl <;> decide

/-- C24: whatever error the server reports, the client reports the corresponding one, for every
explanation text, connection header and operation, and every state of the client.  (Retry is
`C25_server_retry`; key generation has its own parser.) -/
theorem C24_error_round_trip (tok) (ctx : Ctx) (op : Op) (e : EstErr) (text : List Nat)
    (keep : Bool) (he : e ≠ .caEnrollRetry) :
    (getResponse tok ctx op (errorText (Server.errStatus e) text keep)).err = clientSees e ∧
    (getResponse tok ctx op (errorText (Server.errStatus e) text keep)).body = none := by
  have hmem : Server.errStatus e ∈ [202, 204, 400, 401, 404, 423, 500, 502, 504] := by
    cases e <;> simp [Server.errStatus]
  have hlen : 12 ≤ (statusLine (Server.errStatus e)).length := by
    have h3 := @decimal3 (Server.errStatus e) (by simp at hmem; omega) (by simp at hmem; omega)
    unfold statusLine
    rw [h3]; simp
  rw [errorText_eq, getResponse_good (errorText_good _ _ _) (statusCode_line _ hmem) hlen]
  have h200 : Server.errStatus e ≠ 200 := by simp at hmem; omega
  rw [if_neg h200]
  refine ⟨?_, rfl⟩
  cases e <;> first
    | exact absurd rfl he
    | (simp [Server.errStatus, statusErr, clientSees]; done)
    | (simp only [Server.errStatus, statusErr, clientSees]; split <;> rfl)

example : (getResponse (fun _ => true) ⟨.none, 0⟩ .enroll
    (errorText 423 [108, 111, 99, 107, 101, 100] false)).err = .httpLocked := by decide +kernel

/-- C24: success is reported only for the status 200. -/
theorem C24_success_only_for_200 (tok) (ctx : Ctx) (op : Op) (raw : List Nat)
    (h : (getResponse tok ctx op raw).err = .none) : [72, 84, 84, 80, 47, 49, 46, 49, 32, 50, 48, 48] <+: raw := by
  unfold getResponse at h
  split at h
  · simp at h
  simp only at h
  split at h
  · rename_i hst
    exact (statusCode_200 hst).trans (List.takeWhile_prefix _)
  · rename_i hst
    have hr : ∀ hs : List Hdr, (retryAfter hs).1 ≠ .none := by
      intro hs
      unfold retryAfter
      suffices ∀ r : EstErr × Nat, r.1 ≠ .none → (retryLoop hs r).1 ≠ .none from this _ (by simp)
      induction hs with
      | nil => intro r hr; exact hr
      | cons x hs ih =>
        intro r hr
        unfold retryLoop
        apply ih
        split
        · simp
        · exact hr
    unfold statusErr at h
    repeat' split at h
    all_goals simp at h
    exact absurd h (hr _)

example : (getResponse (fun _ => true) ⟨.none, 0⟩ .csrattrs demo).err = .none := by decide +kernel

/-! ## C25 -/

theorem retryLoop_other (hs : List Hdr) (r : EstErr × Nat)
    (h : ∀ x ∈ hs, ¬ SameText x.name [82, 101, 116, 114, 121, 45, 65, 102, 116, 101, 114]) : retryLoop hs r = r := by
  induction hs generalizing r with
  | nil => rfl
  | cons x hs ih =>
    unfold retryLoop
    have hx : caseEq x.name [82, 101, 116, 114, 121, 45, 65, 102, 116, 101, 114] = false := by
      cases hc : caseEq x.name [82, 101, 116, 114, 121, 45, 65, 102, 116, 101, 114] with
      | false => rfl
      | true => exact absurd ((Verif.HttpHdr.caseEq_iff _ _).1 hc) (h x (by simp))
    rw [hx]
    simp only [Bool.false_and]
    exact ih r (fun y hy => h y (by simp [hy]))

theorem retryAfter_found (pre post : List Hdr) (x : Hdr) (d : Nat)
    (hx : SameText x.name [82, 101, 116, 114, 121, 45, 65, 102, 116, 101, 114]) (hv : x.value = decimal d) (hd : d < 2 ^ 31)
    (hpost : ∀ y ∈ post, ¬ SameText y.name [82, 101, 116, 114, 121, 45, 65, 102, 116, 101, 114]) :
    retryAfter (pre ++ x :: post) = (.caEnrollRetry, d) := by
  unfold retryAfter
  generalize (EstErr.invalidRetryValue, 0) = r
  induction pre generalizing r with
  | nil =>
    simp only [List.nil_append]
    unfold retryLoop
    rw [retryLoop_other post _ hpost]
    have h1 : caseEq x.name [82, 101, 116, 114, 121, 45, 65, 102, 116, 101, 114] = true := (Verif.HttpHdr.caseEq_iff _ _).2 hx
    have h2 : (decimal d).all isDigit = true := by
      rw [List.all_eq_true]; intro c hc; have := decimal_digits d c hc; simp [isDigit]; omega
    have h3 := numVal_decimal d
    have h4 := decimal_ne_nil d
    rw [hv, h1, h2, h3]
    simp [h4]
    omega
  | cons y pre ih =>
    simp only [List.cons_append]
    unfold retryLoop
    exact ih _

/-- C25: a 202 response with a Retry-After header (any case of letters, any other headers, at
most 16 in all) gives the application exactly the value; a second call gives 0. -/
theorem C25_retry_after (tok) (ctx : Ctx) (op : Op) (status : List Nat)
    (pre post : List (Hdr × Nat)) (x : Hdr) (k d : Nat) (b : List Nat)
    (g : Good status (pre ++ (x, k) :: post) b) (h202 : [72, 84, 84, 80, 47, 49, 46, 49, 32, 50, 48, 50] <+: status)
    (hx : SameText x.name [82, 101, 116, 114, 121, 45, 65, 102, 116, 101, 114]) (hv : x.value = decimal d) (hd : d < 2 ^ 31)
    (hpost : ∀ p ∈ post, ¬ SameText p.1.name [82, 101, 116, 114, 121, 45, 65, 102, 116, 101, 114]) :
    let r := getResponse tok ctx op (response status (pre ++ (x, k) :: post) b)
    r.err = .caEnrollRetry ∧ r.mode = ctx.mode ∧ r.body = none ∧
      (copyRetryAfter ⟨r.mode, r.delay⟩).1 = d ∧
      (copyRetryAfter (copyRetryAfter ⟨r.mode, r.delay⟩).2).1 = 0 := by
  have hk : statusCode status = some 202 := by
    obtain ⟨t, rfl⟩ := h202
    exact statusCode_append (by decide) (by decide)
  have hlen : 12 ≤ status.length := by simpa using h202.length_le
  simp only
  rw [getResponse_good g hk hlen, if_neg (by decide)]
  have hr : retryAfter ((pre ++ (x, k) :: post).map (·.1)) = (.caEnrollRetry, d) := by
    rw [List.map_append, List.map_cons]
    exact retryAfter_found _ _ x d hx hv hd (by
      intro y hy; simp only [List.mem_map] at hy; obtain ⟨p, hp, rfl⟩ := hy; exact hpost p hp)
  simp only [statusErr, hr, copyRetryAfter]
  simp

theorem retryLoop_sound (hs : List Hdr) (r : EstErr × Nat) :
    retryLoop hs r = r ∨ ∃ x ∈ hs, SameText x.name [82, 101, 116, 114, 121, 45, 65, 102, 116, 101, 114] ∧ x.value ≠ [] ∧
      (∀ c ∈ x.value, 48 ≤ c ∧ c ≤ 57) ∧ numVal x.value < 2 ^ 31 ∧
      retryLoop hs r = (.caEnrollRetry, numVal x.value) := by
  induction hs generalizing r with
  | nil => exact Or.inl rfl
  | cons x hs ih =>
    unfold retryLoop
    by_cases hc : (caseEq x.name [82, 101, 116, 114, 121, 45, 65, 102, 116, 101, 114] && x.value != [] && x.value.all isDigit &&
        decide (numVal x.value ≤ 2147483647)) = true
    · simp only [hc, if_true]
      simp only [Bool.and_eq_true, decide_eq_true_eq, List.all_eq_true, bne_iff_ne] at hc
      rcases ih (.caEnrollRetry, numVal x.value) with h | ⟨y, hy, h⟩
      · refine Or.inr ⟨x, by simp, (Verif.HttpHdr.caseEq_iff _ _).1 hc.1.1.1, hc.1.1.2, ?_, by omega, h⟩
        intro c hx
        have := hc.1.2 c hx
        simpa [isDigit] using this
      · exact Or.inr ⟨y, by simp [hy], h⟩
    · simp only [hc]
      rcases ih r with h | ⟨y, hy, h⟩
      · exact Or.inl h
      · exact Or.inr ⟨y, by simp [hy], h⟩

/-- C25: a retry is reported only for a Retry-After header whose value is a decimal number
below 2^31, and that number is the delay; a 202 response with any other headers is reported as
invalid, with no delay. -/
theorem C25_only_usable_values (tok) (ctx : Ctx) (op : Op) (status : List Nat)
    (hs : List (Hdr × Nat)) (b : List Nat) (g : Good status hs b)
    (h202 : [72, 84, 84, 80, 47, 49, 46, 49, 32, 50, 48, 50] <+: status) :
    let r := getResponse tok ctx op (response status hs b)
    (r.err = .invalidRetryValue ∧ r.delay = 0) ∨
    (r.err = .caEnrollRetry ∧ ∃ p ∈ hs, SameText p.1.name [82, 101, 116, 114, 121, 45, 65, 102, 116, 101, 114] ∧ p.1.value ≠ [] ∧
      (∀ c ∈ p.1.value, 48 ≤ c ∧ c ≤ 57) ∧
      r.delay = p.1.value.foldl (fun a c => a * 10 + (c - 48)) 0 ∧ r.delay < 2 ^ 31) := by
  have hk : statusCode status = some 202 := by
    obtain ⟨t, rfl⟩ := h202
    exact statusCode_append (by decide) (by decide)
  have hlen : 12 ≤ status.length := by simpa using h202.length_le
  simp only
  rw [getResponse_good g hk hlen, if_neg (by decide)]
  simp only [statusErr, retryAfter]
  rcases retryLoop_sound (hs.map (·.1)) (.invalidRetryValue, 0) with h | ⟨x, hx, h1, h2, h3, h4, h5⟩
  · rw [h]; exact Or.inl ⟨rfl, rfl⟩
  · rw [h5]
    obtain ⟨p, hp, rfl⟩ := List.mem_map.1 hx
    exact Or.inr ⟨rfl, p, hp, h1, h2, h3, rfl, h4⟩

/-- C25: the retry response of the server arrives with its value, for every period that the
server API can set. -/
theorem C25_server_retry (tok) (ctx : Ctx) (op : Op) (d : Nat) (hd : d ≤ 172800) :
    let r := getResponse tok ctx op (retryText d)
    r.err = .caEnrollRetry ∧ r.mode = ctx.mode ∧ r.body = none ∧
      (copyRetryAfter ⟨r.mode, r.delay⟩).1 = d ∧
      (copyRetryAfter (copyRetryAfter ⟨r.mode, r.delay⟩).2).1 = 0 := by
  have he : retryText d = response [72, 84, 84, 80, 47, 49, 46, 49, 32, 50, 48, 50, 32, 65, 99, 99, 101, 112, 116, 101, 100]
      ([(⟨[83, 116, 97, 116, 117, 115], [50, 48, 50, 32, 65, 99, 99, 101, 112, 116, 101, 100]⟩, 1)] ++ (⟨[82, 101, 116, 114, 121, 45, 65, 102, 116, 101, 114], decimal d⟩, 1) :: []) [] := by
    simp [retryText, response, lines, line]
  simp only [he]
  refine C25_retry_after tok ctx op _ _ _ _ _ d _ ?_ (by exact ⟨[32, 65, 99, 99, 101, 112, 116, 101, 100], rfl⟩) rfl rfl
    (by omega) (by simp)
  constructor
  · decide
  · intro p hp
    simp only [List.cons_append, List.nil_append, List.mem_cons, List.not_mem_nil, or_false] at hp
    rcases hp with rfl | rfl
    · exact wf_of (by decide) (by decide) (by decide) (by decide)
    · exact wf_of (by decide) (by decide)
        (fun c hc => ⟨(decimal_ok _ c hc).1, (decimal_ok _ c hc).2.1⟩) (decimal_head _)
  · intro p hp
    simp only [List.cons_append, List.nil_append, List.mem_cons, List.not_mem_nil, or_false] at hp
    rcases hp with rfl | rfl
    · exact ⟨(by decide : ∀ c ∈ [83, 116, 97, 116, 117, 115], c ≠ 0), (by decide : ∀ c ∈ [50, 48, 50, 32, 65, 99, 99, 101, 112, 116, 101, 100], c ≠ 0)⟩
    · exact ⟨(by decide : ∀ c ∈ [82, 101, 116, 114, 121, 45, 65, 102, 116, 101, 114], c ≠ 0), fun c hc => (decimal_ok _ c hc).2.2.1⟩
  · simp
  · simp
  · simp

example : (getResponse (fun _ => true) ⟨.none, 0⟩ .enroll (retryText 3600)).delay = 3600 := by
  decide +kernel

end Verif.ClientResp
