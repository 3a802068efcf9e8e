import Verif.CoapTableProps
import Verif.Base64Props

/-!
# Properties of the CoAP handlers (C08, C09, C44, C58, and the effect of C07)
-/
namespace Verif.Coap

/-! ## C44: options -/

/-- C44: a Content-Format option is accepted exactly when it is there once with the
expected value. -/
theorem C44_format_accepted_iff (media : Nat) (vals : List Nat) :
    checkOption .contentFormat media vals = .none ↔ vals = [media] := by
  cases vals with
  | nil => simp [checkOption]
  | cons v more =>
    simp only [checkOption]
    by_cases hv : v = media
    · by_cases hm : more = [] <;> simp [hv, hm]
    · simp only [ne_eq, hv, not_false_eq_true, if_true]
      split <;> simp [hv]

/-- C44: an Accept option is accepted exactly when there is none, or one with the expected
value. -/
theorem C44_accept_accepted_iff (media : Nat) (vals : List Nat) :
    checkOption .accept media vals = .none ↔ vals = [] ∨ vals = [media] := by
  cases vals with
  | nil => simp [checkOption]
  | cons v more =>
    simp only [checkOption]
    by_cases hv : v = media
    · by_cases hm : more = [] <;> simp [hv, hm]
    · simp only [ne_eq, hv, not_false_eq_true, if_true]
      split <;> simp [hv]

/-- The documented answer to a refused Content-Format option. -/
def formatAnswer (media : Nat) : List Nat → Nat
  | [] => 402
  | v :: _ => if v ≠ media ∧ v ≤ 65535 then 400 else 402

/-- C44: the code the client gets for a refused Content-Format: 4.00 for a known but wrong
format number, 4.02 (bad option) if it is missing, repeated or above 65535. -/
theorem C44_format_code (media : Nat) (vals : List Nat) (h : vals ≠ [media]) :
    formatCode (checkOption .contentFormat media vals) = formatAnswer media vals := by
  unfold formatAnswer
  cases vals with
  | nil => rfl
  | cons v more =>
    simp only [checkOption]
    by_cases hv : v = media
    · have hm : more ≠ [] := fun e => h (by rw [hv, e])
      simp [hv, hm, formatCode]
    · by_cases hb : v > contentTypeMax
      · have : ¬ v ≤ 65535 := by simpa [contentTypeMax] using hb
        simp [hv, hb, this, formatCode]
      · have : v ≤ 65535 := by simpa [contentTypeMax] using hb
        simp [hv, hb, this, formatCode]

/-- C44: the code for a refused Accept: 4.06 for another format number, 4.02 if it is
repeated or above 65535. -/
theorem C44_accept_code (media : Nat) (v : Nat) (more : List Nat) (h : v :: more ≠ [media]) :
    acceptCode (checkOption .accept media (v :: more)) =
      if v ≠ media ∧ v ≤ 65535 then 406 else 402 := by
  simp only [checkOption]
  by_cases hv : v = media
  · have hm : more ≠ [] := fun e => h (by rw [hv, e])
    simp [hv, hm, acceptCode]
  · by_cases hb : v > contentTypeMax
    · have : ¬ v ≤ 65535 := by simpa [contentTypeMax] using hb
      simp [hv, hb, this, acceptCode]
    · have : v ≤ 65535 := by simpa [contentTypeMax] using hb
      simp [hv, hb, this, acceptCode]

/-- C44: an enrol request with a refused Content-Format does nothing but answer. -/
theorem C44_handler_refuses (L : Libc) (odd) (enroll) (t : Tbl) (tls cert : Bool) (k : List Nat)
    (r : Req) (p : Pdu) (h : p.formats ≠ [286]) :
    ∃ c, (c = 400 ∨ c = 402) ∧ sen L odd enroll t tls cert k r p = (.code c, t) := by
  have hc := C44_format_code pkcs10 p.formats h
  have hn : checkOption .contentFormat pkcs10 p.formats ≠ .none := by
    rw [Ne, C44_format_accepted_iff]; exact h
  refine ⟨_, ?_, by simp only [sen]; rw [if_pos hn]⟩
  rw [hc]
  unfold formatAnswer
  cases p.formats with
  | nil => exact Or.inr rfl
  | cons v m => by_cases x : v ≠ pkcs10 ∧ v ≤ 65535 <;> simp [x]

/-- C58: a session without TLS state or without a client certificate gets no further than an
error answer: the record table is not touched and the EST layer is not asked. -/
theorem C58_client_certificate_required (L : Libc) (odd) (enroll) (t : Tbl) (tls cert : Bool)
    (k : List Nat) (r : Req) (p : Pdu) (h : tls = false ∨ cert = false) :
    ∃ c, (c = 400 ∨ c = 402 ∨ c = 401) ∧ sen L odd enroll t tls cert k r p = (.code c, t) := by
  by_cases hf : p.formats = [286]
  · refine ⟨401, by simp, ?_⟩
    have hn : checkOption .contentFormat pkcs10 p.formats = .none :=
      (C44_format_accepted_iff _ _).2 hf
    simp only [sen, hn]
    rcases h with h | h <;> simp [h]
  · obtain ⟨c, hc, h⟩ := C44_handler_refuses L odd enroll t tls cert k r p hf
    exact ⟨c, by omega, h⟩

example : formatCode (checkOption .contentFormat 286 [50]) = 400 := by decide
example : formatCode (checkOption .contentFormat 286 [286, 286]) = 402 := by decide
example : acceptCode (checkOption .accept 281 [284]) = 406 := by decide
example : [50] ≠ [286] := by decide

/-! ## C08: reassembly -/

/-- Block `i` of a payload cut into blocks of `2 ^ (szx + 4)` bytes. -/
def blockOf (p : List Nat) (szx i : Nat) : List Nat :=
  (p.drop (i * 2 ^ (szx + 4))).take (2 ^ (szx + 4))

/-- The message that carries block `i`. -/
def msg (p : List Nat) (szx i : Nat) : Pdu where
  formats := [286]
  accepts := []
  block1 := some ⟨i, decide ((i + 1) * 2 ^ (szx + 4) < p.length), szx⟩
  payload := blockOf p szx i

/-- In order, with repetitions: every block number is the last one or the next one. -/
def InOrder : Nat → List Nat → Prop
  | _, [] => True
  | i, j :: js => (j = i ∨ j = i + 1) ∧ InOrder j js

theorem take_append_block (p : List Nat) (szx i : Nat) :
    p.take (i * 2 ^ (szx + 4)) ++ blockOf p szx i = p.take ((i + 1) * 2 ^ (szx + 4)) := by
  unfold blockOf
  rw [Nat.add_mul, Nat.one_mul, List.take_add]

theorem block_ne_nil {p : List Nat} {szx i : Nat} (h : i * 2 ^ (szx + 4) < p.length) :
    blockOf p szx i ≠ [] := by
  intro hb
  have : (blockOf p szx i).length = 0 := by rw [hb]; rfl
  have h2 : 0 < 2 ^ (szx + 4) := Nat.two_pow_pos _
  simp [blockOf] at this
  omega

/-- The answer to a block: wait for more, or the request is complete. -/
def Recv.view : Recv → Option (Bool × List Nat)
  | .more n => some (false, n.req)
  | .ready n => some (true, n.req)
  | _ => none

/-- The record after a message. -/
def Recv.node : Recv → Option Node
  | .ub => none
  | .err _ n => some n
  | .more n => some n
  | .ready n => some n
  | .respond n => some n

theorem justRespond_view (b : Block) (n : Node) (h : n.req ≠ []) :
    justRespond b n = if b.m then .more n else .ready n := by
  simp [justRespond, complete, h]

theorem append_msg (p : List Nat) (szx i : Nat) (n : Node) (hi : i * 2 ^ (szx + 4) < p.length)
    (hfit : min ((i + 1) * 2 ^ (szx + 4)) p.length ≤ bufMax)
    (hreq : n.req = p.take (i * 2 ^ (szx + 4))) :
    append ⟨i, decide ((i + 1) * 2 ^ (szx + 4) < p.length), szx⟩ (blockOf p szx i) n =
      if (i + 1) * 2 ^ (szx + 4) < p.length then
        .more { n with req := p.take ((i + 1) * 2 ^ (szx + 4)) }
      else .ready { n with req := p.take ((i + 1) * 2 ^ (szx + 4)) } := by
  have hlen : n.req.length + (blockOf p szx i).length = min ((i + 1) * 2 ^ (szx + 4)) p.length := by
    rw [hreq, ← List.length_append, take_append_block, List.length_take]
  unfold append
  rw [if_neg (by omega), justRespond_view]
  · rw [hreq, take_append_block]; simp
  · rw [hreq, take_append_block]
    intro h0
    have h0' : p.take ((i + 1) * 2 ^ (szx + 4)) = [] := h0
    have h1 : (p.take ((i + 1) * 2 ^ (szx + 4))).length = 0 := by rw [h0']; rfl
    have h2 : 0 < 2 ^ (szx + 4) := Nat.two_pow_pos _
    rw [List.length_take, Nat.add_mul] at h1
    omega

theorem recv_first (media : Nat) (r : Req) (p : List Nat) (szx : Nat) (n : Node)
    (hne : p ≠ []) (hfit : min (2 ^ (szx + 4)) p.length ≤ bufMax)
    (hresp : begun n.resp = true → begun n.req = true) :
    ∃ m : Node, begun m.resp = false ∧ m.key = n.key ∧ (n.cur = r → m.cur = r) ∧
      recv media r (msg p szx 0) n =
      if 2 ^ (szx + 4) < p.length then .more { m with req := p.take (2 ^ (szx + 4)) }
      else .ready { m with req := p.take (2 ^ (szx + 4)) } := by
  have h0 : 0 < p.length := List.length_pos_iff.2 hne
  have hb : blockOf p szx 0 ≠ [] := block_ne_nil (by simpa using h0)
  have hst : startsNew (msg p szx 0) = true := by simp [startsNew, msg, hb]
  refine ⟨restart r (msg p szx 0) n, ?_, ?_, ?_, ?_⟩
  · simp only [restart, hst, Bool.and_true]
    split
    · rfl
    · rename_i hq
      cases hr : begun n.resp with
      | false => rfl
      | true => exact absurd (hresp hr) hq
  · simp only [restart]; split <;> simp [reinit]
  · intro hc
    simp only [restart]; split <;> simp [reinit, hc]
  · generalize hm : restart r (msg p szx 0) n = m
    have hmr : begun m.resp = false := by
      rw [← hm]
      simp only [restart, hst, Bool.and_true]
      split
      · rfl
      · rename_i hq
        cases hr : begun n.resp with
        | false => rfl
        | true => exact absurd (hresp hr) hq
    have happ := append_msg p szx 0 { m with req := [] } (by simpa using h0)
      (by simpa using hfit) (by simp)
    simp only [Nat.zero_add, Nat.one_mul] at happ
    rw [recv, hm, recvBody, hmr]
    simp only [msg, checkOption, Bool.false_eq_true, if_false, if_true, ne_eq, not_true_eq_false,
      block1, hb, Nat.zero_mul, Nat.zero_add, Nat.one_mul]
    exact happ

theorem recv_next (media : Nat) (r : Req) (p : List Nat) (szx i : Nat) (n : Node)
    (hi0 : 0 < i) (hi : i * 2 ^ (szx + 4) < p.length)
    (hfit : min ((i + 1) * 2 ^ (szx + 4)) p.length ≤ bufMax)
    (hresp : begun n.resp = false)
    (hreq : n.req = p.take (i * 2 ^ (szx + 4)) ∨ n.req = p.take ((i + 1) * 2 ^ (szx + 4))) :
    recv media r (msg p szx i) n =
      if (i + 1) * 2 ^ (szx + 4) < p.length then
        .more { n with req := p.take ((i + 1) * 2 ^ (szx + 4)) }
      else .ready { n with req := p.take ((i + 1) * 2 ^ (szx + 4)) } := by
  have hb := block_ne_nil hi
  have h2 : 0 < 2 ^ (szx + 4) := Nat.two_pow_pos _
  have hpos : 0 < i * 2 ^ (szx + 4) := Nat.mul_pos hi0 h2
  have hst : startsNew (msg p szx i) = false := by
    have : ¬ i = 0 := by omega
    simp [startsNew, msg, this]
  have hrs : restart r (msg p szx i) n = n := by simp [restart, hst]
  rw [recv, hrs, recvBody, hresp]
  simp only [msg, checkOption, Bool.false_eq_true, if_false, if_true, ne_eq, not_true_eq_false,
    block1, hb]
  rw [if_neg (by omega)]
  rcases hreq with hreq | hreq
  · have hl : n.req.length = i * 2 ^ (szx + 4) := by rw [hreq, List.length_take]; omega
    rw [if_neg (by omega), if_neg (by omega)]
    exact append_msg p szx i n hi hfit hreq
  · have hl : i * 2 ^ (szx + 4) < n.req.length := by
      rw [hreq, List.length_take, Nat.add_mul]; omega
    rw [if_neg (by omega), if_pos (by omega), justRespond_view]
    · have : ({ n with req := p.take ((i + 1) * 2 ^ (szx + 4)) } : Node) = n := by rw [← hreq]
      rw [this]
      simp
    · intro h0; rw [h0] at hl; simp at hl

/-- The answers to a list of block numbers. -/
def deliver (media : Nat) (r : Req) (p : List Nat) (szx : Nat) : Node → List Nat → List Recv
  | _, [] => []
  | n, i :: is =>
    recv media r (msg p szx i) n ::
      (match (recv media r (msg p szx i) n).node with
        | none => []
        | some n' => deliver media r p szx n' is)

/-- What the sender of block `i` should be told. -/
def expected (p : List Nat) (szx i : Nat) : Option (Bool × List Nat) :=
  some (!decide ((i + 1) * 2 ^ (szx + 4) < p.length), p.take ((i + 1) * 2 ^ (szx + 4)))

theorem ite_view (c : Prop) [Decidable c] (m : Node) (q : List Nat) :
    (if c then Recv.more { m with req := q } else .ready { m with req := q }).view =
      some (!decide c, q) := by
  by_cases h : c <;> simp [h, Recv.view]

theorem ite_node (c : Prop) [Decidable c] (m : Node) :
    (if c then Recv.more m else .ready m).node = some m := by
  by_cases h : c <;> simp [h, Recv.node]

theorem deliver_from (media : Nat) (r : Req) (p : List Nat) (szx : Nat) (hne : p ≠ []) :
    ∀ (js : List Nat) (i : Nat) (n : Node), InOrder i js →
      (∀ j ∈ js, j * 2 ^ (szx + 4) < p.length ∧ min ((j + 1) * 2 ^ (szx + 4)) p.length ≤ bufMax) →
      begun n.resp = false → n.req = p.take ((i + 1) * 2 ^ (szx + 4)) →
      (deliver media r p szx n js).map Recv.view = js.map (expected p szx)
  | [], _, _, _, _, _, _ => rfl
  | j :: js, i, n, ho, hall, hresp, hreq => by
    obtain ⟨hj, ho⟩ := ho
    obtain ⟨hj1, hj2⟩ := hall j (List.mem_cons_self ..)
    have hrest := fun x hx => hall x (List.mem_cons_of_mem _ hx)
    by_cases hj0 : j = 0
    · subst hj0
      obtain ⟨m, m1, m2, m3, m4⟩ := recv_first media r p szx n hne (by simpa using hj2)
        (fun h => by rw [hresp] at h; cases h)
      simp only [deliver, m4, List.map_cons, ite_view, ite_node]
      rw [deliver_from media r p szx hne js 0 _ ho hrest (by simpa using m1) (by simp)]
      simp [expected]
    · have h4 := recv_next media r p szx j n (by omega) hj1 hj2 hresp
        (by rcases hj with h | h
            · right; rw [h]; exact hreq
            · left; rw [h]; exact hreq)
      simp only [deliver, h4, List.map_cons, ite_view, ite_node]
      rw [deliver_from media r p szx hne js j _ ho hrest (by simpa using hresp) (by simp)]
      rfl

/-- C08: the blocks of a payload that fits into the buffer arrive in order, each any number of
times, at a record whose earlier request, if any, was begun.  Then every block but the last
one is answered "continue" and the last one completes the request with exactly the
payload. -/
theorem C08_reassembly (media : Nat) (r : Req) (p : List Nat) (szx : Nat) (n : Node)
    (js : List Nat) (hne : p ≠ []) (hmax : p.length ≤ 16384)
    (hold : begun n.resp = true → begun n.req = true)
    (ho : InOrder 0 js) (hlast : ∀ j ∈ js, j * 2 ^ (szx + 4) < p.length) :
    (deliver media r p szx n (0 :: js)).map Recv.view = (0 :: js).map (fun i =>
      if (i + 1) * 2 ^ (szx + 4) < p.length then
        some (false, p.take ((i + 1) * 2 ^ (szx + 4)))
      else some (true, p)) := by
  have hb : ∀ x, min x p.length ≤ bufMax := fun x => by simp only [bufMax]; omega
  have he : (fun i => if (i + 1) * 2 ^ (szx + 4) < p.length then
        some (false, p.take ((i + 1) * 2 ^ (szx + 4))) else some (true, p)) = expected p szx := by
    funext i
    unfold expected
    by_cases h : (i + 1) * 2 ^ (szx + 4) < p.length
    · simp [h]
    · simp only [h, if_false, decide_false, Bool.not_false]
      rw [List.take_of_length_le (by omega)]
  rw [he]
  obtain ⟨m, m1, m2, m3, m4⟩ := recv_first media r p szx n hne (hb _) hold
  simp only [deliver, m4, List.map_cons, ite_view, ite_node]
  rw [deliver_from media r p szx hne js 0 _ ho (fun j hj => ⟨hlast j hj, hb _⟩)
    (by simpa using m1) (by simp)]
  simp [expected]

/-- 20 bytes in two blocks of 16; the first and the last block come twice. -/
example :
    (deliver 281 .sen (List.range' 1 20) 0 ⟨[49], [], [], .sen⟩ [0, 0, 1, 1]).map Recv.view =
      [some (false, List.range' 1 16), some (false, List.range' 1 16),
       some (true, List.range' 1 20), some (true, List.range' 1 20)] := by decide +kernel

/-- C08: a block beyond the expected offset is answered 4.08 and changes nothing. -/
theorem C08_gap_refused (media : Nat) (r : Req) (p : Pdu) (n : Node) (b : Block)
    (hb : p.block1 = some b) (ha : p.accepts = []) (hd : p.payload ≠ [])
    (hresp : begun n.resp = false) (hgap : n.req.length < b.num * 2 ^ (b.szx + 4)) :
    recv media r p n = .err 408 n := by
  have h0 : b.num ≠ 0 := by intro h; rw [h] at hgap; simp at hgap
  have hst : startsNew p = false := by simp [startsNew, hb, h0]
  have hrs : restart r p n = n := by simp [restart, hst]
  rw [recv, hrs, recvBody, hresp]
  simp only [ha, checkOption, hb, Bool.false_eq_true, if_false, if_true, ne_eq, not_true_eq_false,
    block1, hd]
  rw [if_neg (by omega), if_pos (by omega)]

example : recv 281 .sen ⟨[286], [], some ⟨2, true, 0⟩, [1]⟩ ⟨[49], List.replicate 16 3, [], .sen⟩ =
    .err 408 ⟨[49], List.replicate 16 3, [], .sen⟩ := by decide +kernel

/-- C08: the restriction to blocks in order matters: a late copy of the first block throws
away everything received after it. -/
theorem C08_late_first_block (media : Nat) (r : Req) (p : List Nat) (szx i : Nat) (n : Node)
    (hne : p ≠ []) (hfit : 2 ^ (szx + 4) ≤ 16384) (hresp : begun n.resp = false)
    (_hreq : n.req = p.take ((i + 1) * 2 ^ (szx + 4))) :
    (recv media r (msg p szx 0) n).node.map (·.req) = some (p.take (2 ^ (szx + 4))) := by
  obtain ⟨m, m1, m2, m3, m4⟩ := recv_first media r p szx n hne
    (by simp only [bufMax]; omega) (fun h => by rw [hresp] at h; cases h)
  rw [m4, ite_node]; rfl

example : (recv 281 .sen (msg (List.range' 1 40) 0 0)
    ⟨[49], List.range' 1 32, [], .sen⟩).node.map (·.req) = some (List.range' 1 16) := by
  decide +kernel

/-! ## C09: the request buffer -/

/-- C09, what holds: as long as every message ends inside the 16384 bytes of the buffer, nothing
is written outside and the stored request stays inside. -/
theorem C09_bounded_messages_partial (media : Nat) (r : Req) (p : Pdu) (n : Node)
    (hn : n.req.length ≤ 16384)
    (hp : match p.block1 with
      | none => p.payload.length ≤ 16384
      | some b => b.num * 2 ^ (b.szx + 4) + p.payload.length ≤ 16384) :
    ∃ n', (recv media r p n).node = some n' ∧ n'.req.length ≤ 16384 := by
  have hm : (restart r p n).req.length ≤ 16384 := by
    simp only [restart]; split
    · simp [reinit]
    · exact hn
  rw [recv]
  generalize restart r p n = m at *
  have hcomp : ∀ x : Node, (complete x).node = some x := by
    intro x; simp only [complete]; split <;> rfl
  have hjust : ∀ b x, (justRespond b x).node = some x := by
    intro b x; simp only [justRespond]; split
    · rfl
    · exact hcomp x
  rw [recvBody]
  split
  · exact ⟨m, rfl, hm⟩
  · simp only
    split
    · exact ⟨m, rfl, hm⟩
    · cases hb : p.block1 with
      | none =>
        simp only [hb] at hp ⊢
        simp only [single]
        split
        · rw [if_neg (by simp only [bufMax]; omega), hcomp]
          exact ⟨_, rfl, hp⟩
        · split
          · exact ⟨m, rfl, hm⟩
          · rw [hcomp]; exact ⟨_, rfl, by simp⟩
      | some b =>
        simp only [hb] at hp ⊢
        simp only [block1]
        split
        · rw [hjust]; exact ⟨m, rfl, hm⟩
        · split
          · simp only [append]
            rw [if_neg (by simp [bufMax]; omega), hjust]
            exact ⟨_, rfl, by simp; omega⟩
          · split
            · exact ⟨m, rfl, hm⟩
            · split
              · rw [hjust]; exact ⟨m, rfl, hm⟩
              · simp only [append]
                rw [if_neg (by simp only [bufMax]; omega), hjust]
                exact ⟨_, rfl, by simp; omega⟩

example : ∃ n', (recv 281 .sen (msg (List.range' 1 40) 0 0) ⟨[49], [], [], .sen⟩).node = some n' ∧
    n'.req.length ≤ 16384 :=
  C09_bounded_messages_partial _ _ _ _ (by decide)
    (by show 0 * 2 ^ (0 + 4) + (blockOf (List.range' 1 40) 0 0).length ≤ 16384; decide +kernel)

/-- C09 is false: a client that sends a payload of more than 16384 bytes in order makes the
handler write behind the request buffer.  The block that does not fit is not refused. -/
theorem C09_overrun_false (media : Nat) (r : Req) (p : List Nat) (n : Node)
    (hp : 16384 < p.length) (hresp : begun n.resp = false)
    (hreq : n.req = p.take 16384) : recv media r (msg p 6 16) n = .ub := by
  have hi : 16 * 2 ^ (6 + 4) < p.length := by omega
  have hb := block_ne_nil (szx := 6) (i := 16) hi
  have hst : startsNew (msg p 6 16) = false := by simp [startsNew, msg]
  have hrs : restart r (msg p 6 16) n = n := by simp [restart, hst]
  have hl : n.req.length = 16384 := by rw [hreq, List.length_take]; omega
  rw [recv, hrs, recvBody, hresp]
  simp only [msg, checkOption, Bool.false_eq_true, if_false, if_true, ne_eq, not_true_eq_false,
    block1, hb]
  have h16 : 16 * 2 ^ (6 + 4) = 16384 := by decide
  rw [h16, if_neg (by decide), if_neg (by omega), if_neg (by omega), append, if_pos]
  have := List.length_pos_iff.2 hb
  simp only [bufMax]; omega

/-- C09 is false from a fresh record: seventeen blocks of a long payload, each answered
"continue" up to the sixteenth, and the seventeenth writes outside the buffer. -/
theorem C09_reachable_false (media : Nat) (r : Req) (k : List Nat) (p : List Nat)
    (hp : 16384 < p.length) :
    (∀ o ∈ deliver media r p 6 ⟨k, [], [], r⟩ (List.range 16), ∃ m, o = .more m) ∧
    ∃ m, (deliver media r p 6 ⟨k, [], [], r⟩ (List.range 16)).getLast? = some (.more m) ∧
      recv media r (msg p 6 16) m = .ub := by
  have hne : p ≠ [] := by intro h; rw [h] at hp; simp at hp
  obtain ⟨m, m1, m2, m3, m4⟩ := recv_first media r p 6 ⟨k, [], [], r⟩ hne
    (by simp only [bufMax]; omega) (fun h => by cases h)
  rw [if_pos (by omega)] at m4
  -- every later block is stored as well
  have go : ∀ (c i : Nat) (n : Node), begun n.resp = false → 0 < i → i + c ≤ 16 →
      n.req = p.take (i * 2 ^ (6 + 4)) →
      (∀ o ∈ deliver media r p 6 n (List.range' i c), ∃ m, o = .more m) ∧
      (0 < c → ∃ m, (deliver media r p 6 n (List.range' i c)).getLast? = some (.more m) ∧
        begun m.resp = false ∧ m.req = p.take ((i + c) * 2 ^ (6 + 4))) := by
    intro c
    induction c with
    | zero => intro i n _ _ _ _; exact ⟨by simp [deliver], fun h => absurd h (by omega)⟩
    | succ c ih =>
      intro i n hr hi hic hreq
      have hm : (i + 1) * 2 ^ (6 + 4) ≤ 16 * 2 ^ (6 + 4) := Nat.mul_le_mul_right _ (by omega)
      have hm2 : i * 2 ^ (6 + 4) ≤ 16 * 2 ^ (6 + 4) := Nat.mul_le_mul_right _ (by omega)
      have h16 : 16 * 2 ^ (6 + 4) = 16384 := by decide
      have h4 := recv_next media r p 6 i n hi (by omega) (by simp only [bufMax]; omega) hr (Or.inl hreq)
      rw [if_pos (by omega)] at h4
      obtain ⟨i1, i2⟩ := ih (i + 1) { n with req := p.take ((i + 1) * 2 ^ (6 + 4)) } (by simpa using hr)
        (by omega) (by omega) rfl
      simp only [List.range'_succ, deliver, h4, Recv.node]
      constructor
      · intro o ho
        rcases List.mem_cons.1 ho with rfl | ho
        · exact ⟨_, rfl⟩
        · exact i1 o ho
      · intro _
        by_cases hc : 0 < c
        · obtain ⟨m, q1, q2, q3⟩ := i2 hc
          refine ⟨m, ?_, q2, by rw [q3]; congr 2; omega⟩
          rw [List.getLast?_cons, q1]; rfl
        · have : c = 0 := by omega
          subst this
          exact ⟨{ n with req := p.take ((i + 1) * 2 ^ (6 + 4)) }, by simp [deliver], hr, rfl⟩
  obtain ⟨g1, g2⟩ := go 15 1 { m with req := p.take (2 ^ (6 + 4)) } (by simpa using m1) (by decide)
    (by decide) (by simp)
  have hr : List.range 16 = 0 :: List.range' 1 15 := by decide
  rw [hr]
  simp only [deliver, m4, Recv.node]
  constructor
  · intro o ho
    rcases List.mem_cons.1 ho with rfl | ho
    · exact ⟨_, rfl⟩
    · exact g1 o ho
  · obtain ⟨m', q1, q2, q3⟩ := g2 (by decide)
    refine ⟨m', by rw [List.getLast?_cons, q1]; rfl, ?_⟩
    exact C09_overrun_false media r p m' hp q2 q3

example : 16384 < (List.replicate 17000 (48 : Nat)).length := by decide +kernel

/-- C09 is false without Block1 as well: one message of more than 16384 bytes. -/
theorem C09_single_message_false (media : Nat) (r : Req) (d : List Nat) (n : Node)
    (hresp : begun n.resp = false) (hd : 16384 < d.length) :
    recv media r ⟨[286], [], none, d⟩ n = .ub := by
  have hne : d ≠ [] := by intro h; rw [h] at hd; simp at hd
  have hr : begun (restart r ⟨[286], [], none, d⟩ n).resp = false := by
    simp only [restart]; split
    · rfl
    · exact hresp
  rw [recv, recvBody, hr]
  simp only [checkOption, Bool.false_eq_true, if_false, if_true, ne_eq, not_true_eq_false,
    single, hne, not_false_eq_true]
  rw [if_pos (by simpa [bufMax] using hd)]

/-! ## C58: the certificate belongs to the session -/

/-- The bytes handed to the EST layer when a message completes the request of a record. -/
def csrOf (media : Nat) (r : Req) (p : Pdu) (n : Node) : Option (List Nat) :=
  match recv media r p n with
  | .ready m => some m.req
  | _ => none

theorem process_content {odd} {enroll : List Nat → EstErr × List Nat} {n n' : Node}
    {body : List Nat} (h : process odd enroll n = (.content body, n')) :
    n' = { n with resp := body } ∧ ∃ text, (enroll text).1 = .none ∧
      Base64.decode odd ((enroll text).2.takeWhile (· ≠ 0)) (min (enroll text).2.length bufMax) ≠ .ub ∧
      (∃ k w, Base64.decode odd ((enroll text).2.takeWhile (· ≠ 0))
        (min (enroll text).2.length bufMax) = .ret k w ∧ body = w.take k ∧ k ≠ 0) ∧
      ∃ len mem, Base64.encode true n.req (List.replicate (2 * n.req.length) 0) = some (len, mem) ∧
        text = mem.take len := by
  simp only [process] at h
  split at h
  · cases h
  · rename_i len mem henc
    split at h
    · cases h
    · split at h
      · cases h
      · rename_i hrc
        have hrc' : (enroll (mem.take len)).1 = .none := by
          simpa using hrc
        simp only [storeCert] at h
        split at h
        · cases h
        · rename_i k w hdec
          split at h
          · cases h
          · rename_i hk
            simp only [Prod.mk.injEq, Out.content.injEq] at h
            obtain ⟨h1, h2⟩ := h
            refine ⟨by rw [← h2, ← h1], _, hrc', by rw [hdec]; simp, ⟨k, w, hdec, h1.symm, hk⟩, len, mem, henc, rfl⟩

/-- C58: when the handler answers with a certificate, the request was completed just now, the
EST layer accepted the base64 text of exactly the request received for this record and the
answer is the decoding of what it returned; or the request had been answered before, and the
answer is the one stored. -/
theorem C58_certificate_of_this_request (odd) (enroll : List Nat → EstErr × List Nat)
    (media : Nat) (r : Req) (p : Pdu) (n : Node) (body : List Nat)
    (h : (finish odd enroll (recv media r p n)).1 = .content body) :
    (∃ m, recv media r p n = .respond m ∧ body = m.resp) ∨
    (∃ m text len mem, recv media r p n = .ready m ∧
      Base64.encode true m.req (List.replicate (2 * m.req.length) 0) = some (len, mem) ∧
      text = mem.take len ∧ (enroll text).1 = .none ∧
      ∃ k w, Base64.decode odd ((enroll text).2.takeWhile (· ≠ 0))
        (min (enroll text).2.length bufMax) = .ret k w ∧ body = w.take k) := by
  cases hr : recv media r p n with
  | ub => rw [hr] at h; cases h
  | err c m => rw [hr] at h; cases h
  | more m => rw [hr] at h; cases h
  | respond m => rw [hr] at h; cases h; exact Or.inl ⟨m, rfl, rfl⟩
  | ready m =>
    rw [hr] at h
    right
    simp only [finish] at h
    have hp : process odd enroll m = (.content body, (process odd enroll m).2) := by rw [← h]
    obtain ⟨_, text, t1, _, ⟨k, w, t2, t3, _⟩, len, mem, t4, t5⟩ := process_content hp
    exact ⟨m, text, len, mem, rfl, t4, t5, t1, k, w, t2, t3⟩

/-- C58: a new request on a record whose request was begun is never answered with the stored
response of the earlier one. -/
theorem C58_new_request_not_stale (media : Nat) (r : Req) (p : Pdu) (n : Node)
    (hreq : begun n.req = true) (hnew : startsNew p = true) (m : Node) :
    recv media r p n ≠ .respond m := by
  have hrs : restart r p n = reinit n r := by simp [restart, hreq, hnew]
  rw [recv, hrs, recvBody]
  simp only [reinit, begun, List.headD_nil, bne_self_eq_false, Bool.false_eq_true, if_false]
  have hcomp : ∀ x : Node, complete x ≠ .respond m := by
    intro x; simp only [complete]; split <;> simp
  have hjust : ∀ b x, justRespond b x ≠ .respond m := by
    intro b x; simp only [justRespond]; split
    · simp
    · exact hcomp x
  split
  · simp
  · split
    · simp only [block1, append]
      repeat' split
      all_goals first | exact hjust _ _ | simp
    · simp only [single]
      repeat' split
      all_goals first | exact hcomp _ | simp

/-- A certificate, base64 of the bytes 1..6, for every request. -/
def exampleCa : List Nat → EstErr × List Nat := fun _ => (.none, [65, 81, 73, 68, 66, 65, 85, 71])

example : (finish (fun _ l => l) exampleCa
    (recv 281 .sen ⟨[286], [], none, [48, 1, 2, 3, 4]⟩ ⟨[49], [], [], .sen⟩)).1 =
    .content [1, 2, 3, 4, 5, 6] := by decide +kernel

/-! ### Sessions do not mix in the handler -/

/-- A message of a session. -/
structure Ev where
  key : List Nat
  req : Req
  pdu : Pdu

/-- The handler run for a list of messages of any sessions; all have TLS and a
certificate. -/
def senRun (L : Libc) (odd : Bool → List Nat → List Nat) (enroll : List Nat → EstErr × List Nat) : Tbl → List Ev → List Out × Tbl
  | t, [] => ([], t)
  | t, e :: es =>
    ((sen L odd enroll t true true e.key e.req e.pdu).1 ::
        (senRun L odd enroll (sen L odd enroll t true true e.key e.req e.pdu).2 es).1,
      (senRun L odd enroll (sen L odd enroll t true true e.key e.req e.pdu).2 es).2)

theorem process_key (odd) (enroll) (n : Node) : (process odd enroll n).2.key = n.key := by
  simp only [process, storeCert]
  repeat' split
  all_goals rfl

theorem restart_key (r : Req) (p : Pdu) (n : Node) : (restart r p n).key = n.key := by
  simp only [restart]; split <;> rfl

theorem recv_key (media : Nat) (r : Req) (p : Pdu) (n m : Node)
    (h : (recv media r p n).node = some m) : m.key = n.key := by
  rw [recv] at h
  rw [← restart_key r p n]
  generalize restart r p n = x at *
  have hcomp : ∀ y : Node, (complete y).node = some m → m.key = y.key := by
    intro y hy; simp only [complete] at hy; split at hy <;> (cases hy; rfl)
  have hjust : ∀ b (y : Node), (justRespond b y).node = some m → m.key = y.key := by
    intro b y hy; simp only [justRespond] at hy; split at hy
    · cases hy; rfl
    · exact hcomp y hy
  have happ : ∀ b d (y : Node), (append b d y).node = some m → m.key = y.key := by
    intro b d y hy; simp only [append] at hy; split at hy
    · cases hy
    · have q := hjust _ _ hy; exact q
  rw [recvBody] at h
  split at h
  · cases h; rfl
  · simp only at h
    split at h
    · cases h; rfl
    · split at h
      · simp only [block1] at h
        split at h
        · have q := hjust _ _ h; exact q
        · split at h
          · have q := happ _ _ _ h; exact q
          · split at h
            · cases h; rfl
            · split at h
              · have q := hjust _ _ h; exact q
              · have q := happ _ _ _ h; exact q
      · simp only [single] at h
        split at h
        · split at h
          · cases h
          · have q := hcomp _ h; exact q
        · split at h
          · cases h; rfl
          · have q := hcomp _ h; exact q

theorem finish_key (odd) (enroll) (media : Nat) (r : Req) (p : Pdu) (n m : Node)
    (h : (finish odd enroll (recv media r p n)).2 = some m) : m.key = n.key := by
  have hk := recv_key media r p n
  cases hr : recv media r p n with
  | ub => rw [hr] at h; cases h
  | err c x => rw [hr] at h hk; cases h; exact hk _ rfl
  | more x => rw [hr] at h hk; cases h; exact hk _ rfl
  | respond x => rw [hr] at h hk; cases h; exact hk _ rfl
  | ready x => rw [hr] at h hk; cases h; rw [process_key]; exact hk _ rfl

/-- The record a message of a session works on. -/
def recordFor (cap : Nat) (t : Tbl) (k : List Nat) (r : Req) : Option Node :=
  match look t.slots k with
  | some n => some (if n.cur ≠ r ∧ r ≠ .reset then reinit n r else n)
  | none => if t.cnt < cap then some ⟨k, [], [], r⟩ else none

/-- The handler in terms of the stored records. -/
theorem sen_spec {cap : Nat} {t : Tbl} (h : Inv cap t) {L : Libc} (hL : L.Ok) (odd) (enroll)
    {k : List Nat} (hk : k ≠ []) (r : Req) (p : Pdu) (hp : p.formats = [286]) :
    Inv cap (sen L odd enroll t true true k r p).2 ∧
    (∀ k', k' ≠ [] → k' ≠ k →
      look (sen L odd enroll t true true k r p).2.slots k' = look t.slots k') ∧
    match recordFor cap t k r with
    | none => sen L odd enroll t true true k r p = (.code 500, t)
    | some n =>
      (sen L odd enroll t true true k r p).1 = (finish odd enroll (recv pkcs7Certs r p n)).1 ∧
      look (sen L odd enroll t true true k r p).2.slots k =
        some ((finish odd enroll (recv pkcs7Certs r p n)).2.getD n) := by
  have hf : ¬ checkOption .contentFormat pkcs10 p.formats ≠ .none := by
    rw [Decidable.not_not, C44_format_accepted_iff]; exact hp
  obtain ⟨inv, hs⟩ := getReq_spec h hL hk r
  -- what happens once the record at index `i` is `n`
  have main : ∀ (t' : Tbl) (i : Nat) (n : Node), getReq L t k r = (some i, t') → Inv cap t' →
      t'.slots[i]? = some n → n.key = k →
      (∀ k', k' ≠ [] → k' ≠ k → look t'.slots k' = look t.slots k') →
      Inv cap (sen L odd enroll t true true k r p).2 ∧
      (∀ k', k' ≠ [] → k' ≠ k →
        look (sen L odd enroll t true true k r p).2.slots k' = look t.slots k') ∧
      (sen L odd enroll t true true k r p).1 = (finish odd enroll (recv pkcs7Certs r p n)).1 ∧
      look (sen L odd enroll t true true k r p).2.slots k =
        some ((finish odd enroll (recv pkcs7Certs r p n)).2.getD n) := by
    intro t' i n hg hi hn hnk ho
    have hsen : sen L odd enroll t true true k r p =
        match finish odd enroll (recv pkcs7Certs r p n) with
        | (o, none) => (o, t')
        | (o, some n') => (o, putNode t' i n') := by
      simp only [sen]
      rw [if_neg hf]
      simp only [Bool.not_true, Bool.or_self, Bool.false_eq_true, if_false, hg, hn]
      rfl
    have hfk := finish_key odd enroll pkcs7Certs r p n
    rw [hsen]
    generalize finish odd enroll (recv pkcs7Certs r p n) = o at *
    obtain ⟨o, m⟩ := o
    cases m with
    | none =>
      refine ⟨hi, ho, rfl, ?_⟩
      exact (look_iff hi.distinct hk n).2 ⟨List.mem_of_getElem? hn, hnk⟩
    | some m =>
      have hmk := hfk m rfl
      obtain ⟨p1, p2⟩ := hi.put (n := m) hn hmk (by rw [hnk]; exact hk)
      refine ⟨p1, ?_, rfl, ?_⟩
      · intro k' hk' hne
        simp only []
        rw [p2 k' hk', hnk, if_neg hne, ho k' hk' hne]
      · simp only []
        rw [p2 k hk, hnk]; simp
  cases hl : look t.slots k with
  | some n =>
    simp only [hl] at hs
    obtain ⟨i, g1, g2, g3, g4⟩ := hs
    have e : getReq L t k r = (some i, (getReq L t k r).2) := by rw [← g1]
    simp only [recordFor, hl]
    exact main _ i _ e inv g3 (by split <;> simp [reinit, look_key hl])
      (fun k' hk' hne => by rw [g4 k' hk', if_neg hne])
  | none =>
    simp only [hl] at hs
    by_cases hlt : t.cnt < cap
    · simp only [hlt, if_true] at hs
      obtain ⟨i, g1, g2, g3, g4⟩ := hs
      have e : getReq L t k r = (some i, (getReq L t k r).2) := by rw [← g1]
      simp only [recordFor, hl, hlt, if_true]
      exact main _ i _ e inv g3 rfl (fun k' hk' hne => by rw [g4 k' hk', if_neg hne])
    · simp only [hlt, if_false] at hs
      simp only [recordFor, hl, hlt, if_false]
      have hsen : sen L odd enroll t true true k r p = (.code 500, t) := by
        simp only [sen]
        rw [if_neg hf, hs]
        simp
      rw [hsen]
      exact ⟨h, fun _ _ _ => rfl, rfl⟩

/-- A single record run over the messages of its session. -/
def recRun (odd : Bool → List Nat → List Nat) (enroll : List Nat → EstErr × List Nat) (r : Req) : Node → List Pdu → List Out
  | _, [] => []
  | n, p :: ps =>
    (finish odd enroll (recv pkcs7Certs r p n)).1 ::
      recRun odd enroll r ((finish odd enroll (recv pkcs7Certs r p n)).2.getD n) ps

/-- The outcomes of the messages of one session. -/
def outsOf (k : List Nat) (es : List Ev) (outs : List Out) : List Out :=
  ((es.zip outs).filter (fun x => x.1.key = k)).map (·.2)

theorem restart_cur (r : Req) (p : Pdu) (n : Node) (h : n.cur = r) : (restart r p n).cur = r := by
  simp only [restart]; split <;> simp [reinit, h]

theorem recv_cur (media : Nat) (r : Req) (p : Pdu) (n m : Node) (hn : n.cur = r)
    (h : (recv media r p n).node = some m) : m.cur = r := by
  rw [recv] at h
  have hx := restart_cur r p n hn
  generalize restart r p n = x at *
  have hcomp : ∀ y : Node, (complete y).node = some m → m.cur = y.cur := by
    intro y hy; simp only [complete] at hy; split at hy <;> (cases hy; rfl)
  have hjust : ∀ b (y : Node), (justRespond b y).node = some m → m.cur = y.cur := by
    intro b y hy; simp only [justRespond] at hy; split at hy
    · cases hy; rfl
    · exact hcomp y hy
  have happ : ∀ b d (y : Node), (append b d y).node = some m → m.cur = y.cur := by
    intro b d y hy; simp only [append] at hy; split at hy
    · cases hy
    · have q := hjust _ _ hy; exact q
  rw [← hx]
  rw [recvBody] at h
  split at h
  · cases h; rfl
  · simp only at h
    split at h
    · cases h; rfl
    · split at h
      · simp only [block1] at h
        split at h
        · have q := hjust _ _ h; exact q
        · split at h
          · have q := happ _ _ _ h; exact q
          · split at h
            · cases h; rfl
            · split at h
              · have q := hjust _ _ h; exact q
              · have q := happ _ _ _ h; exact q
      · simp only [single] at h
        split at h
        · split at h
          · cases h
          · have q := hcomp _ h; exact q
        · split at h
          · cases h; rfl
          · have q := hcomp _ h; exact q

theorem process_cur (odd) (enroll) (n : Node) : (process odd enroll n).2.cur = n.cur := by
  simp only [process, storeCert]
  repeat' split
  all_goals rfl

theorem finish_cur (odd) (enroll) (media : Nat) (r : Req) (p : Pdu) (n : Node) (hn : n.cur = r) :
    ((finish odd enroll (recv media r p n)).2.getD n).cur = r := by
  have hk := recv_cur media r p n
  cases hr : recv media r p n with
  | ub => exact hn
  | err c x => rw [hr] at hk; exact hk _ hn rfl
  | more x => rw [hr] at hk; exact hk _ hn rfl
  | respond x => rw [hr] at hk; exact hk _ hn rfl
  | ready x =>
    rw [hr] at hk
    simp only [finish, Option.getD_some]
    rw [process_cur]; exact hk _ hn rfl

theorem senRun_own {cap : Nat} {L : Libc} (hL : L.Ok) (odd) (enroll) (k : List Nat) (hk : k ≠ [])
    (r : Req) : ∀ (es : List Ev) (t : Tbl) (n : Node), Inv cap t →
    look t.slots k = some n → n.cur = r →
    (∀ e ∈ es, e.key ≠ [] ∧ e.pdu.formats = [286] ∧ (e.key = k → e.req = r)) →
    outsOf k es (senRun L odd enroll t es).1 =
      recRun odd enroll r n ((es.filter (fun e => e.key = k)).map (·.pdu))
  | [], _, _, _, _, _, _ => rfl
  | e :: es, t, n, h, hl, hc, hall => by
    obtain ⟨e1, e2, e3⟩ := hall e (List.mem_cons_self ..)
    have hrest := fun x hx => hall x (List.mem_cons_of_mem _ hx)
    obtain ⟨s1, s2, s3⟩ := sen_spec h hL odd enroll e1 e.req e.pdu e2
    by_cases hek : e.key = k
    · have her := e3 hek
      have hrec : recordFor cap t e.key e.req = some n := by
        simp only [recordFor, hek, hl, hc, her, ne_eq, not_true_eq_false, false_and, if_false]
      simp only [hrec] at s3
      obtain ⟨s3, s4⟩ := s3
      rw [her] at s3 s4
      rw [hek] at s4
      have ih := senRun_own hL odd enroll k hk r es _ _ s1 (by rw [hek, her]; exact s4)
        (finish_cur odd enroll pkcs7Certs r e.pdu n hc) hrest
      simp only [outsOf, senRun, List.zip_cons_cons, hek, decide_true, List.filter_cons_of_pos,
        List.map_cons, recRun]
      rw [hek] at s3 ih
      rw [her] at ih ⊢
      rw [s3]
      congr 1
    · have ih := senRun_own hL odd enroll k hk r es _ _ s1
        (by rw [s2 k hk (fun x => hek x.symm)]; exact hl) hc hrest
      simp only [outsOf, senRun, List.zip_cons_cons, hek, decide_false, Bool.false_eq_true,
        not_false_eq_true, List.filter_cons_of_neg]
      exact ih

/-- C58: whatever other sessions send in between, the answers a session gets are those of its
own messages run on its own record. -/
theorem C58_sessions_do_not_mix (L : Libc) (hL : L.Ok) (cap : Nat) (odd) (enroll)
    (k : List Nat) (hk : k ≠ []) (r : Req) (es : List Ev) (t : Tbl) (n : Node) (h : Inv cap t)
    (hl : look t.slots k = some n) (hc : n.cur = r)
    (hall : ∀ e ∈ es, e.key ≠ [] ∧ e.pdu.formats = [286] ∧ (e.key = k → e.req = r)) :
    outsOf k es (senRun L odd enroll t es).1 =
      recRun odd enroll r n ((es.filter (fun e => e.key = k)).map (·.pdu)) :=
  senRun_own hL odd enroll k hk r es t n h hl hc hall

/-- Two sessions send their blocks alternately; each gets its own result (the EST layer of
the example answers with the request text). -/
example :
    (senRun simpleLibc (fun _ l => l) (fun t => (.none, t)) (initTbl 2) [
      ⟨[49], .sen, msg (List.replicate 20 65) 0 0⟩,
      ⟨[50], .sen, msg (List.replicate 20 66) 0 0⟩,
      ⟨[49], .sen, msg (List.replicate 20 65) 0 1⟩,
      ⟨[50], .sen, msg (List.replicate 20 66) 0 1⟩]).1 =
    [.code 231, .code 231, .content (List.replicate 20 65), .content (List.replicate 20 66)] := by
  decide +kernel

/-- C07 has consequences (and is false): peer 1.2.3.4 on port 801 completes, with its own last block, the
request that peer 11.2.3.4 on port 80 began, and the EST layer is given the mixture as the
request of the former. -/
theorem C07_mixed_request_false :
    (senRun simpleLibc (fun _ l => l) (fun t => (.none, t)) (initTbl 2) [
      ⟨mkKey 80 [49, 49, 46, 50, 46, 51, 46, 52], .sen, msg (List.replicate 20 65) 0 0⟩,
      ⟨mkKey 801 [49, 46, 50, 46, 51, 46, 52], .sen, msg (List.replicate 20 66) 0 1⟩]).1 =
    [.code 231, .content (List.replicate 16 65 ++ List.replicate 4 66)] := by
  decide +kernel

/-! ## C59: the error mapping -/

/-- C59: a failed enrolment never answers with content, the code is decided by the error alone
and is the one of the table in `est.h`'s CoAP mapping: authentication failures 4.01, bad
requests 4.00, retry and locked 5.03, an unreachable upstream server 5.04, a bad upstream
answer 5.02, anything unlisted 5.00; and the record is kept as it was. -/
theorem C59_error_code (odd) (enroll : List Nat → EstErr × List Nat) (n : Node) (e : EstErr)
    (he : e ≠ .none) (hfail : ∀ t, (enroll t).1 = e) (h5 : 5 ≤ n.req.length) :
    process odd enroll n = (.code (
      if e = .authFail ∨ e = .authFailTlsuid then 401
      else if e = .badPkcs10 ∨ e = .csrAttrMissing ∨ e = .httpBadReq ∨ e = .noSslCtx then 400
      else if e = .httpNoContent then 204
      else if e = .httpNotFound then 404
      else if e = .httpUnsupported then 502
      else if e = .caEnrollRetry ∨ e = .httpLocked then 503
      else if e = .ipConnect then 504
      else 500), n) := by
  have henc : Base64.encode true n.req (List.replicate (2 * n.req.length) 0) ≠ none :=
    Base64.C02_coap_caller_partial _ _ (by simp) (Or.inl h5)
  simp only [process]
  cases hx : Base64.encode true n.req (List.replicate (2 * n.req.length) 0) with
  | none => exact absurd hx henc
  | some v =>
    obtain ⟨len, mem⟩ := v
    have hlen : len ≠ 0 := by
      intro h0
      subst h0
      simp only [Base64.encode] at hx
      split at hx
      · rename_i hbig
        simp at hbig
        omega
      · split at hx
        · rename_i hnil; rw [hnil] at h5; simp at h5
        · split at hx
          · simp only [Option.some.injEq, Prod.mk.injEq] at hx
            have h1 := hx.1
            rw [Base64.bioWrite_length] at h1
            simp [Base64.textLen] at h1
            omega
          · cases hx
    simp only [hlen, if_false, hfail, ne_eq, he, not_false_eq_true, if_true]
    cases e <;> first | rfl | simp [enrollCode]

example : process (fun _ l => l) (fun _ => (.authFail, [])) ⟨[49], [48, 1, 2, 3, 4], [], .sen⟩ =
    (.code 401, ⟨[49], [48, 1, 2, 3, 4], [], .sen⟩) := by decide +kernel

end Verif.Coap
