import Verif.HttpConnLemmas

/-!
# Properties of the HTTP connection loop (C12, C13, C14, C51)

The specification of a header (`EndsBlank`, `Allowed`, `IsHeader`) stands at the
top of `HttpConnLemmas`; it does not mention the model.
-/
namespace Verif.HttpConn

/-! ## C12: framing -/

/-- C12: a positive answer of `get_request_len` is the length of the complete
header at the start of the buffer, and such a header is always found. -/
theorem C12_positive_iff_header (buf : List Nat) (n : Nat) :
    getRequestLen buf = n ∧ 0 < n ↔ ∃ h rest, buf = h ++ rest ∧ IsHeader h ∧ h.length = n := by
  constructor
  · rintro ⟨h, hn⟩
    obtain ⟨hd, rest, h1, h2, h3⟩ := isHeader_of_pos 0 buf n h (by omega)
    exact ⟨hd, rest, h1, h2, by omega⟩
  · rintro ⟨hd, rest, rfl, hh, rfl⟩
    refine ⟨by simpa [getRequestLen] using pos_of_isHeader hd hh rest 0, ?_⟩
    cases hd with
    | nil => exact absurd hh.ends endsBlank_nil
    | cons _ _ => simp

/-- "GET / HTTP/1.1\r\n\r\n" followed by two more bytes. -/
example : getRequestLen
    [71, 69, 84, 32, 47, 32, 72, 84, 84, 80, 47, 49, 46, 49, 13, 10, 13, 10, 65, 66] = 18 := by
  decide

/-- C12: the answer is negative exactly when a character that is not allowed in a
header, and is not the last buffered byte, comes before the end of the header. -/
theorem C12_negative_iff_bad (buf : List Nat) :
    getRequestLen buf < 0 ↔ ∃ p c d t, buf = p ++ c :: d :: t ∧ ¬ Allowed c ∧
      (∀ q s, p = q ++ s → ¬ EndsBlank q) := by
  constructor
  · intro h
    apply bad_of_neg 0
    unfold getRequestLen at h
    rcases reqLenFrom_values 0 buf with h' | h' | h' <;> omega
  · rintro ⟨p, c, d, t, rfl, hc, hq⟩
    unfold getRequestLen
    rw [neg_of_bad p c d t hc hq 0]; omega

example : getRequestLen [71, 0, 10, 10] < 0 := by decide

/-- C12: more bytes never change an answer that was given. -/
theorem C12_stable (buf more : List Nat) (h : getRequestLen buf ≠ 0) :
    getRequestLen (buf ++ more) = getRequestLen buf := by
  rcases reqLenFrom_values 0 buf with h' | h' | h'
  · obtain ⟨p, c, d, t, rfl, hc, hq⟩ := bad_of_neg 0 buf h'
    unfold getRequestLen
    rw [h']
    have := neg_of_bad p c d (t ++ more) hc hq 0
    simpa using this
  · exact absurd h' h
  · obtain ⟨hd, rest, rfl, h2, h3⟩ := isHeader_of_pos 0 buf _ rfl h'
    unfold getRequestLen
    rw [List.append_assoc, pos_of_isHeader hd h2, pos_of_isHeader hd h2]

example : getRequestLen [65, 10, 10] ≠ 0 := by decide

/-- C12: a positive answer lies within the buffered bytes. -/
theorem C12_within_buffer (buf : List Nat) : getRequestLen buf ≤ buf.length := by
  rcases reqLenFrom_values 0 buf with h | h | h
  · unfold getRequestLen; omega
  · unfold getRequestLen; omega
  · obtain ⟨hd, rest, h1, h2, h3⟩ := isHeader_of_pos 0 buf _ rfl h
    unfold getRequestLen
    rw [h3, h1]; simp; omega

/-- C12 for the whole reader: however the bytes arrive, the header that
`read_request` reports is the header of the byte stream. -/
theorem C12_arrival_independent (bufsiz : Nat) (buf sock : List Nat) (evs : List Ev) (r : Int)
    (hr : (readRequest bufsiz buf sock evs).res = .ret r) (hpos : 0 < r) :
    getRequestLen (buf ++ sock) = r := by
  obtain ⟨⟨t, h1, h2⟩, _, h4, _⟩ := readRequest_spec bufsiz evs buf sock
  have hrr := h4 r hr hpos
  have : buf ++ sock = (readRequest bufsiz buf sock evs).buf ++ (readRequest bufsiz buf sock evs).sock := by
    rw [h1, List.append_assoc, ← h2]
  rw [this, C12_stable _ _ (by omega)]
  exact hrr.symm

example : (readRequest 100 [] [65, 10, 10, 66] [.avail 1, .avail 0, .avail 1, .avail 7]).res
    = .ret 3 := by decide

/-! ## C14: the body reader -/

/-- A sequence of `mg_read` calls with the given lengths. -/
def reads (c : Conn) (sock : List Nat) (evs : List Ev) : List Nat → List (List Nat) × Conn × List Nat × List Ev
  | [] => ([], c, sock, evs)
  | len :: lens =>
    let m := mgRead c len sock evs
    let r := reads m.conn m.sock m.evs lens
    (m.bytes :: r.1, r.2)

/-- C14: whatever sequence of reads is made, the bytes handed out, in order, are a
prefix of the bytes after the header (buffered ones first, then the socket's),
they are never more than the content length, and no single read exceeds the
length asked for. -/
theorem C14_body_prefix (c : Conn) (sock : List Nat) (evs : List Ev) (lens : List Nat)
    (hc : c.consumed = 0) (hl : 0 ≤ c.contentLen) :
    let r := reads c sock evs lens
    r.1.flatten <+: c.buf.drop c.requestLen ++ sock ∧
    (r.1.flatten.length : Int) ≤ c.contentLen ∧
    r.1.length = lens.length ∧ (∀ p ∈ r.1.zip lens, p.1.length ≤ p.2) := by
  suffices H : ∀ (lens : List Nat) (c : Conn) (sock : List Nat) (evs : List Ev),
      (c.consumed : Int) ≤ c.contentLen →
      let r := reads c sock evs lens
      r.1.flatten <+: remaining c sock ∧
      ((c.consumed + r.1.flatten.length : Nat) : Int) ≤ c.contentLen ∧
      r.1.length = lens.length ∧ (∀ p ∈ r.1.zip lens, p.1.length ≤ p.2) by
    have := H lens c sock evs (by omega)
    simpa [remaining, hc] using this
  intro lens
  induction lens with
  | nil => intro c sock evs h; simpa [reads] using h
  | cons len lens ih =>
    intro c sock evs h
    obtain ⟨h1, h2, h3, h4, _⟩ := mgRead_spec c len sock evs
    simp only [reads]
    have hcc : (mgRead c len sock evs).conn.contentLen = c.contentLen := by rw [h3]
    have hco : (mgRead c len sock evs).conn.consumed
        = c.consumed + (mgRead c len sock evs).bytes.length := by rw [h3]
    obtain ⟨i1, i2, i3, i4⟩ := ih (mgRead c len sock evs).conn (mgRead c len sock evs).sock
      (mgRead c len sock evs).evs (by rw [hcc]; exact h4 h)
    refine ⟨?_, ?_, by simp [i3], ?_⟩
    · rw [List.flatten_cons, ← h1]
      exact (List.prefix_append_right_inj _).2 i1
    · rw [hcc, hco] at i2
      rw [List.flatten_cons, List.length_append]; omega
    · intro p hp
      simp only [List.zip_cons_cons, List.mem_cons] at hp
      rcases hp with rfl | hp
      · exact h2
      · exact i4 p hp

/-- Two reads of a 4-byte body; a pipelined byte (99) is not handed out. -/
example : (reads ⟨[10, 10, 1, 2], 2, 4, 0⟩ [3, 4, 99] [.avail 1, .avail 0, .avail 9] [3, 8]).1
    = [[1, 2, 3], [4]] := by decide

/-- C14: a read that ends without an error delivers everything that was asked for,
up to the content length. -/
theorem C14_complete_read (c : Conn) (sock : List Nat) (evs : List Ev) (len : Nat)
    (h : (mgRead c len sock evs).fin = .done) :
    (mgRead c len sock evs).bytes
      = (c.buf.drop (c.requestLen + c.consumed) ++ sock).take
          (min len (c.contentLen - c.consumed).toNat) := by
  obtain ⟨h1, _, _, _, h5, _⟩ := mgRead_spec c len sock evs
  have hl := h5 h
  unfold remaining at h1
  rw [← h1, ← hl, List.take_left']
  rfl

example : (mgRead ⟨[10, 10, 1], 2, 3, 0⟩ 3 [2, 3, 99] [.avail 5]).fin = .done := by decide

/-! ## C13: the connection loop -/

/-- Specification: cutting a byte stream into requests, given the content length
that each header declares. -/
inductive Frames (cl : List Nat → Nat) : List Nat → List (List Nat × List Nat) → Prop
  | stop (s : List Nat) : Frames cl s []
  | next (h body rest : List Nat) (fs : List (List Nat × List Nat)) :
      IsHeader h → body.length = cl h → Frames cl rest fs →
      Frames cl (h ++ (body ++ rest)) ((h, body) :: fs)

/-- C13: one pass of the loop keeps the buffer within its size. -/
theorem C13_buffer_bound (info : List Nat → HdrInfo) (bufsiz : Nat) (s s' : CState) (o : COut)
    (hs : s.buf.length ≤ bufsiz) (h : connStep info bufsiz s = some o) (hn : o.next = some s') :
    s'.buf.length ≤ bufsiz := by
  unfold connStep at h
  obtain ⟨_, hb, _, _⟩ := readRequest_spec bufsiz s.evs s.buf s.sock
  have hb := hb hs
  generalize readRequest bufsiz s.buf s.sock s.evs = rr at h hb
  simp only at h
  split at h
  · simp at h; subst h; simp at hn
  · split at h
    · simp at h; subst h; simp at hn
    · split at h
      · simp only [Option.map_eq_some_iff] at h
        obtain ⟨d, _, rfl⟩ := h
        simp at hn
      · split at h
        · simp at h; subst h; simp at hn
        · simp only [Option.map_eq_some_iff] at h
          obtain ⟨d, _, rfl⟩ := h
          simp only at hn
          split at hn
          · simp at hn; subst hn; simp; omega
          · simp at hn

/-- A request that is served and leaves a pipelined byte behind. -/
example : (connStep (fun _ => ⟨true, 1, true⟩) 8 ⟨[], [65, 10, 10, 1, 66], [.avail 5]⟩).map
    (fun o => (o.item, o.next)) = some (some ⟨[65, 10, 10], 1, [1]⟩, some ⟨[66], [], []⟩) := by
  decide

/-- C13: the number of bytes discarded after a request is never more than the
number of bytes buffered, and is the header and body length if all of these are
buffered. -/
theorem C13_discard_within_buffer (rl : Nat) (cl : Int) (dl d : Nat)
    (h : discardLen rl cl dl = some d) :
    d ≤ dl ∧ (0 ≤ cl → (d : Int) = min (rl + cl) dl) := by
  unfold discardLen at h
  split at h
  · split at h
    · simp at h
    · split at h
      · simp at h; omega
      · simp at h; omega
  · simp at h; omega

example : discardLen 3 4 20 = some 7 := by decide

theorem connStep_frame (info : List Nat → HdrInfo) (bufsiz : Nat) (s : CState) (o : COut)
    (hev : .err ∉ s.evs) (h : connStep info bufsiz s = some o) :
    (o.item = none ∧ o.next = none) ∨
    ∃ hd body rest, o.item = some ⟨hd, (info hd).contentLen.toNat, body⟩ ∧
      s.buf ++ s.sock = hd ++ (body ++ rest) ∧ IsHeader hd ∧
      body.length = (info hd).contentLen.toNat ∧ (info hd).ok = true ∧
      0 ≤ (info hd).contentLen ∧ (info hd).contentLen ≤ 8192 ∧
      ∀ s', o.next = some s' → s'.buf ++ s'.sock = rest ∧ .err ∉ s'.evs := by
  unfold connStep at h
  obtain ⟨⟨t, h1, h2⟩, _, h4, ⟨u, h5⟩⟩ := readRequest_spec bufsiz s.evs s.buf s.sock
  have hstream : s.buf ++ s.sock = (readRequest bufsiz s.buf s.sock s.evs).buf ++
      (readRequest bufsiz s.buf s.sock s.evs).sock := by
    rw [h1, List.append_assoc, ← h2]
  clear h1 h2
  generalize readRequest bufsiz s.buf s.sock s.evs = rr at h h4 h5 hstream
  simp only at h
  split at h
  · simp at h; subst h; exact Or.inl ⟨rfl, rfl⟩
  · rename_i r hr
    split at h
    · simp at h; subst h; exact Or.inl ⟨rfl, rfl⟩
    · rename_i hpos
      split at h
      · simp only [Option.map_eq_some_iff] at h
        obtain ⟨d, _, rfl⟩ := h
        exact Or.inl ⟨rfl, rfl⟩
      · rename_i hok
        split at h
        · simp at h; subst h; exact Or.inl ⟨rfl, rfl⟩
        · rename_i hfin
          simp only [Option.map_eq_some_iff] at h
          obtain ⟨d, hd, rfl⟩ := h
          right
          have hrl := h4 r hr (by omega)
          obtain ⟨hdr, rest0, g1, g2, g3⟩ := isHeader_of_pos 0 rr.buf r hrl.symm (by omega)
          have hr' : r.toNat = hdr.length := by omega
          have htake : rr.buf.take r.toNat = hdr := by rw [hr', g1]; simp
          rw [htake] at hok hfin hd ⊢
          have hdrop : rr.buf.drop r.toNat = rest0 := by rw [hr', g1]; simp
          simp only [Bool.or_eq_true, Bool.not_eq_true', decide_eq_true_eq, not_or,
            Bool.not_eq_false, maxContentLen] at hok
          obtain ⟨⟨hok1, hok2⟩, hok3⟩ := hok
          obtain ⟨m1, m2, m3, m4, m5, m6, ⟨v, m7⟩⟩ := mgRead_spec
            ⟨rr.buf, r.toNat, (info hdr).contentLen, 0⟩ (info hdr).contentLen.toNat rr.sock rr.evs
          generalize hm : mgRead ⟨rr.buf, r.toNat, (info hdr).contentLen, 0⟩ (info hdr).contentLen.toNat
            rr.sock rr.evs = m at hfin m1 m2 m3 m4 m5 m6 m7 ⊢
          have hev' : .err ∉ rr.evs := fun hm => hev (by rw [h5]; exact List.mem_append_right _ hm)
          have hdone : m.fin = .done := by
            have := m6 hev'
            cases hf : m.fin <;> simp_all
          have hlen := m5 hdone
          simp only [Int.natCast_zero, Int.sub_zero, Nat.min_self] at hlen
          refine ⟨hdr, m.bytes, remaining m.conn m.sock, rfl, ?_, g2, hlen, hok1, by omega,
            by simpa using hok2, ?_⟩
          · rw [hstream, m1]
            simp only [remaining, Nat.add_zero]
            rw [hdrop, ← List.append_assoc, ← g1]
          · intro s' hs'
            simp only at hs'
            split at hs'
            · simp at hs'
              subst hs'
              refine ⟨?_, fun hm => hev' (by rw [m7]; exact List.mem_append_right _ hm)⟩
              simp only [remaining, m3, Nat.zero_add, hlen]
              congr 1
              have hdm := (C13_discard_within_buffer _ _ _ _ hd).2 (by omega)
              by_cases hc : r.toNat + (info hdr).contentLen.toNat ≤ rr.buf.length
              · congr 1; omega
              · rw [List.drop_eq_nil_of_le (by omega), List.drop_eq_nil_of_le (by omega)]
            · simp at hs'

/-- C13, the part that holds: as long as no read from the peer fails, the calls
into the EST layer are exactly a cutting of the peer's byte stream into
header/body pairs, nothing skipped and nothing used twice; each body has the
declared length, which is at most 8192.  (`connRun` answers `none` if it runs
into undefined behaviour; see the two negations below.) -/
theorem C13_requests_partition_stream_partial (info : List Nat → HdrInfo) (bufsiz fuel : Nat)
    (s : CState) (items : List Handled) (hev : .err ∉ s.evs)
    (h : connRun info bufsiz fuel s = some items) :
    Frames (fun hd => (info hd).contentLen.toNat) (s.buf ++ s.sock)
      (items.map fun i => (i.header, i.stored)) ∧
    ∀ i ∈ items, i.stored.length = i.cl ∧ i.cl ≤ 8192 := by
  induction fuel generalizing s items with
  | zero => simp [connRun] at h; subst h; exact ⟨Frames.stop _, by simp⟩
  | succ fuel ih =>
    simp only [connRun] at h
    cases ho : connStep info bufsiz s with
    | none => rw [ho] at h; simp at h
    | some o =>
      rw [ho] at h
      simp only [Option.map_eq_some_iff] at h
      obtain ⟨tail, ht, rfl⟩ := h
      rcases connStep_frame info bufsiz s o hev ho with ⟨h1, h2⟩ | ⟨hd, body, rest, h1, h2, h3, h4, _, h6, h7, h8⟩
      · rw [h2] at ht; simp at ht; subst ht
        rw [h1]; exact ⟨Frames.stop _, by simp⟩
      · rw [h1, h2]
        cases hn : o.next with
        | none =>
          rw [hn] at ht; simp at ht; subst ht
          refine ⟨by simpa using Frames.next hd body rest [] h3 h4 (Frames.stop _), ?_⟩
          intro i hi; simp at hi; subst hi; exact ⟨h4, by simp only; omega⟩
        | some s' =>
          rw [hn] at ht; simp only at ht
          obtain ⟨g1, g2⟩ := h8 s' hn
          obtain ⟨f1, f2⟩ := ih s' tail g2 ht
          rw [g1] at f1
          refine ⟨by simpa using Frames.next hd body rest _ h3 h4 f1, ?_⟩
          intro i hi
          simp at hi
          rcases hi with rfl | hi
          · exact ⟨h4, by simp only; omega⟩
          · exact f2 i hi

/-- Two pipelined requests, arriving in three pieces. -/
example : connRun (fun h => ⟨true, h.head!, true⟩) 8 5
    ⟨[], [50, 10, 10] ++ List.replicate 50 7 ++ [33, 10, 10] ++ List.replicate 33 9,
      [.avail 2, .avail 30, .avail 60, .avail 60, .avail 60, .avail 60]⟩
    = some [⟨[50, 10, 10], 50, List.replicate 50 7⟩, ⟨[33, 10, 10], 33, List.replicate 33 9⟩] := by
  decide

/-- C13 is false as stated (1): a request that declares the largest 64-bit content
length is refused with 413, but computing the number of bytes to discard
overflows a signed integer. -/
theorem C13_discard_overflow_false :
    ∃ (info : List Nat → HdrInfo) (s : CState), (∀ h, (info h).ok = true) ∧ s.buf = [] ∧
      connStep info 16384 s = none :=
  ⟨fun _ => ⟨true, 9223372036854775807, true⟩, ⟨[], [65, 10, 10], [.avail 3]⟩,
    fun _ => rfl, rfl, by decide⟩

/-- C13 is false as stated (2): if reading the body fails half way (for instance
the read timeout), the request is handled all the same and the connection is
kept; the rest of the body is then taken for a new request. -/
theorem C13_body_taken_for_request_false :
    ∃ (info : List Nat → HdrInfo) (s : CState) (items : List Handled),
      connRun info 16384 2 s = some items ∧
      ¬ Frames (fun hd => (info hd).contentLen.toNat) (s.buf ++ s.sock)
        (items.map fun i => (i.header, i.stored)) := by
  refine ⟨fun _ => ⟨true, 4, true⟩, ⟨[], [65, 10, 10, 1, 66, 10, 10], [.avail 4, .err, .avail 3, .err]⟩,
    [⟨[65, 10, 10], 4, [1]⟩, ⟨[66, 10, 10], 4, []⟩], by decide, ?_⟩
  intro h
  generalize hitems : List.map _ _ = l at h
  generalize (_ : List Nat) ++ (_ : List Nat) = st at h
  cases h with
  | stop => simp at hitems
  | next hh body rest fs _ hl _ =>
    simp at hitems
    rw [← hitems.1.2] at hl
    simp at hl

/-! ## C51: the body handed to the EST layer -/

/-- C51, the part that holds: without read errors the EST layer is called with a
body of exactly the announced length, all of it received from the peer. -/
theorem C51_body_is_what_was_sent_partial (info : List Nat → HdrInfo) (bufsiz : Nat)
    (s : CState) (o : COut) (i : Handled) (hev : .err ∉ s.evs)
    (h : connStep info bufsiz s = some o) (hi : o.item = some i) :
    i.stored.length = i.cl ∧ i.header ++ i.stored <+: s.buf ++ s.sock := by
  rcases connStep_frame info bufsiz s o hev h with ⟨h1, _⟩ | ⟨hd, body, rest, h1, h2, h3, h4, _⟩
  · rw [h1] at hi; simp at hi
  · rw [h1] at hi; simp at hi; subst hi
    exact ⟨h4, by rw [h2, ← List.append_assoc]; exact List.prefix_append _ _⟩

example : ((connStep (fun _ => ⟨true, 2, false⟩) 16384 ⟨[], [65, 10, 10, 1, 2], [.avail 4, .avail 1]⟩).map
    (fun o => o.item)) = some (some ⟨[65, 10, 10], 2, [1, 2]⟩) := by decide

/-- C51 is false as stated: when `mg_read` fails, its return value is ignored and
the EST layer is called with the announced length although only a part of the
(uninitialised) body buffer was written. -/
theorem C51_uninitialised_body_false :
    ∃ (info : List Nat → HdrInfo) (s : CState) (o : COut) (i : Handled),
      connStep info 16384 s = some o ∧ o.item = some i ∧ i.cl = 100 ∧ i.stored.length = 1 :=
  ⟨fun _ => ⟨true, 100, false⟩, ⟨[], [65, 10, 10, 1], [.avail 4, .err]⟩, _,
    ⟨[65, 10, 10], 100, [1]⟩, rfl, by decide, rfl, rfl⟩

end Verif.HttpConn
