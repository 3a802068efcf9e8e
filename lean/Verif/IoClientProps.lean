import Verif.IoProps

/-!
# C123: the client's side: a response is read completely, or the call ends with an error
-/
namespace Verif.Io

/-- Milliseconds `ms` until something arrives, then at most `k + 1` bytes of it are read. -/
def arrive (x : Nat × Nat) : Turn := .ready x.1 (.data x.2)

theorem readRaw_data (max : Nat) (peek : Option Int) (buf sock : List Nat) (x : Nat × Nat)
    (es : List Turn) :
    readRaw max peek buf sock (arrive x :: es) =
      (match sock.take (min (x.2 + 1) (max - buf.length)) with
       | [] => ⟨finish max peek buf, buf, es⟩
       | b :: bs =>
         if (buf ++ b :: bs).length < max then
           readRaw max peek (buf ++ b :: bs) (sock.drop (bs.length + 1)) es
         else ⟨finish max peek (buf ++ b :: bs), buf ++ b :: bs, es⟩) := by
  rw [readRaw]
  simp only [arrive, sslRead]
  split
  · rename_i h; cases h
  · rename_i h; cases h
  · rename_i h
    injection h with h
    rw [h]
  · rename_i h
    injection h with h
    rw [h]

theorem take_zero_or (sock : List Nat) (k room : Nat) :
    sock = [] ∨ room = 0 ∨ ∃ b bs, sock.take (min (k + 1) room) = b :: bs ∧
      sock = b :: bs ++ sock.drop (bs.length + 1) ∧ bs.length + 1 ≤ room := by
  cases sock with
  | nil => exact Or.inl rfl
  | cons a l =>
    cases room with
    | zero => exact Or.inr (Or.inl rfl)
    | succ m =>
      refine Or.inr (Or.inr ⟨a, l.take (min k m), ?_, ?_, ?_⟩)
      · rw [show min (k + 1) (m + 1) = min k m + 1 by omega, List.take_succ_cons]
      · rw [List.drop_succ_cons, List.cons_append, List.length_take]
        congr 1
        generalize min k m = j
        by_cases h : j ≤ l.length
        · rw [Nat.min_eq_left h, List.take_append_drop]
        · rw [Nat.min_eq_right (by omega), List.drop_of_length_le (Nat.le_refl _),
            List.take_of_length_le (by omega), List.append_nil]
      · rw [List.length_take]; omega

theorem readRaw_prefix (max : Nat) (peek : Option Int) : ∀ (es : List Turn) (buf sock : List Nat),
    buf.length ≤ max →
    (∃ more, (readRaw max peek buf sock es).buf = buf ++ more ∧ more <+: sock) ∧
      (readRaw max peek buf sock es).buf.length ≤ max := by
  intro es
  induction es with
  | nil => intro buf sock h; exact ⟨⟨[], by simp [readRaw], List.nil_prefix⟩, h⟩
  | cons e es ih =>
    intro buf sock h
    have stay : ∀ x : RawRes, x.buf = buf →
        (∃ more, x.buf = buf ++ more ∧ more <+: sock) ∧ x.buf.length ≤ max := by
      intro x hx
      exact ⟨⟨[], by simp [hx], List.nil_prefix⟩, by rw [hx]; exact h⟩
    cases e with
    | silent => exact stay _ rfl
    | pollFail => exact stay _ rfl
    | ready ms rd =>
      cases rd with
      | cut => exact stay _ rfl
      | fail => exact stay _ rfl
      | stuck => exact stay _ rfl
      | data k =>
        rw [show Turn.ready ms (.data k) = arrive (ms, k) from rfl, readRaw_data]
        rcases take_zero_or sock k (max - buf.length) with h1 | h1 | ⟨b, bs, h1, h2, h3⟩
        · subst h1; exact stay _ (by simp)
        · rw [h1]; exact stay _ (by simp)
        · simp only [h1]
          split
          · obtain ⟨⟨more, e1, e2⟩, e3⟩ := ih (buf ++ b :: bs) (sock.drop (bs.length + 1))
              (by simp; omega)
            refine ⟨⟨b :: bs ++ more, by rw [e1]; simp, ?_⟩, e3⟩
            conv => rhs; rw [h2]
            exact (List.prefix_append_right_inj _).mpr e2
          · refine ⟨⟨b :: bs, rfl, ?_⟩, by simp; omega⟩
            rw [h2]; exact List.prefix_append _ _

/-- C123: whatever happens on the connection, what the client holds is a beginning of what the
server sent, and never more than its buffer takes. -/
theorem C123_client_prefix (max : Nat) (peek : Option Int) (sock : List Nat) (es : List Turn) :
    (readRaw max peek [] sock es).buf <+: sock ∧
      (readRaw max peek [] sock es).buf.length ≤ max := by
  obtain ⟨⟨more, e1, e2⟩, e3⟩ := readRaw_prefix max peek es [] sock (by simp)
  rw [List.nil_append] at e1
  exact ⟨by rw [e1]; exact e2, e3⟩

theorem readRaw_whole (max : Nat) (peek : Option Int) : ∀ (xs : List (Nat × Nat))
    (buf sock : List Nat), (buf ++ sock).length < max → sock.length < xs.length →
    (readRaw max peek buf sock (xs.map arrive)).ret = .none ∧
      (readRaw max peek buf sock (xs.map arrive)).buf = buf ++ sock := by
  intro xs
  induction xs with
  | nil => intro buf sock _ h; simp at h
  | cons x xs ih =>
    intro buf sock hm hl
    rw [List.map_cons, readRaw_data]
    rw [List.length_append] at hm
    rcases take_zero_or sock x.2 (max - buf.length) with h1 | h1 | ⟨b, bs, h1, h2, h3⟩
    · subst h1
      simp only [List.take_nil, List.append_nil]
      exact ⟨by unfold finish; rw [if_neg (by omega)], trivial⟩
    · omega
    · simp only [h1]
      have hs : sock.length = bs.length + 1 + (sock.drop (bs.length + 1)).length := by
        conv => lhs; rw [h2]
        simp; omega
      rw [if_pos (by simp; omega)]
      have := ih (buf ++ b :: bs) (sock.drop (bs.length + 1))
        (by simp only [List.length_append, List.length_cons]; omega)
        (by simp only [List.length_cons] at hl; omega)
      refine ⟨this.1, ?_⟩
      rw [this.2, List.append_assoc, ← h2]

/-- C123: a response that fits is delivered completely when the server closes the connection
after it, in whatever pieces and with whatever pauses (shorter than the time-out) it comes. -/
theorem C123_client_whole_response (max : Nat) (peek : Option Int) (sock : List Nat)
    (xs : List (Nat × Nat)) (hm : sock.length < max) (hl : sock.length < xs.length) :
    (readRaw max peek [] sock (xs.map arrive)).ret = .none ∧
      (readRaw max peek [] sock (xs.map arrive)).buf = sock :=
  readRaw_whole max peek xs [] sock (by simpa using hm) hl

example : readRaw 100 none [] [1, 2, 3] ([(5, 0), (900, 1), (0, 7), (3, 3)].map arrive) =
    ⟨.none, [1, 2, 3], [.ready 3 (.data 3)]⟩ := by decide

theorem readRaw_long (max : Nat) (peek : Option Int) : ∀ (xs : List (Nat × Nat))
    (buf sock : List Nat), buf.length < max → max ≤ (buf ++ sock).length →
    max ≤ buf.length + xs.length →
    (readRaw max peek buf sock (xs.map arrive)).ret =
        finish max peek ((buf ++ sock).take max) ∧
      (readRaw max peek buf sock (xs.map arrive)).buf = (buf ++ sock).take max := by
  intro xs
  induction xs with
  | nil => intro buf sock h _ h2; simp at h2; omega
  | cons x xs ih =>
    intro buf sock hb hm hl
    rw [List.map_cons, readRaw_data]
    have hm' := hm
    rw [List.length_append] at hm'
    rcases take_zero_or sock x.2 (max - buf.length) with h1 | h1 | ⟨b, bs, h1, h2, h3⟩
    · subst h1; simp at hm'; omega
    · omega
    · simp only [h1]
      have e : buf ++ sock = (buf ++ b :: bs) ++ sock.drop (bs.length + 1) := by
        conv => lhs; rw [h2]
        simp
      by_cases hc : (buf ++ b :: bs).length < max
      · rw [if_pos hc, e]
        refine ih _ _ hc (by rw [← e]; exact hm) ?_
        simp only [List.length_append, List.length_cons] at hl ⊢
        omega
      · rw [if_neg hc]
        have hl2 : (buf ++ b :: bs).length = max := by
          simp only [List.length_append, List.length_cons] at hc ⊢; omega
        have : (buf ++ sock).take max = buf ++ b :: bs := by
          rw [e, ← hl2, List.take_left']
          rfl
        rw [this]
        exact ⟨rfl, rfl⟩

/-- C123: a response that does not fit is refused as too long. -/
theorem C123_client_too_long (max : Nat) (n : Int) (sock : List Nat) (xs : List (Nat × Nat))
    (hm : 0 < max) (hs : max < sock.length) (hl : max ≤ xs.length) (hn : n ≠ 0) :
    (readRaw max (some n) [] sock (xs.map arrive)).ret = .tooSmall := by
  rw [(readRaw_long max (some n) xs [] sock (by simpa using hm) (by simp; omega)
    (by simpa using hl)).1]
  unfold finish
  rw [if_pos (by simp; omega)]
  simp [hn]

example : (readRaw 2 (some 1) [] [1, 2, 3] ([(0, 0), (0, 9)].map arrive)) =
    ⟨.tooSmall, [1, 2], []⟩ := by decide

/-- C123 is false of a response that fills the buffer: whether more follows is asked without a
time-out, so the call hangs on a server that keeps the connection open; and if the server closes
it, the response is accepted although no byte is left for the NUL the parser of the header
relies on. -/
theorem C123_full_buffer_false (sock : List Nat) (hs : 0 < sock.length) :
    (readRaw sock.length none [] sock ([(0, sock.length)].map arrive)).ret = .blocked ∧
    readRaw sock.length (some 0) [] sock ([(0, sock.length)].map arrive) = ⟨.none, sock, []⟩ := by
  have h : ∀ peek, readRaw sock.length peek [] sock ([(0, sock.length)].map arrive) =
      ⟨finish sock.length peek sock, sock, []⟩ := by
    intro peek
    rw [List.map_cons, readRaw_data]
    have ht : sock.take (min (sock.length + 1) (sock.length - ([] : List Nat).length)) = sock := by
      apply List.take_of_length_le; simp
    simp only [ht]
    cases sock with
    | nil => simp at hs
    | cons b bs => simp
  rw [h, h]
  exact ⟨by simp [finish], by simp [finish]⟩

example : 0 < [72, 84, 84, 80].length := by decide

/-- The calls a run made. -/
def calls (es : List Turn) (r : RawRes) : List Turn := es.take (es.length - r.rest.length)

/-- The time the polls of those calls took. -/
def waited (t : Nat) (es : List Turn) (r : RawRes) : Nat := ((calls es r).map (Turn.ms t)).sum

theorem readRaw_rest (max : Nat) (peek : Option Int) : ∀ (es : List Turn) (buf sock : List Nat),
    (readRaw max peek buf sock es).rest.length ≤ es.length := by
  intro es
  induction es with
  | nil => intro buf sock; simp [readRaw]
  | cons e es ih =>
    intro buf sock
    rw [readRaw]
    split
    · simp
    · simp
    · simp
    · split
      · exact Nat.le_succ_of_le (ih _ _)
      · simp

theorem calls_cons (e : Turn) (es : List Turn) (r : RawRes) (h : r.rest.length ≤ es.length) :
    calls (e :: es) r = e :: calls es r := by
  unfold calls
  rw [List.length_cons, show es.length + 1 - r.rest.length = (es.length - r.rest.length) + 1 by omega,
    List.take_succ_cons]

/-- C123: the client reports success only if every call it made found something to read or the
end of the connection: a time-out, a failed poll or a failed read always ends in an error. -/
theorem C123_client_success_means (max : Nat) (peek : Option Int) : ∀ (es : List Turn)
    (buf sock : List Nat), (readRaw max peek buf sock es).ret = .none →
    ∀ e ∈ calls es (readRaw max peek buf sock es),
      ∃ ms, e = .ready ms .cut ∨ ∃ k, e = .ready ms (.data k) := by
  intro es
  induction es with
  | nil => intro buf sock h; simp [readRaw] at h
  | cons e es ih =>
    intro buf sock h x hx
    have this : ∀ (r : RawRes), r.rest = es → calls (e :: es) r = [e] := by
      intro r hr
      unfold calls
      rw [hr, List.length_cons, show es.length + 1 - es.length = 1 by omega]
      simp
    cases e with
    | silent => simp [readRaw, sslRead] at h
    | pollFail => simp [readRaw, sslRead] at h
    | ready ms rd =>
      cases rd with
      | cut =>
        rw [this _ (by simp [readRaw, sslRead])] at hx
        rw [List.mem_singleton.mp hx]
        exact ⟨ms, Or.inl rfl⟩
      | fail => simp [readRaw, sslRead] at h
      | stuck => simp [readRaw, sslRead] at h
      | data k =>
        rw [show Turn.ready ms (.data k) = arrive (ms, k) from rfl] at h hx this
        rw [readRaw_data] at h hx
        rcases take_zero_or sock k (max - buf.length) with h1 | h1 | ⟨b, bs, h1, h2, h3⟩
        · subst h1
          rw [this _ (by simp)] at hx
          rw [List.mem_singleton.mp hx]
          exact ⟨ms, Or.inr ⟨k, rfl⟩⟩
        · rw [h1] at hx
          rw [this _ (by simp)] at hx
          rw [List.mem_singleton.mp hx]
          exact ⟨ms, Or.inr ⟨k, rfl⟩⟩
        · simp only [h1] at h hx
          by_cases hc : (buf ++ b :: bs).length < max
          · simp only [if_pos hc] at h hx
            rw [calls_cons _ _ _ (readRaw_rest _ _ _ _ _)] at hx
            rcases List.mem_cons.mp hx with rfl | hx
            · exact ⟨ms, Or.inr ⟨k, rfl⟩⟩
            · exact ih _ _ h x hx
          · simp only [if_neg hc] at h hx
            rw [this _ rfl] at hx
            rw [List.mem_singleton.mp hx]
            exact ⟨ms, Or.inr ⟨k, rfl⟩⟩

example : (readRaw 9 none [] [1, 2] [.ready 3 (.data 0), .ready 0 .cut, .silent]).ret = .none ∧
    calls [.ready 3 (.data 0), .ready 0 .cut, .silent]
      (readRaw 9 none [] [1, 2] [.ready 3 (.data 0), .ready 0 .cut, .silent]) =
      [.ready 3 (.data 0), .ready 0 .cut] := by decide

theorem readRaw_time (max t : Nat) (peek : Option Int) : ∀ (es : List Turn)
    (buf sock : List Nat), (∀ e ∈ es, e.ms t ≤ t * 1000) →
    waited t es (readRaw max peek buf sock es) + buf.length * (t * 1000) ≤
      ((readRaw max peek buf sock es).buf.length + 1) * (t * 1000) := by
  intro es
  induction es with
  | nil =>
    intro buf sock _
    simp [readRaw, waited, calls, Nat.add_mul]
  | cons e es ih =>
    intro buf sock he
    have he1 := he e (by simp)
    have one : ∀ (r : RawRes), r.rest = es → ∀ n, r.buf.length = buf.length + n →
        waited t (e :: es) r + buf.length * (t * 1000) ≤ (r.buf.length + 1) * (t * 1000) := by
      intro r hr n hn
      unfold waited calls
      rw [hr, List.length_cons, show es.length + 1 - es.length = 1 by omega, hn, Nat.add_mul,
        Nat.add_mul]
      simp only [List.take_succ_cons, List.take_zero, List.map_cons, List.map_nil, List.sum_cons,
        List.sum_nil]
      have : 0 ≤ n * (t * 1000) := Nat.zero_le _
      omega
    cases e with
    | silent => exact one _ rfl 0 rfl
    | pollFail => exact one _ rfl 0 rfl
    | ready ms rd =>
      cases rd with
      | cut => exact one _ rfl 0 rfl
      | fail => exact one _ rfl 0 rfl
      | stuck => exact one _ rfl 0 rfl
      | data k =>
        rw [show Turn.ready ms (.data k) = arrive (ms, k) from rfl] at he he1 one ⊢
        rw [readRaw_data]
        rcases take_zero_or sock k (max - buf.length) with h1 | h1 | ⟨b, bs, h1, h2, h3⟩
        · subst h1; exact one _ (by simp) 0 (by simp)
        · rw [h1]; exact one _ (by simp) 0 (by simp)
        · simp only [h1]
          by_cases hc : (buf ++ b :: bs).length < max
          · simp only [if_pos hc]
            have := ih (buf ++ b :: bs) (sock.drop (bs.length + 1))
              (fun x hx => he x (by simp [hx]))
            have hw : waited t (arrive (ms, k) :: es)
                (readRaw max peek (buf ++ b :: bs) (sock.drop (bs.length + 1)) es) =
                (arrive (ms, k)).ms t + waited t es
                (readRaw max peek (buf ++ b :: bs) (sock.drop (bs.length + 1)) es) := by
              unfold waited
              rw [calls_cons _ _ _ (readRaw_rest _ _ _ _ _)]
              simp
            rw [hw]
            simp only [List.length_append, List.length_cons, Nat.add_mul, Nat.one_mul] at this ⊢
            have : 0 ≤ bs.length * (t * 1000) := Nat.zero_le _
            omega
          · simp only [if_neg hc]
            exact one _ rfl (bs.length + 1) (by simp)

/-- C123 (partial): the time the client spends waiting is bounded by the time-out for every byte
that arrived, and once more for the end.  Missing: a bound on the whole exchange, see
`C123_slow_server_false`; the read itself, which has no time-out (`C123_client_stuck_false`). -/
theorem C123_client_time_partial (max t : Nat) (peek : Option Int) (sock : List Nat)
    (es : List Turn) (he : ∀ e ∈ es, e.ms t ≤ t * 1000) :
    waited t es (readRaw max peek [] sock es) ≤
      ((readRaw max peek [] sock es).buf.length + 1) * (t * 1000) := by
  have := readRaw_time max t peek es [] sock he
  simpa using this

example : ∀ e ∈ [Turn.ready 900 (.data 0), .silent], e.ms 1 ≤ 1 * 1000 := by decide

/-- C123: a server that says nothing is waited for exactly as long as the time-out says, and then
the call fails with what had been read before. -/
theorem C123_client_silent (max t : Nat) (peek : Option Int) (buf sock : List Nat)
    (es : List Turn) :
    readRaw max peek buf sock (.silent :: es) = ⟨.sslRead, buf, es⟩ ∧
      waited t (.silent :: es) (readRaw max peek buf sock (.silent :: es)) = t * 1000 := by
  refine ⟨rfl, ?_⟩
  have h : readRaw max peek buf sock (.silent :: es) = ⟨.sslRead, buf, es⟩ := rfl
  rw [h]
  unfold waited calls
  rw [show (Turn.silent :: es).length - es.length = 1 by simp]
  simp [Turn.ms]

example : waited 10 [.silent] (readRaw 5120 (some 0) [] [] [.silent]) = 10000 := by decide

/-- C123 is false of a whole response: a server that sends one byte just before each time-out is
waited for, `n + 1` time-outs for `n` bytes. -/
theorem C123_slow_server_false (t : Nat) (peek : Option Int) (sock : List Nat) :
    readRaw (sock.length + 1) peek [] sock
        ((List.replicate (sock.length + 1) (t * 1000, 0)).map arrive) = ⟨.none, sock, []⟩ ∧
    waited t ((List.replicate (sock.length + 1) (t * 1000, 0)).map arrive)
      (readRaw (sock.length + 1) peek [] sock
        ((List.replicate (sock.length + 1) (t * 1000, 0)).map arrive)) =
      (sock.length + 1) * (t * 1000) := by
  have gen : ∀ (s buf : List Nat) (max : Nat), (buf ++ s).length < max →
      readRaw max peek buf s ((List.replicate (s.length + 1) (t * 1000, 0)).map arrive) =
        ⟨.none, buf ++ s, []⟩ := by
    intro s
    induction s with
    | nil =>
      intro buf max h
      rw [List.length_nil, List.replicate_succ, List.map_cons, readRaw_data]
      simp at h ⊢
      unfold finish; rw [if_neg (by omega)]
    | cons b bs ih =>
      intro buf max h
      rw [List.length_cons, List.replicate_succ, List.map_cons, readRaw_data]
      simp only [List.length_append, List.length_cons] at h
      have ht : (b :: bs).take (min (0 + 1) (max - buf.length)) = [b] := by
        rw [show min (0 + 1) (max - buf.length) = 1 by omega]; rfl
      simp only [ht]
      rw [if_pos (by simp; omega)]
      have := ih (buf ++ [b]) max (by simp; omega)
      simpa using this
  have h := gen sock [] (sock.length + 1) (by simp)
  rw [List.nil_append] at h
  refine ⟨h, ?_⟩
  rw [h]
  unfold waited calls
  simp only [List.length_replicate, List.length_nil, Nat.sub_zero,
    List.map_replicate]
  rw [List.take_of_length_le (by simp)]
  simp only [List.map_replicate, List.sum_replicate_nat, arrive, Turn.ms]

/-- C123 is false of a server that keeps the connection open: a response that has arrived
completely is thrown away with a read error when the time-out strikes, since only the end of the
connection ends a response; the length in its header is not looked at. -/
theorem C123_keep_alive_false (max : Nat) (peek : Option Int) (sock : List Nat)
    (hs : 0 < sock.length) (hm : sock.length < max) :
    readRaw max peek [] sock [.ready 0 (.data sock.length), .silent] =
      ⟨.sslRead, sock, []⟩ := by
  rw [show Turn.ready 0 (.data sock.length) = arrive (0, sock.length) from rfl, readRaw_data]
  have ht : sock.take (min (sock.length + 1) (max - ([] : List Nat).length)) = sock := by
    apply List.take_of_length_le; simp; omega
  simp only [ht]
  cases sock with
  | nil => simp at hs
  | cons b bs =>
    dsimp only
    rw [if_pos (by simpa using hm)]
    simp [readRaw, sslRead]

/-- C123 is false with signals: one that arrives while the client waits ends the exchange with a
read error. -/
theorem C123_client_signal_false (max : Nat) (peek : Option Int) (sock : List Nat)
    (es : List Turn) :
    readRaw max peek [] sock (.pollFail :: es) = ⟨.sslRead, [], es⟩ := rfl

/-- C123 is false of a connection that is cut: where the TLS library returns zero for it, the
part that arrived is handed on as the complete response. -/
theorem C123_cut_connection_false (max : Nat) (peek : Option Int) (a : Nat) (sock : List Nat)
    (hm : 1 < max) :
    readRaw max peek [] (a :: sock) [.ready 0 (.data 0), .ready 0 .cut] = ⟨.none, [a], []⟩ := by
  rw [show Turn.ready 0 (.data 0) = arrive (0, 0) from rfl, readRaw_data]
  have ht : (a :: sock).take (min (0 + 1) (max - ([] : List Nat).length)) = [a] := by
    rw [show min (0 + 1) (max - ([] : List Nat).length) = 1 by simp; omega]; rfl
  simp only [ht]
  rw [if_pos (by simpa using hm)]
  simp only [readRaw, sslRead, finish]
  rw [if_neg (by simp; omega)]
  rfl

/-- C123 is false of a TLS record that arrives in part: the poll of the client is over with its
first byte, and the read that follows has no time-out. -/
theorem C123_client_stuck_false (max ms : Nat) (peek : Option Int) (sock : List Nat)
    (es : List Turn) :
    readRaw max peek [] sock (.ready ms .stuck :: es) = ⟨.blocked, [], es⟩ := rfl

end Verif.Io
