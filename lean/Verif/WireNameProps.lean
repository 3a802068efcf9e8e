import Verif.WireConnProps

/-!
# C100: when a connection goes on, and the user names on it
-/
namespace Verif.Wire
open Verif.Server (Ev BEv HdrRes Cred)

/-! ## Going on -/

theorem all_heads (l : List BEv) :
    (l.all fun e => match e with | .ev (.head _) => false | _ => true) = (Server.heads l).isEmpty := by
  induction l with
  | nil => rfl
  | cons x l il =>
    rcases x with x | _
    · cases x with
      | head st => rfl
      | _ => exact il
    · exact il

theorem status_eq (evs : List BEv) : status evs = (Server.heads evs).getLast?.getD 401 := by
  induction evs with
  | nil => rfl
  | cons e es ih =>
    rcases e with e | _
    · cases e with
      | head st =>
        have e : status (BEv.ev (.head st) :: es) =
            if (Server.heads es).isEmpty = true then st else status es := by
          rw [← all_heads]; rfl
        rw [e, ih]
        show _ = ((st :: Server.heads es).getLast?).getD 401
        cases Server.heads es with
        | nil => rfl
        | cons a l => simp [List.getLast?_cons_cons]
      | _ => exact ih
    · exact ih

/-- The last status line of an answer is a 200 or another status of success that is not 202, the
server keeps connections, and the client wants it. -/
def GoesOn (s : Site) (q : HttpHdr.Req) (sv : Served) : Prop :=
  ∃ st, (Server.heads sv.evs).getLast? = some st ∧ st ≠ 202 ∧ st < 400 ∧ s.keep = true ∧
    HttpHdr.ClientWantsKeepAlive ⟨false, st, s.keep, some q.version, q.hdrs⟩

theorem keepAfter_iff (s : Site) (q : HttpHdr.Req) (sv : Served) :
    keepAfter s q (status sv.evs) = true ↔ GoesOn s q sv := by
  unfold keepAfter GoesOn
  rw [HttpHdr.C18_keep_alive, status_eq]
  cases h : (Server.heads sv.evs).getLast? with
  | none => simp
  | some st =>
    simp only [Option.getD_some, Option.some.injEq, exists_eq_left', true_and]
    constructor
    · rintro ⟨a, b, c, d⟩
      exact ⟨by omega, by omega, c, d⟩
    · rintro ⟨a, b, c, d⟩
      exact ⟨by omega, by omega, c, d⟩

/-- **C100.**  After an answer the next request of the connection is served exactly if that
answer was a success (and not a 202), the server keeps connections, and the client wants it; a
request to which no status was sent is the last one. -/
theorem C100_goes_on (s : Site) (u : List Nat) (r : Rq) (rs : List Rq) (sv : Served) (u' : List Nat)
    (h : handleOn s u r.q r.body = some (sv, u')) :
    (GoesOn s r.q sv → answers s u (r :: rs) = (answers s u' rs).map (sv :: ·)) ∧
    (¬ GoesOn s r.q sv → answers s u (r :: rs) = some [sv]) := by
  rw [← keepAfter_iff]
  simp only [answers, h]
  exact ⟨fun hk => by rw [if_pos hk], fun hk => by rw [if_neg hk]⟩

/-- The first request (for the CA certificates) goes on; the enrolment without a header, on a server
that asks for a password, does not. -/
example : ((handleOn exSite3 [] exRq1.q exRq1.body).map fun x =>
    (Server.heads x.1.evs, keepAfter exSite3 exRq1.q (status x.1.evs))) = some ([200], true) := by
  decide +kernel

def exRq4 : Rq := ⟨exEnrol [] [] [], [77, 73, 73, 61], (HttpHdr.parseRequest (exEnrol [] [] [])).getD ⟨[], [], [], []⟩⟩

example : ((handleOn exSite3 [117] exRq4.q exRq4.body).map fun x =>
    (Server.heads x.1.evs, x.2, keepAfter exSite3 exRq4.q (status x.1.evs))) =
      some ([401], [117], false) := by
  decide +kernel

/-! ## User names -/

/-- The name is the one that was there, or that of the header at hand. -/
def From (u : List Nat) (hdr : HdrRes × Cred) (n : List Nat) : Prop :=
  n = u ∨ (hdr.1 = .good ∧ n = hdr.2.user)

theorem from_auth {cfg tls} {rq : Server.Req} {parse ty buf} {a : Server.AuthOut}
    (h : Server.enrollAuth cfg tls rq.hdr parse ty buf = some a) :
    From rq.connUser rq.hdr (a.user.getD rq.connUser) := by
  obtain ⟨_, _, _, hus⟩ := Server.enrollAuth_facts h
  cases ha : a.user with
  | none => exact .inl rfl
  | some u =>
    obtain ⟨h1, h2, h3, _⟩ := hus u ha
    exact .inr ⟨h1, h3⟩

theorem enrollAnswer_user (cfg net r es u) : (Server.enrollAnswer cfg net r es u).connUser = u := by
  unfold Server.enrollAnswer
  repeat' split
  all_goals rfl

theorem keygenAnswer_user (cfg mp net bo r es u) :
    (Server.keygenAnswer cfg mp net bo r es u).connUser = u := by
  unfold Server.keygenAnswer
  repeat' split
  all_goals rfl

theorem simpleEnroll_user {cfg tls net parse re} {rq : Server.Req} {o : Server.Out}
    (h : Server.simpleEnroll cfg tls net parse re rq = some o) :
    From rq.connUser rq.hdr o.connUser := by
  unfold Server.simpleEnroll at h
  split at h
  · injection h with h; subst h; exact .inl rfl
  · split at h
    · injection h with h; subst h; exact .inl rfl
    · cases ha : Server.enrollAuth cfg tls rq.hdr parse (if re then .reenroll else .enroll) rq.body with
      | none => simp [ha] at h
      | some a =>
        have hf := from_auth ha
        simp only [ha] at h
        have hc : ∀ kind ca, Server.enrollCsr cfg tls net parse kind ca rq a = some o →
            From rq.connUser rq.hdr o.connUser := by
          intro kind ca h
          unfold Server.enrollCsr at h
          simp only at h
          repeat' split at h
          all_goals first | cases h | skip
          all_goals (first | exact hf | (rw [enrollAnswer_user]; exact hf))
        split at h
        · injection h with h; subst h; exact hf
        · injection h with h; subst h; exact hf
        · injection h with h; subst h; exact hf
        · exact hc _ _ h
        · exact hc _ _ h
        · exact hc _ _ h

theorem serverKeygen_user {cfg k mp tls net bo parse} {rq : Server.Req} {o : Server.Out}
    (h : Server.serverKeygen cfg k mp tls net bo parse rq = some o) :
    From rq.connUser rq.hdr o.connUser := by
  unfold Server.serverKeygen at h
  split at h
  · injection h with h; subst h; exact .inl rfl
  · split at h
    · injection h with h; subst h; exact .inl rfl
    · split at h
      · injection h with h; subst h; exact .inl rfl
      · cases ha : Server.enrollAuth cfg tls rq.hdr parse .keygen rq.body with
        | none => simp [ha] at h
        | some a =>
          have hf := from_auth ha
          simp only [ha] at h
          have hc : ∀ ca g, Server.keygenCsr cfg k mp tls net bo parse ca g rq a = some o →
              From rq.connUser rq.hdr o.connUser := by
            intro ca g h
            unfold Server.keygenCsr at h
            simp only at h
            repeat' split at h
            all_goals first | cases h | skip
            all_goals (first | exact hf | (rw [keygenAnswer_user]; exact hf))
          split at h
          · injection h with h; subst h; exact hf
          · injection h with h; subst h; exact hf
          · injection h with h; subst h; exact hf
          · exact hc _ _ h
          · exact hc _ _ h
          · exact hc _ _ h

theorem brskiUser_from (s tls b c) (rq : Server.Req) :
    From rq.connUser rq.hdr (brskiUser s tls b c rq) := by
  unfold brskiUser
  split
  · exact .inl rfl
  · split
    · rename_i a ha
      exact from_auth ha
    · exact .inl rfl

theorem userAfter_from (s tls net bo method uri ct) (rq : Server.Req) :
    From rq.connUser rq.hdr (userAfter s tls net bo method uri ct rq) := by
  have hopt : ∀ (o : Option Server.Out),
      (∀ x, o = some x → From rq.connUser rq.hdr x.connUser) →
      From rq.connUser rq.hdr ((o.map (·.connUser)).getD rq.connUser) := by
    intro o ho
    cases o with
    | none => exact .inl rfl
    | some x => exact ho x rfl
  unfold userAfter
  split
  · rename_i op seg c
    simp only
    split
    · exact .inl rfl
    · cases op with
      | simpleEnroll => exact hopt _ fun x hx => simpleEnroll_user (rq := { rq with ct := c, seg := seg }) hx
      | simpleReenroll => exact hopt _ fun x hx => simpleEnroll_user (rq := { rq with ct := c, seg := seg }) hx
      | serverKeygen => exact hopt _ fun x hx => serverKeygen_user (rq := { rq with ct := c, seg := seg }) hx
      | reqVoucher => exact brskiUser_from _ _ _ _ _
      | voucherStatus => exact brskiUser_from _ _ _ _ _
      | enrollStatus => exact brskiUser_from _ _ _ _ _
      | _ => exact .inl rfl
  · exact .inl rfl

/-- The user name in the Authorization header of a request, as the server reads it. -/
def Names (s : Site) (q : HttpHdr.Req) (n : List Nat) : Prop :=
  ∃ ah id, AuthHdr.parseAuthHeader s.odd (toMode s.srv.cfg.authMode)
      (HttpHdr.getHeader q.hdrs [65, 117, 116, 104, 111, 114, 105, 122, 97, 116, 105, 111, 110]) = .good ah id ∧ (credOf ah).user = n

theorem hdrOf_names {s : Site} {q : HttpHdr.Req} {hdr : HdrRes × Cred} {u n : List Nat}
    (h : hdrOf (AuthHdr.parseAuthHeader s.odd (toMode s.srv.cfg.authMode)
      (HttpHdr.getHeader q.hdrs [65, 117, 116, 104, 111, 114, 105, 122, 97, 116, 105, 111, 110])) = some hdr) (hf : From u hdr n) :
    n = u ∨ Names s q n := by
  rcases hf with hf | ⟨h1, h3⟩
  · exact .inl hf
  · cases hp : AuthHdr.parseAuthHeader s.odd (toMode s.srv.cfg.authMode)
      (HttpHdr.getHeader q.hdrs [65, 117, 116, 104, 111, 114, 105, 122, 97, 116, 105, 111, 110]) with
    | ub => rw [hp] at h; cases h
    | missing => rw [hp] at h; simp only [hdrOf, Option.some.injEq] at h; rw [← h] at h1; cases h1
    | bad => rw [hp] at h; simp only [hdrOf, Option.some.injEq] at h; rw [← h] at h1; cases h1
    | good ah id =>
      rw [hp] at h
      simp only [hdrOf, Option.some.injEq] at h
      rw [← h] at h3
      exact .inr ⟨ah, id, hp, h3.symm⟩

theorem simpleEnroll_ca {cfg tls net parse re} {rq : Server.Req} {o : Server.Out}
    (h : Server.simpleEnroll cfg tls net parse re rq = some o)
    {k : Server.CaKind} {q : Server.CaReq} (hm : Ev.ca k q ∈ o.evs) :
    q.user = [] ∨ From rq.connUser rq.hdr q.user := by
  cases ht : cfg.transport with
  | http =>
    rcases Server.C55_user_from_accepted_credentials_partial ht h hm with ⟨_, _, h1, _, _, h2⟩ | h1
    · exact .inr (.inr ⟨h1, h2⟩)
    · exact .inr (.inl h1)
  | coap =>
    rcases Server.simpleEnroll_cases h with hs | ⟨ca, a, csr, hr, ho⟩
    · rcases hs.evs _ hm with ⟨c, hc⟩ | hc <;> simp at hc
    · obtain ⟨_, hA⟩ := Server.enrollAnswer_cases cfg net (ca (Server.caReqOf cfg tls rq a))
          (a.evs ++ [.ca (Server.kindOf re) (Server.caReqOf cfg tls rq a)]) (a.user.getD rq.connUser)
      rw [← ho] at hA
      obtain ⟨hev, _, _, _⟩ := Server.enrollAuth_facts hr.auth
      have hmem : Ev.ca k q ∈ a.evs ++ [.ca (Server.kindOf re) (Server.caReqOf cfg tls rq a)] := by
        rcases hA with ⟨_, _, ⟨_, _, h3⟩ | ⟨_, _, _, h3⟩ | ⟨_, _, h3, _⟩⟩ | ⟨_, h3, _⟩ <;>
          rw [h3] at hm
        · exact hm
        · exact hm
        · simp only [List.mem_append, List.mem_singleton, reduceCtorEq, or_false] at hm ⊢
          rcases hm with hm | hm
          · exact hm
          · obtain ⟨p, hp, _⟩ := Server.writeBody_evs _ _ _ hm
            simp at hp
        · exact hm
      left
      rcases List.mem_append.mp hmem with hm | hm
      · rcases hev _ hm with ⟨c, hc⟩ | hc <;> simp at hc
      · simp only [List.mem_singleton, Ev.ca.injEq] at hm
        rw [hm.2]
        simp [Server.caReqOf, ht]

theorem serverKeygen_ca {cfg k mp tls net bo parse} {rq : Server.Req} {o : Server.Out}
    (h : Server.serverKeygen cfg k mp tls net bo parse rq = some o)
    {kd : Server.CaKind} {q : Server.CaReq} (hm : Ev.ca kd q ∈ o.evs) :
    q.user = [] ∨ From rq.connUser rq.hdr q.user := by
  rcases Server.serverKeygen_cases h with hs | ⟨ca, a, csr, key, csr2, hr, ho⟩
  · rcases hs.evs _ hm with ⟨c, hc⟩ | hc <;> simp at hc
  · have hA := Server.keygenAnswer_cases cfg mp net bo
        (ca (Server.keygenReq cfg tls rq a (k.encode csr2)) key)
        (a.evs ++ [.ca .keygen (Server.keygenReq cfg tls rq a (k.encode csr2))])
        (a.user.getD rq.connUser)
    simp only [← ho] at hA
    obtain ⟨hev, _, _, _⟩ := Server.enrollAuth_facts hr.auth
    have hmem : Ev.ca kd q ∈ a.evs ++ [.ca .keygen (Server.keygenReq cfg tls rq a (k.encode csr2))] := by
      rcases hA with ⟨_, _, ⟨_, _, h3⟩ | ⟨_, _, _, h3⟩ | ⟨_, _, h3, _⟩⟩ | ⟨_, h3, _⟩ <;>
        rw [h3] at hm
      · exact hm
      · exact hm
      · simp only [List.mem_append, List.mem_singleton, reduceCtorEq, or_false] at hm ⊢
        rcases hm with hm | hm
        · exact hm
        · obtain ⟨p, b, hp, _⟩ := Server.writeAll_evs _ _ _ _ hm
          simp at hp
      · exact hm
    have hq : q = Server.keygenReq cfg tls rq a (k.encode csr2) := by
      rcases List.mem_append.mp hmem with hm | hm
      · rcases hev _ hm with ⟨c, hc⟩ | hc <;> simp at hc
      · simp only [List.mem_singleton, Ev.ca.injEq] at hm
        exact hm.2
    have hf := from_auth hr.auth
    rw [hq]
    unfold Server.keygenReq
    dsimp only
    split
    · exact .inr hf
    · exact .inl rfl

/-- The CA events of a request name the user of the connection, or that of the header. -/
theorem httpRequest_ca {s : Server.Server} {tls net bo method uri ct} {rq : Server.Req}
    {d : Server.DOut} (h : Server.httpRequest s true tls net bo method uri ct rq = some d)
    {k : Server.CaKind} {q : Server.CaReq} (hm : BEv.ev (.ca k q) ∈ d.evs) :
    q.user = [] ∨ From rq.connUser rq.hdr q.user := by
  have hop := Server.C20_callback_of_the_operation h hm
  have hor : ∀ hn rc evs e, BEv.ev (Ev.ca k q) ∈ (Server.orError net hn rc evs e).evs →
      BEv.ev (Ev.ca k q) ∈ evs := by
    intro hn rc evs e hm
    unfold Server.orError at hm
    rcases List.mem_append.1 hm with hm | hm
    · exact hm
    · exact absurd (Server.ev_mem_map.1 hm) (Server.sendError_no_ca _ _ _ _)
  have hno : ∀ e, BEv.ev (Ev.ca k q) ∉ (Server.sendError net.retryOut e).map BEv.ev := by
    intro e hm; exact Server.sendError_no_ca _ _ _ _ (Server.ev_mem_map.1 hm)
  obtain ⟨hp, seg, _, hu, _⟩ := hop
  have hp' : Server.methodPostPrefix method = true := by simpa [Server.methodPostPrefix] using hp
  rcases hu with ⟨_, rfl, _⟩ | ⟨_, rfl, _⟩ | ⟨_, rfl⟩
  all_goals
    unfold Server.httpRequest at h
    simp only [Bool.not_true, Bool.false_eq_true, if_false, hp'] at h
    cases ct with
    | none => simp only [Option.some.injEq] at h; subst h; exact absurd hm (hno _)
    | some c =>
      simp only [Option.map_eq_some_iff] at h
      obtain ⟨o, ho, hx⟩ := h
      have hev : Ev.ca k q ∈ o.evs := by
        split at hx <;> subst hx
        · exact Server.ev_mem_map.1 (hor _ _ _ _ hm)
        · exact Server.ev_mem_map.1 hm
      first
      | exact simpleEnroll_ca ho hev
      | exact serverKeygen_ca ho hev

theorem handleOn_from {s : Site} {u : List Nat} {q : HttpHdr.Req} {body : List Nat} {sv : Served}
    {u' : List Nat} (h : handleOn s u q body = some (sv, u')) :
    (u' = u ∨ Names s q u') ∧ ∀ k c, BEv.ev (.ca k c) ∈ sv.evs → c.user = [] ∨ c.user = u ∨ Names s q c.user := by
  unfold handleOn at h
  cases hp : Url.requestPath q.uri with
  | none => simp [hp] at h
  | some p =>
    simp only [hp] at h
    cases hh : hdrOf (AuthHdr.parseAuthHeader s.odd (toMode s.srv.cfg.authMode)
        (HttpHdr.getHeader q.hdrs [65, 117, 116, 104, 111, 114, 105, 122, 97, 116, 105, 111, 110])) with
    | none => simp [hh] at h
    | some hdr =>
      simp only [hh, Option.map_eq_some_iff, Prod.mk.injEq] at h
      obtain ⟨d, hd, rfl, rfl⟩ := h
      refine ⟨hdrOf_names hh (userAfter_from _ _ _ _ _ _ _ _), ?_⟩
      intro k c hm
      rcases httpRequest_ca hd hm with h1 | h1
      · exact .inl h1
      · exact .inr (hdrOf_names hh h1)

theorem answers_from (s : Site) (rs : List Rq) : ∀ (u : List Nat) (l : List Served),
    answers s u rs = some l → ∀ (i : Nat) (sv : Served), l[i]? = some sv → ∀ k c,
      BEv.ev (.ca k c) ∈ sv.evs →
      c.user = [] ∨ c.user = u ∨ ∃ (j : Nat) (r : Rq), j ≤ i ∧ rs[j]? = some r ∧ Names s r.q c.user := by
  induction rs with
  | nil =>
    intro u l h i sv hi
    simp only [answers, Option.some.injEq] at h
    subst h
    simp at hi
  | cons r rs ih =>
    intro u l h i sv hi k c hm
    cases hx : handleOn s u r.q r.body with
    | none => simp [answers, hx] at h
    | some x =>
      obtain ⟨sv0, u'⟩ := x
      obtain ⟨hu, hc⟩ := handleOn_from hx
      simp only [answers, hx] at h
      have h0 : l[0]? = some sv0 := by
        split at h
        · simp only [Option.map_eq_some_iff] at h
          obtain ⟨t, _, rfl⟩ := h
          rfl
        · injection h with h; subst h; rfl
      cases i with
      | zero =>
        rw [h0] at hi
        injection hi with hi
        subst hi
        rcases hc k c hm with h1 | h1 | h1
        · exact .inl h1
        · exact .inr (.inl h1)
        · exact .inr (.inr ⟨0, r, Nat.le_refl _, rfl, h1⟩)
      | succ i =>
        split at h
        · simp only [Option.map_eq_some_iff] at h
          obtain ⟨t, ht, rfl⟩ := h
          rcases ih u' t ht i sv (by simpa using hi) k c hm with h1 | h1 | ⟨j, r', hj, hr, h1⟩
          · exact .inl h1
          · rw [h1]
            rcases hu with h2 | h2
            · exact .inr (.inl h2)
            · exact .inr (.inr ⟨0, r, Nat.zero_le _, rfl, h2⟩)
          · exact .inr (.inr ⟨j + 1, r', by omega, by simpa using hr, h1⟩)
        · injection h with h; subst h; simp at hi

/-- **C100.**  Whatever a client sends on a connection, the user name that the CA gets with a
request is empty, or it was in the Authorization header of that request or of an earlier one of
the same connection. -/
theorem C100_names_of_this_connection (s : Site) (n : Nat) (sched : List HttpConn.Ev)
    (he : HttpConn.Ev.err ∉ sched) (sock : List Nat) (svs : List Served)
    (h : connection s n sched sock = some svs) :
    ∃ rs : List Rq, (∃ rest, sock = rs.flatMap Rq.bytes ++ rest) ∧ (∀ r ∈ rs, r.Ok) ∧
      ∀ (i : Nat) (sv : Served) k c, svs[i]? = some sv → BEv.ev (.ca k c) ∈ sv.evs →
        c.user = [] ∨ ∃ (j : Nat) (r : Rq), j ≤ i ∧ rs[j]? = some r ∧ Names s r.q c.user := by
  obtain ⟨rs, rest, last, hok, hs, ⟨l, hl, _, rfl⟩, hlast⟩ := C100_every_answer_explained s n sched he sock svs h
  refine ⟨rs, ⟨rest, hs⟩, hok, ?_⟩
  intro i sv k c hi hm
  by_cases hlt : i < l.length
  · rw [List.getElem?_append_left hlt] at hi
    rcases answers_from s rs [] l hl i sv hi k c hm with h1 | h1 | h1
    · exact .inl h1
    · exact .inl h1
    · exact .inr h1
  · rw [List.getElem?_append_right (by omega)] at hi
    rcases hlast with rfl | ⟨sv', st, rfl, hr, _⟩
    · simp at hi
    · exfalso
      have : sv = sv' := by
        cases hn : i - l.length with
        | zero => rw [hn] at hi; simpa using hi.symm
        | succ m => rw [hn] at hi; simp at hi
      subst this
      rw [hr.1] at hm
      cases hm

/-- The second request of this connection brings no name, and the CA gets the one of the first. -/
example : ∃ svs, connection exSite3 4 exFlow ([exRq2, exRq3].flatMap Rq.bytes) = some svs ∧
    ∃ sv k c, svs[1]? = some sv ∧ BEv.ev (.ca k c) ∈ sv.evs ∧ c.user = [117] := by
  have h := C100_name_carried_over.1
  cases hc : connection exSite3 4 exFlow ([exRq2, exRq3].flatMap Rq.bytes) with
  | none => rw [hc] at h; cases h
  | some svs =>
    rw [hc] at h
    simp only [Option.map_some, Option.some.injEq, Option.map_eq_some_iff] at h
    obtain ⟨sv, h1, h2⟩ := h
    exact ⟨svs, rfl, sv, _, _, h1, by rw [h2]; exact List.mem_cons_self .., rfl⟩

end Verif.Wire
