import Verif.ProxyProps
import Verif.Asn1Props
/-!
# What the proxy hands out as CA certificates and CSR attributes (C88)
-/
namespace Verif.Proxy
open Verif.Server (Ev)
open Verif.Flow (Conn)
open Verif.Asn1 (Tlv seq oid oidsOf chpw Carries handlerLib)

/-- A GET request for an operation. -/
def get (op : EstUri.Op) (seg : Option (List Nat)) (hdr : Server.HdrRes × Server.Cred) : HttpReq :=
  ⟨[71, 69, 84], .ok op seg, none, none, hdr⟩

/-- The response of a proxy whose writes all get through. -/
def whole (ct body : List Nat) : List PEv := [.write (head200 ct body.length), .write body]

theorem head200_ne (ct : List Nat) (n : Nat) : head200 ct n ≠ [] := by simp [head200]

theorem writes_whole {out : Nat → Nat} {a b : List Nat} (ha : a ≠ []) (hb : b ≠ [])
    (h0 : a.length ≤ out 0) (h1 : b.length ≤ out 1) :
    writes out 0 [a, b] = ([.write a, .write b], true) := by
  simp only [writes, List.take_of_length_le h0, List.take_of_length_le h1, if_neg ha, if_neg hb]

/-- The client context the request of this thread is made with. -/
def chosen (cfg : Cfg) (env : Env) (seg : Option (List Nat)) (st : State) : Option PClient :=
  (getClient cfg env st).map (chooseSeg cfg seg)

theorem getCacerts_ok {lib : Flow.Lib} {cfg : ClientReq.Cfg} {n : Conn} {c c' : Flow.Client}
    {r : Flow.Ret} (h : Flow.getCacerts lib cfg n c = some (r, c')) (he : r.err = .none) :
    ∃ u t t', n = .up u ∧ lib.verify t = .ok t' ∧ t ≠ [] ∧ c'.cacerts = some t' := by
  unfold Flow.getCacerts at h
  split at h
  · simp only [Flow.refuse, Option.some.injEq, Prod.mk.injEq] at h
    rw [← h.1] at he
    cases he
  · cases n with
    | down e =>
      simp only [Flow.refuse, Option.some.injEq, Prod.mk.injEq] at h
      rw [← h.1] at he
      exact absurd he (down_err e).1
    | up u =>
      simp only at h
      split at h
      · cases h
      · rename_i e body c1 sent hf
        split at h
        · rename_i hee
          simp only [Option.some.injEq, Prod.mk.injEq] at h
          rw [← h.1] at he
          simp only [Flow.storeCacerts] at he h
          by_cases h1 : (body.getD []).length = 0
          · rw [if_pos h1] at he; cases he
          · rw [if_neg h1] at he h
            by_cases h2 : (body.getD []).length + 1 > ClientResp.caMax
            · rw [if_pos h2] at he; cases he
            · rw [if_neg h2] at he h
              cases hv : lib.verify (body.getD []) with
              | error x =>
                rw [hv] at he
                simp only at he
                exact absurd he (by cases x <;> decide)
              | ok t' =>
                rw [hv] at h
                refine ⟨u, body.getD [], t', rfl, hv, ?_, ?_⟩
                · intro h0; rw [h0] at h1; exact h1 rfl
                · rw [← h.2]
        · rename_i hee
          simp only [Option.some.injEq, Prod.mk.injEq] at h
          rw [← h.1] at he
          exact absurd he hee

theorem get_cacerts {cfg : Cfg} {env : Env} {st : State} {seg : Option (List Nat)} {o : Out}
    (h : handleCacerts cfg env seg st = .done o) (hdr) :
    request cfg env (get .cacerts seg hdr) st =
      .done ((todo o).rc, (todo o).evs ++ finish env (todo o) (todo o).st, (todo o).st) := by
  have : dispatch cfg env (get .cacerts seg hdr) st = .done (todo o) := by
    simp [dispatch, get, h, runTodo]
  simp [request, this]

theorem get_attrs {cfg : Cfg} {env : Env} {st : State} {seg : Option (List Nat)} {o : Out}
    (h : handleAttrs cfg env seg st = .done o) (hdr) :
    request cfg env (get .csrattrs seg hdr) st =
      .done ((todo o).rc, (todo o).evs ++ finish env (todo o) (todo o).st, (todo o).st) := by
  have : dispatch cfg env (get .csrattrs seg hdr) st = .done (todo o) := by
    simp [dispatch, get, h, runTodo]
  simp [request, this]

/-- C88: a proxy with CA certificates of its own hands them out and asks nobody. -/
theorem C88_own_cacerts {cfg : Cfg} {env : Env} {st : State} {certs : List Nat}
    (hh : cfg.srv.transport = .http) (hc : st.caCerts = some certs) (hne : certs ≠ [])
    (h0 : (head200 ctCacerts certs.length).length ≤ env.out 0) (h1 : certs.length ≤ env.out 1)
    (seg : Option (List Nat)) (hdr) :
    request cfg env (get .cacerts seg hdr) st = .done (.none, whole ctCacerts certs, st) := by
  simp [request, dispatch, get, handleCacerts, hc, hh, sendCacerts,
    writes_whole (head200_ne _ _) hne h0 h1, runTodo, todo, finish, whole]

example : answers (request exProxy (exEnv 1 (.down .connect) (.down .connect))
    (get .cacerts none (exRq none).hdr) (State.init (some [77, 73, 73, 67, 65]))) =
    some (whole ctCacerts [77, 73, 73, 67, 65]) := by decide +kernel

/-- C88: otherwise one request goes upstream.  If the client code accepts the answer, the
client gets exactly the certificates that passed the verification; if it reports an error, the
client gets the status that belongs to it and no body. -/
theorem C88_cacerts {cfg : Cfg} {env : Env} {st : State} {seg : Option (List Nat)} {pc : PClient}
    {r : Flow.Ret} {c' : Flow.Client} (hh : cfg.srv.transport = .http) (hc : st.caCerts = none)
    (hp : chosen cfg env seg st = some pc)
    (hr : Flow.getCacerts cfg.lib { cfg.up with seg := pc.seg } (env.conn 0) pc.c = some (r, c'))
    (hdr) :
    ∃ rc evs st', request cfg env (get .cacerts seg hdr) st = .done (rc, evs, st') ∧
      st'.caCerts = none ∧
      (r.err = .none → ∃ t t', cfg.lib.verify t = .ok t' ∧ (t' ≠ [] →
        (head200 ctCacerts t'.length).length ≤ env.out 0 → t'.length ≤ env.out 1 →
        rc = .none ∧ evs = r.sent.map PEv.up ++ whole ctCacerts t')) ∧
      (r.err ≠ .none → env.retryOut = true →
        evs = r.sent.map PEv.up ++ answer r.err c'.delay) := by
  unfold chosen at hp
  obtain ⟨pc0, hg, hpc⟩ := Option.map_eq_some_iff.mp hp
  subst hpc
  by_cases he : r.err = .none
  · obtain ⟨u, t, t', _, hv, _, hct⟩ := getCacerts_ok hr he
    have hreq : handleCacerts cfg env seg st = .done ⟨(sendCacerts env.out t').2,
        r.sent.map PEv.up ++ (sendCacerts env.out t').1,
        { setClient st env.thread { chooseSeg cfg seg pc0 with c := c' } with delay := c'.delay },
        [], []⟩ := by
      simp [handleCacerts, hc, hg, hr, he, hh, hct]
    refine ⟨_, _, _, get_cacerts hreq hdr, ?_, ?_, ?_⟩
    · simp only [(todo_evs _).2]
      exact hc
    · intro _
      refine ⟨t, t', hv, fun hne h0 h1 => ?_⟩
      simp [sendCacerts, writes_whole (head200_ne _ _) hne h0 h1, todo, finish, whole]
    · intro h; exact absurd he h
  · have hreq : handleCacerts cfg env seg st = .done ⟨relay r.err, r.sent.map PEv.up,
        { setClient st env.thread { chooseSeg cfg seg pc0 with c := c' } with delay := c'.delay },
        [], []⟩ := by
      simp [handleCacerts, hc, hg, hr, he]
    have hrel := relay_ne r.err he
    refine ⟨_, _, _, get_cacerts hreq hdr, ?_, ?_, ?_⟩
    · simp only [(todo_evs _).2]
      exact hc
    · intro h; exact absurd h he
    · intro _ ho
      simp only [todo, hrel.1, hrel.2, or_self, if_false, finish, ho]
      rw [sendError_relay r.err he]

/-- What an upstream server answers in the examples. -/
def exCacerts : List Nat :=
  [72, 84, 84, 80, 47, 49, 46, 49, 32, 50, 48, 48, 32, 79, 75, 13, 10, 67, 111, 110, 116, 101, 110, 116, 45, 84, 121, 112, 101, 58, 32, 97, 112, 112, 108, 105, 99, 97, 116, 105, 111, 110, 47, 112, 107, 99, 115, 55, 45, 109, 105, 109, 101, 13, 10, 67, 111, 110, 116, 101, 110, 116, 45, 76, 101, 110, 103, 116, 104, 58, 32, 52, 13, 10, 13, 10, 77, 73, 73, 67]

example : answers (request exProxy (exEnv 1 (Flow.exUp exCacerts) (.down .connect))
    (get .cacerts none (exRq none).hdr) (State.init none)) =
    some (whole ctCacerts [77, 73, 73, 67]) ∧
    answers (request exProxy (exEnv 1 (.down .connect) (.down .connect))
    (get .cacerts none (exRq none).hdr) (State.init none)) =
    some [.srv (.head 504)] := by decide +kernel

/-- C88 over CoAP: the certificates that passed the verification are kept in the proxy context,
from which they are sent; nothing is kept after an error. -/
theorem C88_coap_cacerts {cfg : Cfg} {env : Env} {st : State} {seg : Option (List Nat)}
    {pc : PClient} {r : Flow.Ret} {c' : Flow.Client} (hh : cfg.srv.transport = .coap)
    (hc : st.caCerts = none) (hp : chosen cfg env seg st = some pc)
    (hr : Flow.getCacerts cfg.lib { cfg.up with seg := pc.seg } (env.conn 0) pc.c =
      some (r, c')) :
    ∃ o, handleCacerts cfg env seg st = .done o ∧
      (r.err = .none → o.rc = .none ∧ ∃ t t', cfg.lib.verify t = .ok t' ∧
        o.st.caCerts = some t') ∧
      (r.err ≠ .none → o.rc = relay r.err ∧ o.st.caCerts = none) := by
  unfold chosen at hp
  obtain ⟨pc0, hg, hpc⟩ := Option.map_eq_some_iff.mp hp
  subst hpc
  by_cases he : r.err = .none
  · obtain ⟨u, t, t', _, hv, _, hct⟩ := getCacerts_ok hr he
    refine ⟨_, by simp [handleCacerts, hc, hg, hr, he, hh]; rfl, ?_, fun h => absurd he h⟩
    intro _
    exact ⟨rfl, t, t', hv, hct⟩
  · refine ⟨_, by simp [handleCacerts, hc, hg, hr, he]; rfl, fun h => absurd h he, ?_⟩
    intro _
    exact ⟨rfl, hc⟩

/-- C88 is false over CoAP for requests with another path segment: once certificates are in the
proxy context, every later request gets them, whichever segment it names, and nothing is asked
upstream. -/
theorem C88_coap_segment_false {cfg : Cfg} {env : Env} {st : State} {certs : List Nat}
    (hh : cfg.srv.transport = .coap) (hc : st.caCerts = some certs) (seg : Option (List Nat)) :
    handleCacerts cfg env seg st = .done ⟨.none, [], st, [], []⟩ := by
  simp [handleCacerts, hc, hh]

/-- C88 for CSR attributes, proof of possession off: what the upstream server sent is handed out
unchanged; errors are passed on. -/
theorem C88_attrs_unchanged {cfg : Cfg} {env : Env} {st : State} {seg : Option (List Nat)}
    {pc : PClient} {r : Flow.Ret} {c' : Flow.Client} (hh : cfg.srv.transport = .http)
    (hpop : cfg.srv.enablePop = false) (hp : chosen cfg env seg st = some pc)
    (hr : Flow.getCsrattrs cfg.lib { cfg.up with seg := pc.seg } (env.conn 0) pc.c =
      some (r, c')) (hdr) :
    ∃ rc evs st', request cfg env (get .csrattrs seg hdr) st = .done (rc, evs, st') ∧
      (r.err = .none → ∀ d, r.data = some d → d ≠ [] →
        (head200 ctAttrs d.length).length ≤ env.out 0 → d.length ≤ env.out 1 →
        rc = .none ∧ evs = r.sent.map PEv.up ++ whole ctAttrs d) ∧
      (r.err = .none → r.data = none → rc = .none ∧
        evs = r.sent.map PEv.up ++ [.srv (.head 204)]) ∧
      (r.err ≠ .none → env.retryOut = true →
        evs = r.sent.map PEv.up ++ answer r.err c'.delay) := by
  unfold chosen at hp
  obtain ⟨pc0, hg, hpc⟩ := Option.map_eq_some_iff.mp hp
  subst hpc
  by_cases he : r.err = .none
  · have hreq : handleAttrs cfg env seg st = .done (giveAttrs cfg env (r.sent.map PEv.up)
        { setClient st env.thread { chooseSeg cfg seg pc0 with c := { c' with attrs := none } } with
          delay := c'.delay } (r.data.getD [])) := by
      simp [handleAttrs, hg, hr, he, hpop]
    refine ⟨_, _, _, get_attrs hreq hdr, ?_, ?_, fun h => absurd he h⟩
    · intro _ d hd hne h0 h1
      simp [giveAttrs, hh, hd, sendAttrs, hne, writes_whole (head200_ne _ _) hne h0 h1, todo,
        finish, whole]
    · intro _ hd
      simp [giveAttrs, hh, hd, sendAttrs, todo, finish, sendError, Server.sendError,
        Server.errStatus]
  · have hreq : handleAttrs cfg env seg st = .done ⟨relay r.err, r.sent.map PEv.up,
        { setClient st env.thread { chooseSeg cfg seg pc0 with c := { c' with attrs := none } } with
          delay := c'.delay }, [], []⟩ := by
      simp [handleAttrs, hg, hr, he, hpop]
    have hrel := relay_ne r.err he
    refine ⟨_, _, _, get_attrs hreq hdr, fun h => absurd h he, fun h => absurd h he, ?_⟩
    · intro _ ho
      simp only [todo, hrel.1, hrel.2, or_self, if_false, finish, ho]
      rw [sendError_relay r.err he]

/-- C88 for CSR attributes, proof of possession on: if the upstream server has attributes that
are one DER SEQUENCE of at most 1024 bytes, the client gets them with challengePassword added
unless it is among them; if it has none, the client is asked for challengePassword alone; errors
other than "no content" are passed on. -/
theorem C88_attrs_with_pop_partial {cfg : Cfg} {env : Env} {st : State}
    {seg : Option (List Nat)} {pc : PClient} {r : Flow.Ret} {c' : Flow.Client} (odd)
    (hlib : cfg.attrLib = handlerLib odd) (hh : cfg.srv.transport = .http)
    (hpop : cfg.srv.enablePop = true) (hp : chosen cfg env seg st = some pc)
    (hr : Flow.getCsrattrs cfg.lib { cfg.up with seg := pc.seg } (env.conn 0) pc.c =
      some (r, c')) (hdr) :
    ∃ rc evs st', request cfg env (get .csrattrs seg hdr) st = .done (rc, evs, st') ∧
      (∀ d ps, r.err = .none → r.data = some d → 4 ≤ d.length → (Asn1.seq ps).Wf →
        (Asn1.seq ps).Plain → Carries odd d (Asn1.seq ps).der →
        (Asn1.seq ps).der.length ≤ 1024 →
        ∃ d' ps', Carries odd d' (Asn1.seq ps').der ∧
          ps' = (if chpw ∈ oidsOf ps then ps else ps ++ [oid chpw]) ∧
          ((head200 ctAttrs d'.length).length ≤ env.out 0 → d'.length ≤ env.out 1 →
            rc = .none ∧ evs = r.sent.map PEv.up ++ whole ctAttrs d')) ∧
      ((r.err = .none ∧ r.data = none ∨ r.err = .httpNoContent) →
        (head200 ctAttrs 20).length ≤ env.out 0 → 20 ≤ env.out 1 → r.data = none →
        rc = .none ∧ evs = r.sent.map PEv.up ++ whole ctAttrs [77, 65, 115, 71, 67, 83, 113, 71, 83, 73, 98, 51, 68, 81, 69, 74, 66, 119, 61, 61]) ∧
      (r.err ≠ .none → r.err ≠ .httpNoContent → env.retryOut = true →
        evs = r.sent.map PEv.up ++ answer r.err c'.delay) := by
  unfold chosen at hp
  obtain ⟨pc0, hg, hpc⟩ := Option.map_eq_some_iff.mp hp
  subst hpc
  by_cases he : r.err ≠ .none ∧ r.err ≠ .httpNoContent
  · have hreq : handleAttrs cfg env seg st = .done ⟨relay r.err, r.sent.map PEv.up,
        { setClient st env.thread { chooseSeg cfg seg pc0 with c := { c' with attrs := none } } with
          delay := c'.delay }, [], []⟩ := by
      simp [handleAttrs, hg, hr, he.1, he.2]
    have hrel := relay_ne r.err he.1
    refine ⟨_, _, _, get_attrs hreq hdr, fun d ps h => absurd h he.1, ?_, ?_⟩
    · rintro (h | h)
      · exact absurd h.1 he.1
      · exact absurd h he.2
    · intro _ _ ho
      simp only [todo, hrel.1, hrel.2, or_self, if_false, finish, ho]
      rw [sendError_relay r.err he.1]
  · have he' : r.err = .none ∨ r.err = .httpNoContent := by
      by_cases h1 : r.err = .none
      · exact .inl h1
      · exact .inr (Classical.byContradiction fun h2 => he ⟨h1, h2⟩)
    have hcond : ¬ (r.err ≠ .none ∧ ¬ (r.err = .httpNoContent ∧ cfg.srv.enablePop = true)) := by
      rintro ⟨h1, h2⟩
      rcases he' with h | h
      · exact h1 h
      · exact h2 ⟨h, hpop⟩
    have hgive : ∀ (s : State) (d : List Nat), d ≠ [] →
        (head200 ctAttrs d.length).length ≤ env.out 0 → d.length ≤ env.out 1 →
        giveAttrs cfg env (r.sent.map PEv.up) s d =
          ⟨.none, r.sent.map PEv.up ++ whole ctAttrs d, s, [], []⟩ := by
      intro s d hne h0 h1
      simp [giveAttrs, hh, sendAttrs, hne, writes_whole (head200_ne _ _) hne h0 h1, whole]
    have hdone : ∃ o, handleAttrs cfg env seg st = .done o := by
      simp only [handleAttrs, hg, hr]
      rw [if_neg hcond]
      repeat' split
      all_goals exact ⟨_, rfl⟩
    obtain ⟨o, ho⟩ := hdone
    refine ⟨_, _, _, get_attrs ho hdr, ?_, ?_, ?_⟩
    · intro d ps hn hd h4 hw hpl hca hle
      have hdne : d ≠ [] := by intro h; rw [h] at h4; simp at h4
      have hx := Asn1.C87_exact_partial odd d [Asn1.seq ps] ⟨hw, trivial⟩ ⟨hpl, trivial⟩
        (by simp) h4 (by simpa [Asn1.ders] using hca)
      have hoids : oidsOf [Asn1.seq ps] = oidsOf ps := by simp [oidsOf, Tlv.oids]
      have hders : Asn1.ders [Asn1.seq ps] = (Asn1.seq ps).der := by simp [Asn1.ders]
      rw [hoids, hders] at hx
      by_cases hin : chpw ∈ oidsOf ps
      · rw [if_pos (Or.inr ⟨hin, by omega⟩)] at hx
        refine ⟨d, ps, hca, by simp [hin], fun h0 h1 => ?_⟩
        obtain ⟨s, rfl⟩ : ∃ s, o = ⟨.none, r.sent.map PEv.up ++ whole ctAttrs d, s, [], []⟩ := by
          have h2 := ho
          simp only [handleAttrs, hg, hr] at h2
          rw [if_neg hcond] at h2
          simp only [hpop, hd, Option.getD_some, hlib,
            handlerLib, hx, hin, decide_true, if_true, hdne, if_false, ne_eq,
            not_true_eq_false] at h2
          rw [hgive _ d hdne h0 h1] at h2
          exact ⟨_, (Run.done.inj h2).symm⟩
        simp [todo, finish]
      · rw [if_pos (Or.inl ⟨hin, hle⟩)] at hx
        simp only [hin, decide_false] at hx
        obtain ⟨t', ha, hc', h3⟩ := Asn1.C86_accepted_again_partial odd d ps hw hpl h4 hca hx
        have ht' : t' ≠ [] := by
          intro h; subst h
          simp [Asn1.parseAttributes] at h3
        refine ⟨t', ps ++ [oid chpw], hc', by simp [hin], fun h0 h1 => ?_⟩
        obtain ⟨s, rfl⟩ : ∃ s, o = ⟨.none, r.sent.map PEv.up ++ whole ctAttrs t', s, [], []⟩ := by
          have h2 := ho
          simp only [handleAttrs, hg, hr] at h2
          rw [if_neg hcond] at h2
          simp only [hpop, hd, Option.getD_some, hlib,
            handlerLib, hx, ha, if_true, hdne, if_false, ne_eq, not_true_eq_false,
            Bool.false_eq_true] at h2
          rw [hgive _ t' ht' h0 h1] at h2
          exact ⟨_, (Run.done.inj h2).symm⟩
        simp [todo, finish]
    · intro _ h0 h1 hd
      obtain ⟨s, rfl⟩ : ∃ s, o = ⟨.none, r.sent.map PEv.up ++ whole ctAttrs Server.popOnly, s, [], []⟩ := by
        have h2 := ho
        simp only [handleAttrs, hg, hr] at h2
        rw [if_neg hcond] at h2
        simp only [hpop, hd, Option.getD_none, if_true] at h2
        rw [hgive _ Server.popOnly (by simp [Server.popOnly]) h0 h1] at h2
        exact ⟨_, (Run.done.inj h2).symm⟩
      simp [todo, finish, Server.popOnly]
    · intro h1 h2
      exact absurd ⟨h1, h2⟩ he

/-- What an upstream server answers in the examples: a SEQUENCE of one OID (sha256WithRSA). -/
def exOids : List Nat :=
  [72, 84, 84, 80, 47, 49, 46, 49, 32, 50, 48, 48, 32, 79, 75, 13, 10, 67, 111, 110, 116, 101, 110, 116, 45, 84, 121, 112, 101, 58, 32, 97, 112, 112, 108, 105, 99, 97, 116, 105, 111, 110, 47, 99, 115, 114, 97, 116, 116, 114, 115, 13, 10, 67, 111, 110, 116, 101, 110, 116, 45, 76, 101, 110, 103, 116, 104, 58, 32, 50, 48, 13, 10, 13, 10, 77, 65, 115, 71, 67, 83, 113, 71, 83, 73, 98, 51, 68, 81, 69, 66, 67, 119, 61, 61]

/-- A proxy that checks proof of possession. -/
def exPopProxy : Cfg :=
  { exProxy with srv := { exProxy.srv with enablePop := true }, attrLib := handlerLib fun _ b => b }

example : answers (request exProxy (exEnv 1 (Flow.exUp exOids) (.down .connect))
    (get .csrattrs none (exRq none).hdr) (State.init none)) =
    some (whole ctAttrs [77, 65, 115, 71, 67, 83, 113, 71, 83, 73, 98, 51, 68, 81, 69, 66, 67, 119, 61, 61]) := by decide +kernel

example : answers (request exPopProxy (exEnv 1 (Flow.exUp exOids) (.down .connect))
    (get .csrattrs none (exRq none).hdr) (State.init none)) =
    some (whole ctAttrs [77, 66, 89, 71, 67, 83, 113, 71, 83, 73, 98, 51, 68, 81, 69, 66, 67, 119, 89, 74, 75, 111, 90, 73, 104, 118, 99, 78, 65, 81, 107, 72]) := by decide +kernel

example : answers (request exPopProxy (exEnv 1 (Flow.exUp Flow.ex204) (.down .connect))
    (get .csrattrs none (exRq none).hdr) (State.init none)) =
    some (whole ctAttrs [77, 65, 115, 71, 67, 83, 113, 71, 83, 73, 98, 51, 68, 81, 69, 74, 66, 119, 61, 61]) := by decide +kernel

/-- The hypotheses of `C88_coap_segment_false` and `C88_coap_cacerts` can be met: a CoAP proxy
asked for segment "a" and then for "b" asks the upstream server once. -/
example : (match handleCacerts { exProxy with srv := { exProxy.srv with transport := .coap } }
      (exEnv 1 (Flow.exUp exCacerts) (.down .connect)) (some [97]) (State.init none) with
    | .done o => some (ups o.evs).length
    | _ => none) = some 1 ∧
    (match handleCacerts { exProxy with srv := { exProxy.srv with transport := .coap } }
      (exEnv 1 (Flow.exUp exCacerts) (.down .connect)) (some [97]) (State.init none) with
    | .done o => o.st.caCerts
    | _ => none) = some [77, 73, 73, 67] := by decide +kernel

/-- C82 with HTTP authentication required: a request with a malformed Authorization header is
refused if it is an enrolment, but forwarded if it is a re-enrolment over a connection with a
verified certificate; the application is not asked. -/
theorem C82_malformed_header_false :
    let cfg : Cfg := { exProxy with
      srv := { exProxy.srv with authCb := some fun _ => false, requireHttpAuth := true } }
    let rq : Rq := { exRq none with hdr := (.bad, ⟨.none, [], [], []⟩) }
    let env := exEnv 1 (Flow.exUp Flow.exCert) (.down .connect)
    answers (request cfg env (post .enroll rq) (State.init none)) = some [.srv (.head 401)] ∧
    answers (request cfg env (post .reenroll rq) (State.init none)) =
      some [.write (head200 ctCert 4), .write [77, 73, 73, 67]] := by decide +kernel

end Verif.Proxy
