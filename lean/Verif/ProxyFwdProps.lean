import Verif.ProxyProps

/-!
# Properties of what the EST proxy sends upstream, and of its responses: C41, C82, C83, C84, C85
-/
namespace Verif.Proxy
open Verif.Server (Ev Cred HdrRes Csr Tls CertVerified SrpLogin PopHeld)
open Verif.Flow (Conn Kind Sent Lib Asked)
open Verif.ClientResp (Mode decimal retryText errorText)

/-! ## Lemmas: all operations -/

/-- What an operation sent: the text was made for the segment now in the context, and all is of
this operation. -/
def UpOk (cfg : Cfg) (op : EstUri.Op) (body : Option (List Nat)) (seg : Option (List Nat)) (s : Sent) :
    Prop :=
  s.op = op ∧
  match body with
  | some t => ClientReq.enrollRequest { cfg.up with seg := seg } op s.auth t = .sent s.bytes
  | none => ∃ a, ClientReq.sendGet (ClientReq.buildGet { cfg.up with seg := seg } op a) =
      .sent s.bytes

theorem AFacts.ups {cfg : Cfg} {k : Kind} {pc : PClient} {text : List Nat} {conn : Nat → Conn}
    {x : Xch} (h : AFacts cfg k pc text conn (.done x)) :
    (∀ s ∈ x.sent, UpOk cfg k.uri (some text) pc.seg s) ∧ x.pc.seg = pc.seg := by
  cases h with
  | one _ h1 _ =>
    have f := exchange_facts _ _ _ _ _ _ h1
    refine ⟨?_, f.seg⟩
    intro s hs
    rcases f.sent with q | ⟨u, b, -, q, hb⟩
    · simp [q] at hs
    · simp only [q, List.mem_singleton] at hs
      subst hs
      exact ⟨rfl, hb⟩
  | two x y h1 _ h2 =>
    have f := exchange_facts _ _ _ _ _ _ h1
    have f2 := exchange_facts _ _ _ _ _ _ h2
    refine ⟨?_, f2.seg.trans f.seg⟩
    intro s hs
    simp only [List.mem_append] at hs
    rcases hs with hs | hs
    · rcases f.sent with q | ⟨u, b, -, q, hb⟩
      · simp [q] at hs
      · simp only [q, List.mem_singleton] at hs
        subst hs
        exact ⟨rfl, hb⟩
    · rcases f2.sent with q | ⟨u, b, -, q, hb⟩
      · simp [q] at hs
      · simp only [q, List.mem_singleton] at hs
        subst hs
        rw [f.seg] at hb
        exact ⟨rfl, hb⟩

theorem fetch_sent {lib : Lib} {cfg : ClientReq.Cfg} {uri : EstUri.Op} {op : ClientResp.Op}
    {c : Flow.Client} {u : Flow.Up} {e : EstErr} {body : Option (List Nat)} {c' : Flow.Client}
    {sent : List Sent} (h : Flow.fetch lib cfg uri op c u = some (e, body, c', sent)) :
    ∀ s ∈ sent, s.op = uri ∧ ∃ a, ClientReq.sendGet (ClientReq.buildGet cfg uri a) = .sent s.bytes := by
  unfold Flow.fetch at h
  split at h
  · contradiction
  · simp only [Option.some.injEq, Prod.mk.injEq] at h
    obtain ⟨-, -, -, rfl⟩ := h
    simp
  · next b hb =>
    intro s hs
    have : sent = [⟨uri, if uri = .csrattrs then Flow.authOf u c.mode else .none, none, b, c.trust⟩] := by
      simp only at h
      split at h <;> simp only [Option.some.injEq, Prod.mk.injEq] at h <;> exact h.2.2.2.symm
    rw [this, List.mem_singleton] at hs
    subst hs
    exact ⟨rfl, _, hb⟩

theorem getCacerts_sent {lib : Lib} {cfg : ClientReq.Cfg} {n : Conn} {c c' : Flow.Client}
    {r : Flow.Ret} (h : Flow.getCacerts lib cfg n c = some (r, c')) :
    ∀ s ∈ r.sent, s.op = .cacerts ∧
      ∃ a, ClientReq.sendGet (ClientReq.buildGet cfg .cacerts a) = .sent s.bytes := by
  unfold Flow.getCacerts at h
  split at h
  · simp only [Flow.refuse, Option.some.injEq, Prod.mk.injEq] at h
    rw [← h.1]; simp
  · split at h
    · simp only [Flow.refuse, Option.some.injEq, Prod.mk.injEq] at h
      rw [← h.1]; simp
    · split at h
      · contradiction
      · next e body c1 sent hf =>
        have hs := fetch_sent hf
        split at h <;> simp only [Option.some.injEq, Prod.mk.injEq] at h <;> rw [← h.1] <;> exact hs

theorem getCsrattrs_sent {lib : Lib} {cfg : ClientReq.Cfg} {n : Conn} {c c' : Flow.Client}
    {r : Flow.Ret} (h : Flow.getCsrattrs lib cfg n c = some (r, c')) :
    ∀ s ∈ r.sent, s.op = .csrattrs ∧
      ∃ a, ClientReq.sendGet (ClientReq.buildGet cfg .csrattrs a) = .sent s.bytes := by
  unfold Flow.getCsrattrs at h
  split at h
  · simp only [Flow.refuse, Option.some.injEq, Prod.mk.injEq] at h
    rw [← h.1]; simp
  · split at h
    · contradiction
    · next e body c1 sent hf =>
      have hs := fetch_sent hf
      split at h
      · simp only [Option.some.injEq, Prod.mk.injEq] at h
        rw [← h.1]; exact hs
      · split at h
        · simp only [Option.some.injEq, Prod.mk.injEq] at h
          rw [← h.1]; exact hs
        · simp only at h
          split at h <;> simp only [Option.some.injEq, Prod.mk.injEq] at h <;> rw [← h.1] <;> exact hs

/-- The operations that the proxy forwards, with the body they have upstream. -/
def Kind? : EstUri.Op → Option Kind
  | .simpleEnroll => some .enroll
  | .simpleReenroll => some .reenroll
  | .serverKeygen => some .keygen
  | _ => none

/-- A request of any kind: what went upstream, and what happened to the path segments in the
client contexts. -/
structure ReqFacts (cfg : Cfg) (env : Env) (rq : HttpReq) (st : State) (evs : List PEv)
    (st' : State) : Prop where
  ups : ∀ s, .up s ∈ evs → ∃ op seg pc0, rq.uri = .ok op seg ∧ getClient cfg env st = some pc0 ∧
    ((op = .cacerts ∨ op = .csrattrs) ∧ rq.method = [71, 69, 84] ∧
        UpOk cfg op none (chooseSeg cfg seg pc0).seg s ∨
     ∃ k ct body a csr, op = k.uri ∧ rq.method = [80, 79, 83, 84] ∧ rq.ct = some ct ∧
        rq.body = some body ∧ Admitted cfg env k ⟨ct, body, seg, rq.hdr⟩ a csr ∧
        (∀ e ∈ a.evs, PEv.srv e ∈ evs) ∧
        UpOk cfg op (some body) (chooseSeg cfg seg pc0).seg s)
  others : ∀ t, t ≠ env.thread → st'.clients t = st.clients t
  own : st'.clients env.thread = st.clients env.thread ∨
    ∃ op seg pc0 pc', rq.uri = .ok op seg ∧ getClient cfg env st = some pc0 ∧
      st'.clients env.thread = some pc' ∧ pc'.seg = (chooseSeg cfg seg pc0).seg

theorem mem_ups {evs : List PEv} {s : Sent} : s ∈ ups evs ↔ PEv.up s ∈ evs := by
  unfold ups
  rw [List.mem_filterMap]
  constructor
  · rintro ⟨e, he, h⟩
    cases e <;> simp at h
    subst h; exact he
  · intro h
    exact ⟨_, h, rfl⟩

/-- What a handler has to guarantee. -/
structure OutFacts (cfg : Cfg) (env : Env) (seg : Option (List Nat)) (st : State)
    (P : PClient → Sent → Prop) (o : Out) : Prop where
  ups : ∀ s, .up s ∈ o.evs → ∃ pc0, getClient cfg env st = some pc0 ∧ P pc0 s
  others : ∀ t, t ≠ env.thread → o.st.clients t = st.clients t
  own : o.st.clients env.thread = st.clients env.thread ∨
    ∃ pc0 pc', getClient cfg env st = some pc0 ∧
      o.st.clients env.thread = some pc' ∧ pc'.seg = (chooseSeg cfg seg pc0).seg

theorem setClient_same (st : State) (t : Nat) (pc : PClient) :
    (setClient st t pc).clients t = some pc := by simp [setClient]

theorem not_up_writes {out : Nat → Nat} {i : Nat} {l : List (List Nat)} {s : Sent} :
    PEv.up s ∉ (writes out i l).1 := by
  rw [← mem_ups, ups_writes]; simp

theorem not_up_sendError {r : Bool} {d : Nat} {e : EstErr} {s : Sent} :
    PEv.up s ∉ sendError r d e := by
  rw [← mem_ups, ups_sendError]; simp

theorem cacerts_facts {cfg : Cfg} {env : Env} {seg : Option (List Nat)} {st : State} {o : Out}
    (h : handleCacerts cfg env seg st = .done o) :
    OutFacts cfg env seg st
      (fun pc0 s => UpOk cfg .cacerts none (chooseSeg cfg seg pc0).seg s) o := by
  unfold handleCacerts at h
  split at h
  · split at h
    · simp only [Run.done.injEq] at h
      subst h
      exact ⟨fun s hs => absurd hs not_up_writes, fun _ _ => rfl, .inl rfl⟩
    · simp only [Run.done.injEq] at h
      subst h
      exact ⟨fun s hs => by simp at hs, fun _ _ => rfl, .inl rfl⟩
  · split at h
    · simp only [Run.done.injEq] at h
      subst h
      exact ⟨fun s hs => by simp at hs, fun _ _ => rfl, .inl rfl⟩
    · next pc0 hg =>
      simp only at h
      split at h
      · contradiction
      · next r c' hr =>
        have hs := getCacerts_sent hr
        have up : ∀ s, PEv.up s ∈ r.sent.map PEv.up → ∃ pc0, getClient cfg env st = some pc0 ∧
            UpOk cfg .cacerts none (chooseSeg cfg seg pc0).seg s := by
          intro s h
          simp only [List.mem_map, PEv.up.injEq] at h
          obtain ⟨s', h', rfl⟩ := h
          exact ⟨pc0, hg, hs _ h'⟩
        have oth : ∀ (pc : PClient) t, t ≠ env.thread →
            (setClient st env.thread pc).clients t = st.clients t := by
          intro pc t ht
          simp [setClient, ht]
        split at h
        · simp only [Run.done.injEq] at h
          subst h
          exact ⟨up, oth _, .inr ⟨pc0, _, hg, setClient_same _ _ _, rfl⟩⟩
        · split at h
          · simp only [Run.done.injEq] at h
            subst h
            refine ⟨up, ?_, .inr ⟨pc0, _, hg, setClient_same _ _ _, rfl⟩⟩
            intro t ht
            simp [setClient, ht]
          · split at h
            · simp only [Run.done.injEq] at h
              subst h
              exact ⟨up, oth _, .inr ⟨pc0, _, hg, setClient_same _ _ _, rfl⟩⟩
            · simp only [Run.done.injEq] at h
              subst h
              refine ⟨?_, oth _, .inr ⟨pc0, _, hg, setClient_same _ _ _, rfl⟩⟩
              intro s h
              simp only [List.mem_append] at h
              rcases h with h | h
              · exact up s h
              · exact absurd h not_up_writes

theorem giveAttrs_facts {cfg : Cfg} {env : Env} {evs : List PEv} {st : State} {d : List Nat} :
    (giveAttrs cfg env evs st d).st = st ∧
    ∀ s, .up s ∈ (giveAttrs cfg env evs st d).evs → PEv.up s ∈ evs := by
  unfold giveAttrs
  split
  · refine ⟨rfl, ?_⟩
    intro s h
    simp only [List.mem_append] at h
    rcases h with h | h
    · exact h
    · unfold sendAttrs at h
      split at h
      · exact absurd h not_up_sendError
      · exact absurd h not_up_writes
  · exact ⟨rfl, fun _ h => h⟩

theorem noAttrs_facts {cfg : Cfg} {env : Env} {evs : List PEv} {st : State} :
    (noAttrs cfg env evs st).st = st ∧
    ∀ s, .up s ∈ (noAttrs cfg env evs st).evs → PEv.up s ∈ evs := by
  unfold noAttrs
  split
  · refine ⟨rfl, ?_⟩
    intro s h
    simp only [List.mem_append] at h
    rcases h with h | h
    · exact h
    · exact absurd h not_up_sendError
  · exact ⟨rfl, fun _ h => h⟩

theorem attrs_facts {cfg : Cfg} {env : Env} {seg : Option (List Nat)} {st : State} {o : Out}
    (h : handleAttrs cfg env seg st = .done o) :
    OutFacts cfg env seg st
      (fun pc0 s => UpOk cfg .csrattrs none (chooseSeg cfg seg pc0).seg s) o := by
  unfold handleAttrs at h
  split at h
  · simp only [Run.done.injEq] at h
    subst h
    exact ⟨fun s hs => by simp at hs, fun _ _ => rfl, .inl rfl⟩
  · next pc0 hg =>
    simp only at h
    split at h
    · contradiction
    · next r c' hr =>
      have hs := getCsrattrs_sent hr
      have up : ∀ s, PEv.up s ∈ r.sent.map PEv.up → ∃ pc0, getClient cfg env st = some pc0 ∧
          UpOk cfg .csrattrs none (chooseSeg cfg seg pc0).seg s := by
        intro s h
        simp only [List.mem_map, PEv.up.injEq] at h
        obtain ⟨s', h', rfl⟩ := h
        exact ⟨pc0, hg, hs _ h'⟩
      have key : ∀ o : Out, o.st = { setClient st env.thread
            { chooseSeg cfg seg pc0 with c := { c' with attrs := none } } with delay := c'.delay } →
          (∀ s, PEv.up s ∈ o.evs → PEv.up s ∈ r.sent.map PEv.up) →
          OutFacts cfg env seg st
            (fun pc0 s => UpOk cfg .csrattrs none (chooseSeg cfg seg pc0).seg s) o := by
        intro o h1 h2
        refine ⟨fun s h => up s (h2 s h), ?_, .inr ⟨pc0, { chooseSeg cfg seg pc0 with c := { c' with attrs := none } },
          hg, by rw [h1]; exact setClient_same _ _ _, rfl⟩⟩
        intro t ht
        rw [h1]
        simp [setClient, ht]
      split at h
      · simp only [Run.done.injEq] at h
        subst h
        exact key _ rfl (fun _ h => h)
      · split at h
        · split at h
          · simp only [Run.done.injEq] at h
            subst h
            exact key _ giveAttrs_facts.1 giveAttrs_facts.2
          · split at h
            · simp only [Run.done.injEq] at h
              subst h
              exact key _ noAttrs_facts.1 noAttrs_facts.2
            · split at h
              · simp only [Run.done.injEq] at h
                subst h
                exact key _ giveAttrs_facts.1 giveAttrs_facts.2
              · split at h
                · simp only [Run.done.injEq] at h
                  subst h
                  exact key _ noAttrs_facts.1 noAttrs_facts.2
                · simp only [Run.done.injEq] at h
                  subst h
                  exact key _ giveAttrs_facts.1 giveAttrs_facts.2
        · simp only [Run.done.injEq] at h
          subst h
          exact key _ giveAttrs_facts.1 giveAttrs_facts.2

theorem enroll_facts {cfg : Cfg} {env : Env} {k : Kind} {rq : Rq} {st : State} {o : Out}
    (hn : 2 ≤ env.fuel) (h : handleEnroll cfg env k rq st = .done o) :
    OutFacts cfg env rq.seg st
      (fun pc0 s => ∃ a csr, Admitted cfg env k rq a csr ∧ (∀ e ∈ a.evs, PEv.srv e ∈ o.evs) ∧
        UpOk cfg k.uri (some rq.body) (chooseSeg cfg rq.seg pc0).seg s) o := by
  rcases handleEnroll_cases cfg env k rq st with q | ⟨o', q, hr⟩ | ⟨a, csr, hA, q⟩
  · rw [q] at h; cases h
  · rw [q] at h
    simp only [Run.done.injEq] at h
    subst h
    refine ⟨?_, fun t _ => by rw [hr.2.1], .inl (by rw [hr.2.1])⟩
    intro s hs
    rw [← mem_ups, ups_refused hr] at hs
    simp at hs
  · rw [q] at h
    cases hg : getClient cfg env st with
    | none =>
      unfold forward at h
      rw [hg] at h
      simp only [Run.done.injEq] at h
      subst h
      exact ⟨fun s hs => by simp at hs, fun _ _ => rfl, .inl rfl⟩
    | some pc0 =>
      rw [forward_eq hg] at h
      have af := attempts_facts cfg k (chooseSeg cfg rq.seg pc0) rq.body env.conn env.fuel hn
      split at h
      · cases h
      · cases h
      · next x hx =>
        rw [hx] at af
        simp only [Run.done.injEq] at h
        subst h
        obtain ⟨hs, hseg⟩ := af.ups
        have hst : (deliver cfg env k (a.evs.map PEv.srv ++ x.sent.map PEv.up) (after st env x) x).st =
            after st env x := by
          unfold deliver
          split
          · split <;> rfl
          · rfl
        refine ⟨?_, ?_, ?_⟩
        · intro s h
          refine ⟨pc0, hg, a, csr, hA, ?_, ?_⟩
          · intro e he
            unfold deliver
            split
            · split <;> simp [he]
            · simp [he]
          · rw [← mem_ups, ups_deliver, ups_append, ups_srv, ups_up, List.nil_append] at h
            exact hs s h
        · intro t ht
          rw [hst]
          simp [after, setClient, ht]
        · refine .inr ⟨pc0, { x.pc with c := { x.pc.c with mode := .none } }, hg, ?_, hseg⟩
          rw [hst]
          exact setClient_same _ _ _

theorem request_facts {cfg : Cfg} {env : Env} {rq : HttpReq} {st : State} {rc : EstErr}
    {evs : List PEv} {st' : State} (hn : 2 ≤ env.fuel)
    (h : request cfg env rq st = .done (rc, evs, st')) : ReqFacts cfg env rq st evs st' := by
  unfold request at h
  split at h
  · contradiction
  · contradiction
  · next t ht =>
    simp only [Run.done.injEq, Prod.mk.injEq] at h
    obtain ⟨-, rfl, rfl⟩ := h
    have hup : ∀ s, PEv.up s ∈ t.evs ++ finish env t t.st → PEv.up s ∈ t.evs := by
      intro s hs
      simp only [List.mem_append] at hs
      rcases hs with hs | hs
      · exact hs
      · rw [← mem_ups, ups_finish] at hs
        simp at hs
    have none_ : t.evs = [] → t.st = st → ReqFacts cfg env rq st (t.evs ++ finish env t t.st) t.st := by
      intro h1 h2
      refine ⟨?_, fun _ _ => by rw [h2], .inl (by rw [h2])⟩
      intro s hs
      have := hup s hs
      rw [h1] at this
      simp at this
    unfold dispatch at ht
    split at ht
    · contradiction
    · simp only [Run.done.injEq] at ht; subst ht; exact none_ rfl rfl
    · simp only [Run.done.injEq] at ht; subst ht; exact none_ rfl rfl
    · next op seg hu =>
      have get : ∀ (o : Out) (op' : EstUri.Op), rq.uri = .ok op' seg → (op' = .cacerts ∨ op' = .csrattrs) →
          rq.method = [71, 69, 84] → t = todo o →
          OutFacts cfg env seg st (fun pc0 s => UpOk cfg op' none (chooseSeg cfg seg pc0).seg s) o →
          ReqFacts cfg env rq st (t.evs ++ finish env t t.st) t.st := by
        intro o op' hu ho hm e f
        have te := todo_evs o
        rw [← e] at te
        refine ⟨?_, by rw [te.2]; exact f.others, ?_⟩
        · intro s hs
          have := hup s hs
          rw [te.1] at this
          obtain ⟨pc0, g1, g2⟩ := f.ups s this
          exact ⟨op', seg, pc0, hu, g1, .inl ⟨ho, hm, g2⟩⟩
        · rw [te.2]
          rcases f.own with q | ⟨pc0, pc', q1, q2, q3⟩
          · exact .inl q
          · exact .inr ⟨op', seg, pc0, pc', hu, q1, q2, q3⟩
      have pst : ∀ (k : Kind) (ct body : List Nat) (o : Out), rq.uri = .ok k.uri seg →
          rq.method = [80, 79, 83, 84] → rq.ct = some ct → rq.body = some body → t = todo o →
          handleEnroll cfg env k ⟨ct, body, seg, rq.hdr⟩ st = .done o →
          ReqFacts cfg env rq st (t.evs ++ finish env t t.st) t.st := by
        intro k ct body o hu hm hct hb e hh
        have f := enroll_facts hn hh
        have te := todo_evs o
        rw [← e] at te
        refine ⟨?_, by rw [te.2]; exact f.others, ?_⟩
        · intro s hs
          have := hup s hs
          rw [te.1] at this
          obtain ⟨pc0, g1, a, csr, g2, g3, g4⟩ := f.ups s this
          refine ⟨k.uri, seg, pc0, hu, g1, .inr ⟨k, ct, body, a, csr, rfl, hm, hct, hb, g2, ?_, g4⟩⟩
          intro e he
          rw [te.1]
          exact List.mem_append_left _ (g3 e he)
        · rw [te.2]
          rcases f.own with q | ⟨pc0, pc', q1, q2, q3⟩
          · exact .inl q
          · exact .inr ⟨k.uri, seg, pc0, pc', hu, q1, q2, q3⟩
      have pst2 : ∀ (k : Kind) (r : Run Todo), rq.uri = .ok k.uri seg → r = .done t →
          r = (if rq.method ≠ [80, 79, 83, 84] then .done ⟨.wrongMethod, some .wrongMethod, [], st⟩
            else match rq.ct, rq.body with
            | none, _ => .done ⟨.badContentType, some .badPkcs10, [], st⟩
            | some _, none => .done ⟨.badContentLen, some .badPkcs10, [], st⟩
            | some ct, some body =>
              runTodo (handleEnroll cfg env k ⟨ct, body, seg, rq.hdr⟩ st)) →
          ReqFacts cfg env rq st (t.evs ++ finish env t t.st) t.st := by
        intro k r hu hr hd
        rw [hr] at hd
        split at hd
        · simp only [Run.done.injEq] at hd; rw [hd] at none_ ⊢; exact none_ rfl rfl
        · next hm =>
          simp only [ne_eq, Decidable.not_not] at hm
          split at hd
          · simp only [Run.done.injEq] at hd; rw [hd] at none_ ⊢; exact none_ rfl rfl
          · simp only [Run.done.injEq] at hd; rw [hd] at none_ ⊢; exact none_ rfl rfl
          · next ct body hct hb =>
            cases hh : handleEnroll cfg env k ⟨ct, body, seg, rq.hdr⟩ st with
            | ub => rw [hh] at hd; simp [runTodo] at hd
            | endless => rw [hh] at hd; simp [runTodo] at hd
            | done o =>
              rw [hh] at hd
              simp only [runTodo, Run.done.injEq] at hd
              exact pst k ct body o hu hm hct hb hd hh
      cases op with
      | cacerts =>
        simp only at ht
        split at ht
        · simp only [Run.done.injEq] at ht; subst ht; exact none_ rfl rfl
        · next hm =>
          simp only [ne_eq, Decidable.not_not] at hm
          cases hh : handleCacerts cfg env seg st with
          | ub => rw [hh] at ht; simp [runTodo] at ht
          | endless => rw [hh] at ht; simp [runTodo] at ht
          | done o =>
            rw [hh] at ht
            simp only [runTodo, Run.done.injEq] at ht
            exact get o _ hu (.inl rfl) hm ht.symm (cacerts_facts hh)
      | csrattrs =>
        simp only at ht
        split at ht
        · simp only [Run.done.injEq] at ht; subst ht; exact none_ rfl rfl
        · next hm =>
          simp only [ne_eq, Decidable.not_not] at hm
          cases hh : handleAttrs cfg env seg st with
          | ub => rw [hh] at ht; simp [runTodo] at ht
          | endless => rw [hh] at ht; simp [runTodo] at ht
          | done o =>
            rw [hh] at ht
            simp only [runTodo, Run.done.injEq] at ht
            exact get o _ hu (.inr rfl) hm ht.symm (attrs_facts hh)
      | simpleEnroll => exact pst2 .enroll _ hu ht rfl
      | simpleReenroll => exact pst2 .reenroll _ hu ht rfl
      | serverKeygen => exact pst2 .keygen _ hu ht rfl
      | reqVoucher => simp only [Run.done.injEq] at ht; subst ht; exact none_ rfl rfl
      | voucherStatus => simp only [Run.done.injEq] at ht; subst ht; exact none_ rfl rfl
      | enrollStatus => simp only [Run.done.injEq] at ht; subst ht; exact none_ rfl rfl

/-! ## What the bytes begin with -/

theorem take_put {b b' : List (Option Nat)} {n m : Nat} {t : List Nat}
    (h : ClientReq.put b n t = some b') (hm : m ≤ n) : b'.take m = b.take m := by
  unfold ClientReq.put at h
  split at h
  · simp only [Option.some.injEq] at h
    subst h
    rw [List.take_append_of_le_length (by simp; omega), List.take_take, Nat.min_eq_left hm]
  · contradiction

theorem take_snprintf {b b' : List (Option Nat)} {n m : Nat} {z : Int} {t : List Nat}
    (h : ClientReq.snprintf b n z t = some b') (hm : m ≤ n) : b'.take m = b.take m := by
  unfold ClientReq.snprintf at h
  split at h
  · simp only [Option.some.injEq] at h; rw [h]
  · split at h <;> exact take_put h hm

theorem take_copyData {b b' : List (Option Nat)} {n m : Nat} {t : List Nat}
    (h : ClientReq.copyData b n t = some b') (hm : m ≤ n) : b'.take m = b.take m := by
  unfold ClientReq.copyData at h
  split at h
  · simp only [Option.some.injEq] at h; rw [h]
  · exact take_put h hm

/-- Whatever is sent begins with the header text that was built. -/
theorem sendPost_head {h data : List Nat} {bytes : List (Option Nat)}
    (hs : ClientReq.sendPost h data = .sent bytes) : h ≠ [] ∧ h.map some <+: bytes := by
  unfold ClientReq.sendPost at hs
  split at hs
  · contradiction
  · next hne =>
    refine ⟨hne, ?_⟩
    split at hs
    · contradiction
    · next b1 h1 =>
      split at hs
      · contradiction
      · next b2 h2 =>
        split at hs
        · contradiction
        · next b3 h3 =>
          unfold ClientReq.sslWrite at hs
          split at hs
          · simp only [ClientReq.Wire.sent.injEq] at hs
            subst hs
            have e : b3.take h.length = h.map some := by
              rw [take_snprintf h3 (by omega), take_copyData h2 (by omega), take_snprintf h1 (by omega)]
              unfold ClientReq.freshBuf
              rw [List.take_append_of_le_length (by rw [List.length_map]; exact Nat.le_refl _)]
              exact List.take_of_length_le (by rw [List.length_map]; exact Nat.le_refl _)
            rw [← e]
            exact List.take_prefix_take_left (by omega)
          · contradiction

/-- The request line. -/
def requestLine (method : List Nat) (seg : Option (List Nat)) (name : List Nat) : List Nat :=
  method ++ ([32, 47, 46, 119, 101, 108, 108, 45, 107, 110, 111, 119, 110, 47, 101, 115, 116] ++ ((match seg with | some s => 47 :: s | none => []) ++
    (47 :: name ++ [32, 72, 84, 84, 80, 47, 49, 46, 49, 13, 10])))

/-- The name and the method of an operation in EST. -/
def nameOf : EstUri.Op → List Nat
  | .cacerts => [99, 97, 99, 101, 114, 116, 115]
  | .simpleEnroll => [115, 105, 109, 112, 108, 101, 101, 110, 114, 111, 108, 108]
  | .simpleReenroll => [115, 105, 109, 112, 108, 101, 114, 101, 101, 110, 114, 111, 108, 108]
  | .csrattrs => [99, 115, 114, 97, 116, 116, 114, 115]
  | .serverKeygen => [115, 101, 114, 118, 101, 114, 107, 101, 121, 103, 101, 110]
  | .reqVoucher => [114, 101, 113, 117, 101, 115, 116, 118, 111, 117, 99, 104, 101, 114]
  | .voucherStatus => [118, 111, 117, 99, 104, 101, 114, 95, 115, 116, 97, 116, 117, 115]
  | .enrollStatus => [101, 110, 114, 111, 108, 108, 115, 116, 97, 116, 117, 115]

theorem prefix_addAuth {h p : List Nat} {a : ClientReq.Auth} (hne : ClientReq.addAuth h a ≠ [])
    (hp : p <+: h) : p <+: ClientReq.addAuth h a := by
  cases a with
  | none => exact hp
  | value v => exact hp.trans (List.prefix_append _ _)
  | failed => exact absurd rfl hne

theorem line_le (m : List Nat) (seg : Option (List Nat)) (op : EstUri.Op) (hm : m.length ≤ 4)
    (hs : ∀ t, seg = some t → t.length ≤ 128) : (requestLine m seg (nameOf op)).length ≤ 5124 := by
  have hn : (nameOf op).length ≤ 20 := by cases op <;> decide
  cases seg with
  | none => simp [requestLine]; omega
  | some t => have := hs t rfl; simp [requestLine]; omega

theorem post_line {cfg : ClientReq.Cfg} {op : EstUri.Op} {a : ClientReq.Auth} {t : List Nat}
    {bytes : List (Option Nat)} (h : ClientReq.enrollRequest cfg op a t = .sent bytes)
    (hs : ∀ t, cfg.seg = some t → t.length ≤ 128) :
    (requestLine [80, 79, 83, 84] cfg.seg (nameOf op)).map some <+: bytes := by
  obtain ⟨hne, hp⟩ := sendPost_head h
  have hl := line_le [80, 79, 83, 84] cfg.seg op (by decide) hs
  have h1 : requestLine [80, 79, 83, 84] cfg.seg (nameOf op) <+: ClientReq.postText cfg op t.length := by
    refine ⟨ClientReq.common cfg ++ ([67, 111, 110, 116, 101, 110, 116, 45, 84, 121, 112, 101, 58, 32, 97, 112, 112, 108, 105, 99, 97, 116, 105, 111, 110, 47, 112, 107, 99, 115, 49, 48, 13, 10, 67, 111, 110, 116, 101, 110, 116, 45, 76, 101, 110, 103, 116, 104, 58, 32] ++
      (decimal t.length ++ [13, 10])), ?_⟩
    unfold requestLine ClientReq.postText ClientReq.path
    cases op <;> cases cfg.seg <;> simp [nameOf, ClientReq.uriName]
  have h2 : requestLine [80, 79, 83, 84] cfg.seg (nameOf op) <+:
      (ClientReq.postText cfg op t.length).take (ClientReq.totalLen - 1) := by
    rw [List.prefix_take_iff]
    exact ⟨h1, by unfold ClientReq.totalLen; omega⟩
  refine List.IsPrefix.trans (List.IsPrefix.map some ?_) hp
  unfold ClientReq.buildPost at hne ⊢
  simp only at hne ⊢
  split at hne
  · exact absurd rfl hne
  · next hc => rw [if_neg hc]; exact prefix_addAuth hne h2

theorem get_line {cfg : ClientReq.Cfg} {op : EstUri.Op} {a : ClientReq.Auth}
    {bytes : List (Option Nat)} (h : ClientReq.sendGet (ClientReq.buildGet cfg op a) = .sent bytes)
    (hs : ∀ t, cfg.seg = some t → t.length ≤ 128) :
    (requestLine [71, 69, 84] cfg.seg (nameOf op)).map some <+: bytes := by
  obtain ⟨hne, hp⟩ := sendPost_head h
  have hl := line_le [71, 69, 84] cfg.seg op (by decide) hs
  have h1 : requestLine [71, 69, 84] cfg.seg (nameOf op) <+: ClientReq.getText cfg op := by
    refine ⟨ClientReq.common cfg, ?_⟩
    unfold requestLine ClientReq.getText ClientReq.path
    cases op <;> cases cfg.seg <;> simp [nameOf, ClientReq.uriName]
  have h2 : requestLine [71, 69, 84] cfg.seg (nameOf op) <+:
      (ClientReq.getText cfg op).take (ClientReq.totalLen - 1) := by
    rw [List.prefix_take_iff]
    exact ⟨h1, by unfold ClientReq.totalLen; omega⟩
  refine List.IsPrefix.trans (List.IsPrefix.map some ?_) hp
  unfold ClientReq.buildGet at hne ⊢
  simp only at hne ⊢
  by_cases ho : op = .csrattrs
  · simp only [if_pos ho] at hne ⊢
    split at hne
    · exact absurd rfl hne
    · next hc => rw [if_neg hc]; exact prefix_addAuth hne h2
  · simp only [if_neg ho] at hne ⊢
    split at hne
    · exact absurd rfl hne
    · next hc => rw [if_neg hc]; exact h2

/-! ## C41 -/

/-- The segments stored in the client contexts are not too long. -/
def SegsShort (st : State) : Prop :=
  ∀ t pc s, st.clients t = some pc → pc.seg = some s → s.length ≤ 128

/-- The segment in the context of this thread. -/
def stored (st : State) (t : Nat) : Option (List Nat) := (st.clients t).bind (·.seg)

theorem getClient_seg {cfg : Cfg} {env : Env} {st : State} {pc0 : PClient}
    (h : getClient cfg env st = some pc0) : pc0.seg = stored st env.thread := by
  unfold getClient at h
  unfold stored
  split at h
  · next pc hc =>
    simp only [Option.some.injEq] at h
    subst h
    simp [hc]
  · next hc =>
    split at h
    · simp only [Option.some.injEq] at h
      subst h
      simp [hc]
    · contradiction

theorem chooseSeg_seg (cfg : Cfg) (seg : Option (List Nat)) (pc : PClient) :
    (chooseSeg cfg seg pc).seg = ((seg.or cfg.seg).map (·.take 128)).or pc.seg := by
  unfold chooseSeg
  cases seg.or cfg.seg <;> rfl

theorem stored_after {cfg : Cfg} {env : Env} {rq : HttpReq} {st st' : State} {rc : EstErr}
    {evs : List PEv} (hn : 2 ≤ env.fuel) (h : request cfg env rq st = .done (rc, evs, st')) (t : Nat) :
    stored st' t = stored st t ∨ t = env.thread ∧ ∃ op seg, rq.uri = .ok op seg ∧
      stored st' t = ((seg.or cfg.seg).map (·.take 128)).or (stored st t) := by
  have f := request_facts hn h
  by_cases ht : t = env.thread
  · subst ht
    rcases f.own with q | ⟨op, seg, pc0, pc', q1, q2, q3, q4⟩
    · left; unfold stored; rw [q]
    · right
      refine ⟨rfl, op, seg, q1, ?_⟩
      rw [← getClient_seg q2, ← chooseSeg_seg, ← q4]
      unfold stored
      rw [q3]; rfl
  · left
    unfold stored
    rw [f.others t ht]

/-- C41, one request: everything the proxy sends upstream for a request with the segment `seg`
(or none) goes to the path with exactly this segment, or else the segment of the proxy's
configuration.  Partial: it has to be assumed that there is one, or that the client context of
this thread never had one (see `C41_stale_segment_false`). -/
theorem C41_segment_partial {cfg : Cfg} {env : Env} {rq : HttpReq} {st st' : State} {rc : EstErr}
    {evs : List PEv} (hn : 2 ≤ env.fuel) (h : request cfg env rq st = .done (rc, evs, st'))
    {op : EstUri.Op} {seg : Option (List Nat)} (hu : rq.uri = .ok op seg)
    (hs : ∀ t, seg.or cfg.seg = some t → t.length ≤ 128)
    (hst : seg.or cfg.seg ≠ none ∨ stored st env.thread = none) (s : Sent) (hup : .up s ∈ evs) :
    (requestLine (if op = .cacerts ∨ op = .csrattrs then [71, 69, 84] else [80, 79, 83, 84]) (seg.or cfg.seg)
      (nameOf op)).map some <+: s.bytes := by
  have f := request_facts hn h
  obtain ⟨op', seg', pc0, hu', hg, hh⟩ := f.ups s hup
  rw [hu] at hu'
  simp only [EstUri.Res.ok.injEq] at hu'
  obtain ⟨rfl, rfl⟩ := hu'
  have hseg : (chooseSeg cfg seg pc0).seg = seg.or cfg.seg := by
    rw [chooseSeg_seg, getClient_seg hg]
    cases hc : seg.or cfg.seg with
    | none =>
      rw [hc] at hst
      rcases hst with q | q
      · exact absurd rfl q
      · rw [q]; rfl
    | some t =>
      have := hs t hc
      simp [List.take_of_length_le this]
  rw [hseg] at hh
  rcases hh with ⟨ho, -, h1, a, h2⟩ | ⟨k, ct, body, a, csr, rfl, -, -, -, -, -, h1, h2⟩
  · rw [if_pos ho]
    have := get_line h2 hs
    exact this
  · rw [if_neg (by cases k <;> decide)]
    exact post_line h2 hs

/-- C41 over any sequence of requests: a proxy with a segment of its own never sends another
one than that of the request at hand or its own; and a proxy without, as long as no request has
one, sends none. -/
theorem C41_history_partial {cfg : Cfg} (ca : Option (List Nat)) (reqs : List (Env × HttpReq))
    (hf : ∀ x ∈ reqs, 2 ≤ x.1.fuel)
    (hc : cfg.seg ≠ none ∨ ∀ x ∈ reqs, ∀ op seg, x.2.uri = .ok op seg → seg = none)
    (hs : ∀ x ∈ reqs, ∀ op seg t, x.2.uri = .ok op seg → seg.or cfg.seg = some t → t.length ≤ 128)
    (rs : List (EstErr × List PEv)) (st' : State)
    (h : requests cfg (State.init ca) reqs = .done (rs, st')) :
    rs.length = reqs.length ∧
    ∀ (i : Nat) (x : Env × HttpReq) (r : EstErr × List PEv), reqs[i]? = some x → rs[i]? = some r →
      ∀ s, .up s ∈ r.2 → ∃ op seg, x.2.uri = .ok op seg ∧
        (requestLine (if op = .cacerts ∨ op = .csrattrs then [71, 69, 84] else [80, 79, 83, 84]) (seg.or cfg.seg)
          (nameOf op)).map some <+: s.bytes := by
  have main : ∀ (reqs : List (Env × HttpReq)) (st : State) (rs : List (EstErr × List PEv)),
      (∀ x ∈ reqs, 2 ≤ x.1.fuel) →
      (cfg.seg ≠ none ∨ ((∀ t, stored st t = none) ∧
        ∀ x ∈ reqs, ∀ op seg, x.2.uri = .ok op seg → seg = none)) →
      (∀ x ∈ reqs, ∀ op seg t, x.2.uri = .ok op seg → seg.or cfg.seg = some t → t.length ≤ 128) →
      requests cfg st reqs = .done (rs, st') →
      rs.length = reqs.length ∧
      ∀ (i : Nat) (x : Env × HttpReq) (r : EstErr × List PEv), reqs[i]? = some x → rs[i]? = some r →
        ∀ s, .up s ∈ r.2 → ∃ op seg, x.2.uri = .ok op seg ∧
          (requestLine (if op = .cacerts ∨ op = .csrattrs then [71, 69, 84] else [80, 79, 83, 84]) (seg.or cfg.seg)
            (nameOf op)).map some <+: s.bytes := by
    intro reqs
    induction reqs with
    | nil =>
      intro st rs _ _ _ h
      simp only [requests, Run.done.injEq, Prod.mk.injEq] at h
      rw [← h.1]
      simp
    | cons x0 reqs ih =>
      obtain ⟨env, rq⟩ := x0
      intro st rs hf hc hs h
      unfold requests at h
      split at h
      · contradiction
      · contradiction
      · next rc evs st1 h1 =>
        split at h
        · contradiction
        · contradiction
        · next rs' st'' h2 =>
          simp only [Run.done.injEq, Prod.mk.injEq] at h
          obtain ⟨rfl, rfl⟩ := h
          have hf0 : 2 ≤ env.fuel := hf (env, rq) (by simp)
          have hi := ih st1 rs' (fun x hx => hf x (by simp [hx])) (by
            rcases hc with q | ⟨q1, q2⟩
            · exact .inl q
            · by_cases hcs : cfg.seg = none
              · right
                refine ⟨?_, fun x hx => q2 x (by simp [hx])⟩
                intro t
                rcases stored_after hf0 h1 t with w | ⟨-, op, seg, w1, w2⟩
                · rw [w]; exact q1 t
                · rw [w2, q2 (env, rq) (by simp) op seg w1, hcs, q1 t]
                  rfl
              · exact .inl hcs)
            (fun x hx => hs x (by simp [hx])) h2
          refine ⟨by simp [hi.1], ?_⟩
          intro i x r hx hr s hup
          cases i with
          | zero =>
            simp only [List.getElem?_cons_zero, Option.some.injEq] at hx hr
            subst hx hr
            have f := request_facts hf0 h1
            obtain ⟨op, seg, pc0, hu, -, -⟩ := f.ups s hup
            refine ⟨op, seg, hu, ?_⟩
            refine C41_segment_partial hf0 h1 hu (fun t ht => hs (env, rq) (by simp) op seg t hu ht) ?_ s hup
            rcases hc with q | ⟨q1, q2⟩
            · left
              cases seg with
              | none => exact q
              | some t => simp
            · exact .inr (q1 _)
          | succ i =>
            simp only [List.getElem?_cons_succ] at hx hr
            exact hi.2 i x r hx hr s hup
  refine main reqs (State.init ca) rs hf ?_ hs h
  rcases hc with q | q
  · exact .inl q
  · exact .inr ⟨fun t => rfl, q⟩

/-- A read-out for the examples: the beginning of the requests sent for each request. -/
def lines (n : Nat) (r : Run (List (EstErr × List PEv) × State)) : Option (List (List (List (Option Nat)))) :=
  match r with
  | .done (rs, _) => some (rs.map fun p => (ups p.2).map fun s => s.bytes.take n)
  | _ => none

/-- The hypotheses can be met: a proxy with its own segment. -/
example : lines 47 (requests { exProxy with seg := some [114, 97] } (State.init none)
    [(exEnv 1 (Flow.exUp Flow.exCert) (.down .connect), post .enroll (exRq (some [100, 101, 118, 105, 99, 101, 115]))),
     (exEnv 1 (Flow.exUp Flow.exCert) (.down .connect), post .enroll (exRq none))]) =
    some [[([80, 79, 83, 84, 32, 47, 46, 119, 101, 108, 108, 45, 107, 110, 111, 119, 110, 47, 101, 115, 116, 47, 100, 101, 118, 105, 99, 101, 115, 47, 115, 105, 109, 112, 108, 101, 101, 110, 114, 111, 108, 108, 32, 72, 84, 84, 80]).map some],
      [([80, 79, 83, 84, 32, 47, 46, 119, 101, 108, 108, 45, 107, 110, 111, 119, 110, 47, 101, 115, 116, 47, 114, 97, 47, 115, 105, 109, 112, 108, 101, 101, 110, 114, 111, 108, 108, 32, 72, 84, 84, 80, 47, 49, 46, 49, 13]).map some]] := by decide +kernel

/-- C41 is false of the code: of two requests handled by the same thread the first names the
segment "devices", the second names none, and the proxy has none; the second goes to the
upstream server with the segment of the first, that is to another CA. -/
theorem C41_stale_segment_false :
    lines 47 (requests exProxy (State.init none)
      [(exEnv 1 (Flow.exUp Flow.exCert) (.down .connect), post .enroll (exRq (some [100, 101, 118, 105, 99, 101, 115]))),
       (exEnv 1 (Flow.exUp Flow.exCert) (.down .connect), post .enroll (exRq none)),
       (exEnv 2 (Flow.exUp Flow.exCert) (.down .connect), post .enroll (exRq none))]) =
      some [[([80, 79, 83, 84, 32, 47, 46, 119, 101, 108, 108, 45, 107, 110, 111, 119, 110, 47, 101, 115, 116, 47, 100, 101, 118, 105, 99, 101, 115, 47, 115, 105, 109, 112, 108, 101, 101, 110, 114, 111, 108, 108, 32, 72, 84, 84, 80]).map some],
        [([80, 79, 83, 84, 32, 47, 46, 119, 101, 108, 108, 45, 107, 110, 111, 119, 110, 47, 101, 115, 116, 47, 100, 101, 118, 105, 99, 101, 115, 47, 115, 105, 109, 112, 108, 101, 101, 110, 114, 111, 108, 108, 32, 72, 84, 84, 80]).map some],
        [([80, 79, 83, 84, 32, 47, 46, 119, 101, 108, 108, 45, 107, 110, 111, 119, 110, 47, 101, 115, 116, 47, 115, 105, 109, 112, 108, 101, 101, 110, 114, 111, 108, 108, 32, 72, 84, 84, 80, 47, 49, 46, 49, 13, 10, 85, 115]).map some]] := by decide +kernel

/-! ## C82 -/

/-- C82: whatever the configuration, the connection and the request: if the proxy sends a
request for a certificate upstream, then the client asked for this operation with POST, with
content type application/pkcs10, it is authenticated, the CSR was parsed, carries a public key
and its signature verified, and proof of possession held. -/
theorem C82_only_checked {cfg : Cfg} {env : Env} {rq : HttpReq} {st st' : State} {rc : EstErr}
    {evs : List PEv} (hn : 2 ≤ env.fuel) (h : request cfg env rq st = .done (rc, evs, st')) (s : Sent)
    (hup : .up s ∈ evs) (hop : s.op ≠ .cacerts ∧ s.op ≠ .csrattrs) :
    ∃ seg body csr, rq.uri = .ok s.op seg ∧ rq.method = [80, 79, 83, 84] ∧ rq.body = some body ∧
      (cfg.srv.transport = .http → rq.ct = some [97, 112, 112, 108, 105, 99, 97, 116, 105, 111, 110, 47, 112, 107, 99, 115, 49, 48]) ∧
      (CertVerified env.tls ∨ SrpLogin env.tls ∨
        ∃ cb c, cfg.srv.authCb = some cb ∧ cb c = true ∧ .srv (.askApp c) ∈ evs) ∧
      cfg.parse body = some csr ∧ csr.hasPubkey = true ∧ 0 < csr.verifyRc ∧
      PopHeld cfg.srv env.tls csr := by
  obtain ⟨op, seg, pc0, hu, hg, hh⟩ := (request_facts hn h).ups s hup
  rcases hh with ⟨ho, -, h1, -⟩ | ⟨k, ct, body, a, csr, rfl, hm, hct, hb, hA, hev, h1, h2⟩
  · rw [h1] at hop
    rcases ho with ho | ho
    · exact absurd ho hop.1
    · exact absurd ho hop.2
  · have hck := hA.checked
    unfold Server.checkCsr at hck
    refine ⟨seg, body, csr, by rw [hu, h1], hm, hb, ?_, ?_, hA.parsed, ?_, ?_,
      Server.popHeld_of_ok hA.pop⟩
    · intro ht
      rw [hct]
      exact congrArg some (hA.ct ht)
    · rcases Server.C19_authorised_only_with_evidence hA.auth hA.ok with q | q | ⟨cb, c, q1, q2, q3⟩
      · exact .inl q
      · exact .inr (.inl q)
      · exact .inr (.inr ⟨cb, c, q1, q3, hev _ q2⟩)
    · simp only [Bool.and_eq_true] at hck
      exact hck.1
    · simp only [Bool.and_eq_true, decide_eq_true_eq] at hck
      exact hck.2

theorem sendPost_len {h data : List Nat} {bytes : List (Option Nat)}
    (hs : ClientReq.sendPost h data = .sent bytes) : bytes.length = h.length + data.length + 4 := by
  unfold ClientReq.sendPost at hs
  repeat' split at hs
  all_goals first | contradiction | skip
  unfold ClientReq.sslWrite at hs
  split at hs
  · simp only [ClientReq.Wire.sent.injEq] at hs
    subst hs
    rw [List.length_take]
    omega
  · contradiction

theorem addAuth_length (h : List Nat) (a : ClientReq.Auth) (hh : h.length ≤ 5124) :
    (ClientReq.addAuth h a).length ≤ 5124 := by
  cases a with
  | none => exact hh
  | value v => simp [ClientReq.addAuth, ClientReq.totalLen]; omega
  | failed => exact Nat.zero_le _

theorem buildPost_length (cfg : ClientReq.Cfg) (op : EstUri.Op) (n : Nat) (a : ClientReq.Auth) :
    (ClientReq.buildPost cfg op n a).length ≤ 5124 := by
  unfold ClientReq.buildPost
  simp only
  split
  · exact Nat.zero_le _
  · exact addAuth_length _ _ (by rw [List.length_take]; unfold ClientReq.totalLen; omega)

/-- C82: the bytes sent upstream are a header of the proxy, an empty line, and the body of the
client's request as it came.  Partial: for bodies of at most 4096 bytes, and not if request
buffer of 5125 bytes is completely filled (see C84). -/
theorem C82_body_unchanged_partial {cfg : Cfg} {env : Env} {rq : HttpReq} {st st' : State} {rc : EstErr}
    {evs : List PEv} (hn : 2 ≤ env.fuel) (h : request cfg env rq st = .done (rc, evs, st')) (s : Sent)
    (hup : .up s ∈ evs) (hop : s.op ≠ .cacerts ∧ s.op ≠ .csrattrs) (body : List Nat)
    (hb : rq.body = some body) (hl : body.length ≤ 4096) (hf : s.bytes.length < 5125) :
    ∃ head, head ≠ [] ∧ s.bytes = (head ++ ([13, 10] ++ (body ++ [13, 10]))).map some := by
  obtain ⟨op, seg, pc0, hu, hg, hh⟩ := (request_facts hn h).ups s hup
  rcases hh with ⟨ho, -, h1, -⟩ | ⟨k, ct, body', a, csr, rfl, hm, hct, hb', hA, hev, h1, h2⟩
  · rw [h1] at hop
    rcases ho with ho | ho
    · exact absurd ho hop.1
    · exact absurd ho hop.2
  · rw [hb] at hb'
    simp only [Option.some.injEq] at hb'
    subst hb'
    replace h2 : ClientReq.sendPost _ _ = _ := h2
    obtain ⟨hne, -⟩ := sendPost_head h2
    have hlen := sendPost_len h2
    rw [ClientReq.C61_sent_intact_partial _ _ hne hl (by omega)] at h2
    simp only [ClientReq.Wire.sent.injEq] at h2
    exact ⟨_, hne, h2.symm⟩

/-- The theorems of C82 speak about something: a request that is forwarded. -/
example : ((shown (request exProxy (exEnv 1 (Flow.exUp Flow.exCert) (.down .connect))
    (post .enroll (exRq none)) (State.init none))).map fun p =>
      (ups p.2).map fun s => (s.op, decide (s.bytes.length < 5125),
        s.bytes.drop (s.bytes.length - 8))) =
    some [(.simpleEnroll, true, ([13, 10, 77, 73, 73, 66, 13, 10]).map some)] := by decide +kernel

/-! ## C84 -/

/-- C84 is false of the code (1): a request for a certificate whose body is larger than 5121
bytes (the server part of the proxy accepts up to 8192) makes the proxy write or read behind its
buffer, if the CSR passes the checks and the upstream server can be reached. -/
theorem C84_overrun_false {cfg : Cfg} {env : Env} {k : Kind} {rq : Rq} {a : Server.AuthOut}
    {csr : Csr} {st : State} {pc0 : PClient} (hA : Admitted cfg env k rq a csr)
    (hn : 2 ≤ env.fuel) (hg : getClient cfg env st = some pc0) (hk : k ≠ .reenroll)
    {u : Flow.Up} (hc : env.conn 0 = .up u)
    (ha : Flow.authOf u (chooseSeg cfg rq.seg pc0).c.mode ≠ .failed)
    (hl : 5121 < rq.body.length) :
    request cfg env (post k rq) st = .ub := by
  have hne : ClientReq.buildPost { cfg.up with seg := (chooseSeg cfg rq.seg pc0).seg } k.uri
      rq.body.length (Flow.authOf u (chooseSeg cfg rq.seg pc0).c.mode) ≠ [] := by
    unfold ClientReq.buildPost
    simp only
    rw [if_neg (by rintro ⟨q, -⟩; cases k <;> first | exact absurd rfl hk | exact absurd q (by decide))]
    have : (ClientReq.postText { cfg.up with seg := (chooseSeg cfg rq.seg pc0).seg } k.uri
        rq.body.length).take (ClientReq.totalLen - 1) ≠ [] := by
      unfold ClientReq.postText
      simp [ClientReq.totalLen]
    generalize Flow.authOf u (chooseSeg cfg rq.seg pc0).c.mode = au at ha
    cases au with
    | none => exact this
    | value v => unfold ClientReq.addAuth; intro q; exact this (List.append_eq_nil_iff.1 q).1
    | failed => exact absurd rfl ha
  have hx : exchange cfg k (chooseSeg cfg rq.seg pc0) rq.body [] [] (env.conn 0) = none := by
    unfold exchange
    rw [hc]
    simp only
    unfold ClientReq.enrollRequest
    rw [ClientReq.C61_overrun_false _ _ hne (buildPost_length _ _ _ _) (by
      have := List.length_pos_iff.2 hne
      omega)]
  obtain ⟨n, hn⟩ := Nat.exists_eq_add_of_le' hn
  unfold request
  rw [dispatch_post, handleEnroll_admitted hA, forward_eq hg, hn]
  unfold attempts
  rw [hx]
  rfl

/-- A request with a long body. -/
def exLong (n : Nat) : Rq := { exRq none with body := List.replicate n 65 }

theorem exLong_admitted (n t : Nat) (c0 c1 : Conn) (k : Kind) :
    Admitted exProxy (exEnv t c0 c1) k (exLong n) exAuth Server.demoCsr := by
  have h := exAdmitted t c0 c1 k none
  exact ⟨h.ct, by cases k <;> rfl, h.ok, rfl, h.checked, h.pop⟩

example : request exProxy (exEnv 1 (Flow.exUp Flow.exCert) (.down .connect))
    (post .enroll (exLong 6000)) (State.init none) = .ub :=
  C84_overrun_false (exLong_admitted 6000 1 _ _ .enroll) (Nat.le_refl 2) rfl (by decide) rfl
    (by show ClientReq.Auth.none ≠ .failed; simp)
    (by show 5121 < (List.replicate 6000 65).length; rw [List.length_replicate]; decide)

/-- C84 is false of the code (2): whenever a request for a certificate with a body of more than
4096 bytes is forwarded (and the buffer was not completely filled), the CSR is not in it; bytes
of the proxy's heap that were never written are sent to the upstream server in its place. -/
theorem C84_uninitialised_false {cfg : Cfg} {env : Env} {rq : HttpReq} {st st' : State} {rc : EstErr}
    {evs : List PEv} (hn : 2 ≤ env.fuel) (h : request cfg env rq st = .done (rc, evs, st')) (s : Sent)
    (hup : .up s ∈ evs) (hop : s.op ≠ .cacerts ∧ s.op ≠ .csrattrs) (body : List Nat)
    (hb : rq.body = some body) (hl : 4096 < body.length) (hf : s.bytes.length < 5125) :
    none ∈ s.bytes := by
  obtain ⟨op, seg, pc0, hu, hg, hh⟩ := (request_facts hn h).ups s hup
  rcases hh with ⟨ho, -, h1, -⟩ | ⟨k, ct, body', a, csr, rfl, hm, hct, hb', hA, hev, h1, h2⟩
  · rw [h1] at hop
    rcases ho with ho | ho
    · exact absurd ho hop.1
    · exact absurd ho hop.2
  · rw [hb] at hb'
    simp only [Option.some.injEq] at hb'
    subst hb'
    replace h2 : ClientReq.sendPost _ _ = _ := h2
    obtain ⟨hne, -⟩ := sendPost_head h2
    have hlen := sendPost_len h2
    obtain ⟨bs, q1, -, q2⟩ := ClientReq.C61_uninitialised_sent_false _ _ hne hl (by omega)
    rw [q1] at h2
    simp only [ClientReq.Wire.sent.injEq] at h2
    rw [← h2]
    exact List.mem_of_getElem? q2

/-- Such a request is indeed forwarded. -/
theorem C84_example_false : ∃ rc evs st' s,
    request exProxy (exEnv 1 (Flow.exUp Flow.exCert) (.down .connect)) (post .enroll (exLong 4100))
      (State.init none) = .done (rc, evs, st') ∧ .up s ∈ evs ∧ none ∈ s.bytes := by
  have key : (match request exProxy (exEnv 1 (Flow.exUp Flow.exCert) (.down .connect))
      (post .enroll (exLong 4100)) (State.init none) with
      | .done (_, evs, _) => (ups evs).any fun s => decide (none ∈ s.bytes)
      | _ => false) = true := by decide +kernel
  split at key
  · next rc evs st' h =>
    simp only [List.any_eq_true, decide_eq_true_eq] at key
    obtain ⟨s, h1, h2⟩ := key
    exact ⟨rc, evs, st', s, h, mem_ups.1 h1, h2⟩
  · contradiction

/-- C84, the part that holds: a body of at most 4096 bytes with a header of at most 1024 is sent
without touching memory outside the buffer. -/
theorem C84_no_overrun_partial (cfg : ClientReq.Cfg) (op : EstUri.Op) (a : ClientReq.Auth)
    (body : List Nat) (hl : body.length ≤ 4096)
    (hh : (ClientReq.buildPost cfg op body.length a).length ≤ 1024) :
    ClientReq.enrollRequest cfg op a body ≠ .ub := by
  unfold ClientReq.enrollRequest
  by_cases hne : ClientReq.buildPost cfg op body.length a = []
  · unfold ClientReq.sendPost
    rw [if_pos hne]
    simp
  · rw [ClientReq.C61_sent_intact_partial _ _ hne hl (by omega)]
    simp

/-! ## C83 -/

/-- The bytes written. -/
def written (evs : List PEv) : List Nat :=
  (evs.filterMap fun e => match e with | .write b => some b | _ => none).flatten

/-- A text is a response with this body and declares its length. -/
def Framed (text body : List Nat) : Prop :=
  ∃ status hs, text = ClientResp.response status hs body ∧
    (⟨[67, 111, 110, 116, 101, 110, 116, 45, 76, 101, 110, 103, 116, 104], decimal body.length⟩, 1) ∈ hs

theorem framed_head200 (ct body : List Nat) : Framed (head200 ct body.length ++ body) body := by
  refine ⟨[72, 84, 84, 80, 47, 49, 46, 49, 32, 50, 48, 48, 32, 79, 75], [(⟨[83, 116, 97, 116, 117, 115], [50, 48, 48, 32, 79, 75]⟩, 1), (⟨[67, 111, 110, 116, 101, 110, 116, 45, 84, 121, 112, 101], ct⟩, 1),
    (⟨[67, 111, 110, 116, 101, 110, 116, 45, 84, 114, 97, 110, 115, 102, 101, 114, 45, 69, 110, 99, 111, 100, 105, 110, 103], [98, 97, 115, 101, 54, 52]⟩, 1),
    (⟨[67, 111, 110, 116, 101, 110, 116, 45, 76, 101, 110, 103, 116, 104], decimal body.length⟩, 1)], ?_, by simp⟩
  simp [head200, ClientResp.response, HttpHdr.lines, HttpHdr.line]

theorem writes_all (out : Nat → Nat) (i : Nat) (l : List (List Nat)) (h : (writes out i l).2 = true)
    (ho : ∀ j, ∀ b ∈ l, b.length ≤ out j) : written (writes out i l).1 = l.flatten := by
  induction l generalizing i with
  | nil => rfl
  | cons b l ih =>
    unfold writes at h ⊢
    simp only at h ⊢
    split at h
    · simp at h
    · next hne =>
      rw [if_neg hne]
      have := ih (i + 1) h (fun j b hb => ho j b (by simp [hb]))
      rw [List.take_of_length_le (ho i b (by simp))]
      unfold written at this ⊢
      simp only [List.filterMap_cons, List.flatten_cons, this]

/-- C83: the responses with a certificate, CA certificates and attributes that the proxy (and
the server, with the same header) sends declare exactly the number of bytes that follow, if the
writes go through.  Partial: see `C83_proxy_keygen_false`. -/
theorem C83_length_exact_partial (out : Nat → Nat) (body : List Nat) (retryOut : Bool) (delay : Nat)
    (ho : ∀ j, body.length + (decimal body.length).length + 256 ≤ out j) :
    ((propagateCert out body).2 = .none → Framed (written (propagateCert out body).1) body) ∧
    ((sendCacerts out body).2 = .none → Framed (written (sendCacerts out body).1) body) ∧
    (body ≠ [] → (sendAttrs out retryOut delay body).2 = .none →
      Framed (written (sendAttrs out retryOut delay body).1) body) := by
  have key : ∀ ct : List Nat, ct.length ≤ 64 →
      (writes out 0 [head200 ct body.length, body]).2 = true →
      Framed (written (writes out 0 [head200 ct body.length, body]).1) body := by
    intro ct hct h
    rw [writes_all out 0 _ h]
    · have := framed_head200 ct body
      simpa using this
    · intro j b hb
      have := ho j
      simp only [List.mem_cons, List.not_mem_nil, or_false] at hb
      rcases hb with rfl | rfl
      · simp [head200]; omega
      · omega
  refine ⟨?_, ?_, ?_⟩
  · intro h
    unfold propagateCert at h ⊢
    simp only at h ⊢
    refine key ctCert (by decide) ?_
    split at h
    · assumption
    · simp at h
  · intro h
    unfold sendCacerts at h ⊢
    simp only at h ⊢
    refine key ctCacerts (by decide) ?_
    split at h
    · assumption
    · simp at h
  · intro hne h
    unfold sendAttrs at h ⊢
    rw [if_neg hne] at h ⊢
    simp only at h ⊢
    refine key ctAttrs (by decide) ?_
    split at h
    · assumption
    · simp at h

example : (propagateCert (fun _ => 400) [77, 73, 73, 67]).2 = .none ∧
    (sendAttrs (fun _ => 400) true 0 [77, 65, 115, 71]).2 = .none ∧
    ∀ j : Nat, ([77, 73, 73, 67]).length + (decimal ([77, 73, 73, 67]).length).length + 256 ≤ (fun _ => 400) j := by
  refine ⟨by decide +kernel, by decide +kernel, fun _ => ?_⟩
  show ([77, 73, 73, 67]).length + (decimal ([77, 73, 73, 67]).length).length + 256 ≤ 400
  decide +kernel

/-- C83: the server's response with a generated key, and the error responses. -/
theorem C83_server_texts_partial (key cert : List Nat) (st : Nat) (text : List Nat) (keep : Bool) :
    Framed (Multipart.serverText key cert)
      (Multipart.bodyText Multipart.serverBoundary key cert) ∧
    ∃ body, Framed (errorText st text keep) body ∧ (st = 204 → body = []) := by
  constructor
  · refine ⟨[72, 84, 84, 80, 47, 49, 46, 49, 32, 50, 48, 48, 32, 79, 75], [(⟨[83, 116, 97, 116, 117, 115], [50, 48, 48, 32, 79, 75]⟩, 1),
      (⟨[67, 111, 110, 116, 101, 110, 116, 45, 84, 121, 112, 101], [109, 117, 108, 116, 105, 112, 97, 114, 116, 47, 109, 105, 120, 101, 100, 59, 32, 98, 111, 117, 110, 100, 97, 114, 121, 61, 101, 115, 116, 45, 115, 101, 114, 118, 101, 114, 45, 98, 111, 117, 110, 100, 97, 114, 121]⟩, 1),
      (⟨[67, 111, 110, 116, 101, 110, 116, 45, 76, 101, 110, 103, 116, 104], decimal (Multipart.bodyText Multipart.serverBoundary key cert).length⟩, 1)],
      ?_, by simp⟩
    simp [Multipart.serverText, Multipart.headText, Multipart.serverBoundary, ClientResp.response,
      HttpHdr.lines, HttpHdr.line]
  · refine ⟨ClientResp.errorBody st text, ⟨ClientResp.statusLine st,
      [(⟨[67, 111, 110, 116, 101, 110, 116, 45, 76, 101, 110, 103, 116, 104], decimal (ClientResp.errorBody st text).length⟩, 1),
       (⟨[67, 111, 110, 110, 101, 99, 116, 105, 111, 110], if keep then [107, 101, 101, 112, 45, 97, 108, 105, 118, 101] else [99, 108, 111, 115, 101]⟩, 1)], ?_, by simp⟩, ?_⟩
    · simp [errorText, ClientResp.statusLine, ClientResp.response, HttpHdr.lines, HttpHdr.line]
    · intro h
      simp [ClientResp.errorBody, h]

set_option maxRecDepth 4000 in
/-- C83 is false of the code: the response with a generated key that the proxy writes declares
only the lengths of key and certificate, although the headers and separators of the two parts
belong to the body too.  A client that reads the declared number of bytes loses the end of the
certificate; what is left over stands in the connection. -/
theorem C83_proxy_keygen_false (key cert : List Nat) :
    ∃ body, (keygenWrites key cert).flatten = ClientResp.response [72, 84, 84, 80, 47, 49, 46, 49, 32, 50, 48, 48]
        [(⟨[83, 116, 97, 116, 117, 115], [50, 48, 48, 32, 79, 75]⟩, 1),
         (⟨[67, 111, 110, 116, 101, 110, 116, 45, 84, 121, 112, 101], [109, 117, 108, 116, 105, 112, 97, 114, 116, 47, 109, 105, 120, 101, 100, 59, 32, 98, 111, 117, 110, 100, 97, 114, 121, 61, 101, 115, 116, 45, 115, 101, 114, 118, 101, 114, 45, 98, 111, 117, 110, 100, 97, 114, 121]⟩, 1),
         (⟨[67, 111, 110, 116, 101, 110, 116, 45, 76, 101, 110, 103, 116, 104], decimal (key.length + cert.length)⟩, 1)] body ∧
      body.length = key.length + cert.length + 246 := by
  refine ⟨keyPart ++ (key ++ ([13, 10, 45, 45, 101, 115, 116, 45, 115, 101, 114, 118, 101, 114, 45, 98, 111, 117, 110, 100, 97, 114, 121, 13, 10] ++
    ([67, 111, 110, 116, 101, 110, 116, 45, 84, 121, 112, 101, 58, 32, 97, 112, 112, 108, 105, 99, 97, 116, 105, 111, 110, 47, 112, 107, 99, 115, 55, 45, 109, 105, 109, 101, 59, 32, 115, 109, 105, 109, 101, 45, 116, 121, 112, 101, 61, 99, 101, 114, 116, 115, 45, 111, 110, 108, 121, 13, 10, 67, 111, 110, 116, 101, 110, 116, 45, 84, 114, 97, 110, 115, 102, 101, 114, 45, 69, 110, 99, 111, 100, 105, 110, 103, 58, 32, 98, 97, 115, 101, 54, 52, 13, 10, 13, 10] ++
    (cert ++ [13, 10, 45, 45, 101, 115, 116, 45, 115, 101, 114, 118, 101, 114, 45, 98, 111, 117, 110, 100, 97, 114, 121, 45, 45, 13, 10, 13, 10])))), ?_, ?_⟩
  · simp only [keygenWrites, keygenHead, ClientResp.response, HttpHdr.lines, HttpHdr.line,
      List.flatten_cons, List.flatten_nil, List.append_assoc, List.append_nil, List.cons_append,
      List.nil_append, List.replicate]
  · simp [keyPart]; omega

/-! ## C85 -/

theorem sendError_retry {r : Bool} {dl : Nat} {e : EstErr} {d : Nat}
    (h : PEv.retryAfter d ∈ sendError r dl e) : e = .caEnrollRetry ∧ d = dl := by
  unfold sendError at h
  simp only [List.mem_append, List.mem_map] at h
  rcases h with ⟨x, -, q⟩ | h
  · cases q
  · split at h
    · next hc =>
      simp only [List.mem_singleton, PEv.retryAfter.injEq] at h
      exact ⟨hc.1, h⟩
    · simp at h

theorem exchange_retry {cfg : Cfg} {k : Kind} {pc : PClient} {text : List Nat} {conn : Conn}
    {x : Xch} (h : exchange cfg k pc text [] [] conn = some x) (he : x.err = .caEnrollRetry) :
    ∃ u raw m crt ky, conn = .up u ∧ u.reply = .bytes raw ∧
      Flow.answer cfg.lib pc.c k raw = some (.caEnrollRetry, m, x.pc.c.delay, crt, ky) := by
  unfold exchange at h
  split at h
  · next e =>
    simp only [Option.some.injEq] at h
    subst h
    cases e <;> cases he
  · next u =>
    split at h
    · contradiction
    · simp only [Option.some.injEq] at h
      subst h
      cases he
    · next b hb =>
      simp only at h
      split at h
      · simp only [Option.some.injEq] at h; subst h; cases he
      · simp only [Option.some.injEq] at h; subst h; cases he
      · simp only [Option.some.injEq] at h; subst h; cases he
      · next raw hr =>
        split at h
        · contradiction
        · next e m d crt ky ha =>
          split at h
          · simp only [Option.some.injEq] at h
            subst h
            unfold accept Flow.checkSizes at he
            simp only at he
            repeat' split at he
            all_goals cases he
          · simp only [Option.some.injEq] at h
            subst h
            subst he
            exact ⟨u, raw, m, crt, ky, rfl, hr, ha⟩

theorem relay_retry {e : EstErr} (h : relay e = .caEnrollRetry) : e = .caEnrollRetry := by
  cases e <;> first | rfl | cases h

/-- C85, for a request that is not interleaved with others: the delay the client is told is the
one the upstream server gave in answer to this very request. -/
theorem C85_own_delay_partial {cfg : Cfg} {env : Env} {k : Kind} {rq : Rq} {st : State}
    (hn : 2 ≤ env.fuel) {rc : EstErr} {evs : List PEv} {st' : State}
    (h : request cfg env (post k rq) st = .done (rc, evs, st')) (d : Nat)
    (hd : .retryAfter d ∈ evs) :
    ∃ n u raw c m crt ky, n < 2 ∧ env.conn n = .up u ∧ u.reply = .bytes raw ∧
      Flow.answer cfg.lib c k raw = some (.caEnrollRetry, m, d, crt, ky) := by
  rcases handleEnroll_cases cfg env k rq st with q | ⟨o, q, hr⟩ | ⟨a, csr, hA, q⟩
  · unfold request at h
    rw [dispatch_post, q] at h
    cases h
  · unfold request at h
    rw [dispatch_post, q] at h
    simp only [runTodo, Run.done.injEq, Prod.mk.injEq] at h
    rw [← h.2.1, (todo_evs o).1, List.mem_append] at hd
    rcases hd with hd | hd
    · rcases hr.2.2 _ hd with ⟨c, e⟩ | e <;> cases e
    · exfalso
      unfold finish todo at hd
      split at hd
      · simp at hd
      · next e he =>
        have := sendError_retry hd
        split at he
        · cases he
        · simp only [Option.some.injEq] at he
          exact hr.1.2 (he.trans this.1)
  · cases hg : getClient cfg env st with
    | none =>
      exfalso
      unfold request at h
      rw [dispatch_post, q] at h
      unfold forward at h
      rw [hg] at h
      simp only [runTodo, todo, finish, reduceCtorEq, or_self, if_false, Run.done.injEq,
        Prod.mk.injEq] at h
      rw [← h.2.1, List.mem_append] at hd
      rcases hd with hd | hd
      · simp at hd
      · cases (sendError_retry hd).1
    | some pc0 =>
      have af := attempts_facts cfg k (chooseSeg cfg rq.seg pc0) rq.body env.conn env.fuel hn
      unfold request at h
      rw [dispatch_post, q, forward_eq hg] at h
      cases hx : attempts cfg k rq.body env.conn env.fuel 0 (chooseSeg cfg rq.seg pc0) [] [] with
      | ub => rw [hx] at h; cases h
      | endless => rw [hx] at h; cases h
      | done x =>
        rw [hx] at h af
        simp only [runTodo, Run.done.injEq, Prod.mk.injEq] at h
        rw [← h.2.1, List.mem_append, (todo_evs _).1] at hd
        have main : x.err = .caEnrollRetry ∧ d = x.pc.c.delay := by
          rcases hd with hd | hd
          · exfalso
            have nw : ∀ (o : Nat → Nat) (i : Nat) (l : List (List Nat)), PEv.retryAfter d ∉ (writes o i l).1 := by
              intro o i l
              induction l generalizing i with
              | nil => simp [writes]
              | cons b l ih =>
                unfold writes
                simp only
                split
                · simp
                · simpa using ih (i + 1)
            unfold deliver at hd
            split at hd
            · split at hd
              · simp only [List.mem_append] at hd
                rcases hd with hd | hd
                · simp at hd
                · split at hd <;> exact nw _ _ _ hd
              · simp at hd
            · simp at hd
          · have hst : (todo (deliver cfg env k (a.evs.map PEv.srv ++ x.sent.map PEv.up)
                (after st env x) x)).st.delay = x.pc.c.delay := by
              rw [(todo_evs _).2]
              unfold deliver
              split
              · split <;> rfl
              · rfl
            unfold finish at hd
            rw [hst] at hd
            split at hd
            · simp at hd
            · next e he =>
              obtain ⟨h1, h2⟩ := sendError_retry hd
              refine ⟨?_, h2⟩
              subst h1
              unfold todo at he
              split at he
              · cases he
              · simp only [Option.some.injEq] at he
                unfold deliver at he
                split at he
                · split at he
                  · simp only at he
                    split at he <;> simp only [propagateKeygen, propagateCert] at he <;>
                      split at he <;> cases he
                  · exact relay_retry he
                · exact relay_retry he
        obtain ⟨h1, rfl⟩ := main
        cases af with
        | one _ e1 _ =>
          obtain ⟨u, raw, m, crt, ky, g1, g2, g3⟩ := exchange_retry e1 h1
          exact ⟨0, u, raw, _, m, crt, ky, by omega, g1, g2, g3⟩
        | two x y _ _ e1 =>
          obtain ⟨u, raw, m, crt, ky, g1, g2, g3⟩ := exchange_retry e1 h1
          exact ⟨1, u, raw, _, m, crt, ky, by omega, g1, g2, g3⟩

/-- Two requests on two threads: the first is answered by `finish` only after the second has
come back from its upstream server. -/
def interleaved (cfg : Cfg) (env1 env2 : Env) (rq1 rq2 : HttpReq) (st : State) :
    Run (List PEv × List PEv) :=
  match dispatch cfg env1 rq1 st with
  | .done t1 =>
    match dispatch cfg env2 rq2 t1.st with
    | .done t2 => .done (t1.evs ++ finish env1 t1 t2.st, t2.evs ++ finish env2 t2 t2.st)
    | _ => .ub
  | _ => .ub

/-- C85 is false of the code: the delay is kept in the proxy context, which all threads share.
One client is asked by its CA to come back in an hour, another in a minute; both are told a
minute. -/
theorem C85_shared_delay_false :
    (match interleaved exProxy (exEnv 1 (Flow.exUp (retryText 3600)) (.down .connect))
        (exEnv 2 (Flow.exUp (retryText 60)) (.down .connect)) (post .enroll (exRq none))
        (post .enroll (exRq none)) (State.init none) with
      | .done (a, b) => some (a.filter fun e => match e with | .up _ => false | _ => true,
          b.filter fun e => match e with | .up _ => false | _ => true)
      | _ => none) =
      some ([.srv (.head 202), .retryAfter 60], [.srv (.head 202), .retryAfter 60]) := by
  decide +kernel

end Verif.Proxy
