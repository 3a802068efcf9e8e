import Verif.SessModel
import Verif.TlsProps
import Verif.ClientFlowProps

/-!
# Properties of a client context over time (C105)
-/
namespace Verif.Sess
open Verif.Host (Inet San SanMatches Plain)
open Verif.Tls (Excused NameFits Note)
open Verif.Flow (Asked Challenged)

/-! ## Specification -/

/-- The server that the application named last with success; `h` is the one before. -/
def lastServer (h : List Nat) (l : List (Op × Out)) : List Nat :=
  l.foldl (fun h x =>
    match x.1 with
    | .setServer n _ => if x.2.ret.err = .none then n else h
    | .call .. => h) h

/-- In one of these handshakes the owner of this certificate proved who it is: the certificate was
sent, and every fault of its chain was excused. -/
def Proved (manual : Option (Nat → Nat → Int)) (ms : List Made) (cert : Peer) : Prop :=
  ∃ m ∈ ms, m.full = true ∧ m.cert = cert ∧ ∀ n ∈ m.notes, Excused manual n

/-! ## One connection -/

theorem sanLoop_sound (I : Inet) (host : List Nat) : ∀ (sans : List San) (m r : Option Bool),
    m ≠ some true → Host.sanLoop I host m sans = some r →
      (r = some true → ∃ s ∈ sans, SanMatches I host s) ∧
      (r = none → m = none ∧ ∀ s ∈ sans, s.isHost = false)
  | [], m, r, hm, h => by
    simp only [Host.sanLoop, Option.some.injEq] at h
    subst h
    exact ⟨fun q => absurd q hm, fun q => ⟨q, by simp⟩⟩
  | .dns b :: l, m, r, hm, h => by
    simp only [Host.sanLoop] at h
    by_cases hd : Host.dnsMatch I host b = true
    · rw [if_pos hd] at h
      cases h
      exact ⟨fun _ => ⟨.dns b, by simp, (Host.dnsMatch_iff I host b).1 hd⟩, fun q => by cases q⟩
    · rw [if_neg hd] at h
      obtain ⟨h1, h2⟩ := sanLoop_sound I host l _ r (by simp) h
      refine ⟨fun q => ?_, fun q => absurd (h2 q).1 (by simp)⟩
      obtain ⟨s, hs, w⟩ := h1 q
      exact ⟨s, by simp [hs], w⟩
  | .ip b :: l, m, r, hm, h => by
    simp only [Host.sanLoop] at h
    cases hi : Host.ipMatch (Host.hostAddr I host) b with
    | ub => rw [hi] at h; cases h
    | ok =>
      rw [hi] at h
      cases h
      refine ⟨fun _ => ⟨.ip b, by simp, ?_⟩, fun q => by cases q⟩
      unfold Host.ipMatch at hi
      cases ha : Host.hostAddr I host with
      | none => rw [ha] at hi; cases hi
      | some a =>
        rw [ha] at hi
        simp only at hi
        split at hi
        · cases hi
        · split at hi
          · next e => subst e; exact ha
          · cases hi
    | mismatch =>
      rw [hi] at h
      obtain ⟨h1, h2⟩ := sanLoop_sound I host l _ r (by simp) h
      refine ⟨fun q => ?_, fun q => absurd (h2 q).1 (by simp)⟩
      obtain ⟨s, hs, w⟩ := h1 q
      exact ⟨s, by simp [hs], w⟩
  | .other :: l, m, r, hm, h => by
    simp only [Host.sanLoop] at h
    obtain ⟨h1, h2⟩ := sanLoop_sound I host l m r hm h
    refine ⟨fun q => ?_, fun q => ⟨(h2 q).1, fun s hs => ?_⟩⟩
    · obtain ⟨s, hs, w⟩ := h1 q
      exact ⟨s, by simp [hs], w⟩
    · rcases List.mem_cons.1 hs with rfl | hs
      · rfl
      · exact (h2 q).2 s hs

theorem checkFqdn_sound (I : Inet) (srp : Bool) (host : List Nat) (c : Peer)
    (h : Host.checkFqdn I srp host c = .ok) : NameFits I srp host c := by
  unfold Host.checkFqdn at h
  unfold NameFits
  cases c with
  | none => cases srp <;> simp_all
  | some x =>
    obtain ⟨sans, cns⟩ := x
    simp only at h ⊢
    unfold Host.verifyhost at h
    cases hs : Host.sanLoop I host none sans with
    | none => rw [hs] at h; cases h
    | some r =>
      rw [hs] at h
      obtain ⟨h1, h2⟩ := sanLoop_sound I host sans none r (by simp) hs
      match r, h1, h2, h with
      | some true, h1, _, _ => exact .inl (h1 rfl)
      | some false, _, _, h => cases h
      | none, _, h2, h => exact .inr ⟨(h2 rfl).2, (Host.cnCheck_iff I host cns).1.1 h⟩

/-- The verification of `est_client_init` is in force. -/
def Strict (c : Tls.Ctx) : Prop := c.verifyCb = true ∧ c.verify ≠ 0

theorem chain_excused (known : Bool) (app : Option (Nat → Nat → Int)) (l : List Note)
    (h : Tls.runChain (fun n => some (Tls.certVerifyCb known app n)) l = .fine) :
    ∀ n ∈ l, Excused app n := by
  cases known with
  | true => exact (Tls.C37_chain app l).1 h
  | false =>
    induction l with
    | nil => simp
    | cons n l ih =>
      simp only [Tls.runChain] at h
      split at h
      · cases h
      · next q =>
        intro x hx
        rcases List.mem_cons.1 hx with rfl | hx
        · rw [Tls.C37_unchanged false app x (.inl rfl)] at q
          exact .inl q
        · exact ih h x hx

theorem handshake_true (c : Tls.Ctx) (w : Tls.World) (hc : Strict c)
    (h : Tls.handshake c w = some true) : ∀ n ∈ w.notes, Excused c.manual n := by
  unfold Tls.handshake Tls.callback at h
  rw [if_pos hc.1] at h
  split at h
  · cases h
  · simp [hc.2] at h
  · next q => exact chain_excused _ _ _ q

theorem connect_facts (I : Inet) (c : Tls.Ctx) (w : Tls.World) (hc : Strict c) :
    (Tls.connect I c w = .up → (∀ n ∈ w.notes, Excused c.manual n) ∧
      NameFits I c.srp c.host w.cert) ∧
    (Tls.connect I c w = .err .fqdnMismatch → ∀ n ∈ w.notes, Excused c.manual n) := by
  unfold Tls.connect
  split
  · simp
  · split
    · simp
    · split
      · simp
      · split
        · simp
        · split
          · simp
          · simp
          · next hh =>
            have := handshake_true c w hc hh
            split
            · simp
            · exact ⟨fun q => (by cases q), fun _ => this⟩
            · next hf => exact ⟨fun _ => ⟨this, checkFqdn_sound _ _ _ _ hf⟩, fun q => by cases q⟩
  · simp

/-! ## The session -/

/-- What the context keeps was proved in one of the handshakes `ms`. -/
def Kept (manual : Option (Nat → Nat → Int)) (ms : List Made) (sess : Option Peer) : Prop :=
  ∀ c, sess = some c → Proved manual ms c

theorem Proved.mono {manual : Option (Nat → Nat → Int)} {a b : List Made} {c : Peer}
    (h : Proved manual a c) (hs : ∀ m ∈ a, m ∈ b) : Proved manual b c := by
  obtain ⟨m, hm, w⟩ := h
  exact ⟨m, hs m hm, w⟩

theorem attempt_facts (I : Inet) (c : Tls.Ctx) (sess : Option Peer) (h : Hs) (hc : Strict c)
    (ms : List Made) (hs : Kept c.manual ms sess) (n : Flow.Conn)
    (sess' : Option Peer) (m : Made) (ha : attempt I c sess h = some (n, sess', m)) :
    Kept c.manual (ms ++ [m]) sess' ∧ m.host = c.host ∧
    (m.up = true → NameFits I c.srp c.host m.cert ∧ Proved c.manual (ms ++ [m]) m.cert) ∧
    ((∃ u, n = .up u) → m.up = true) := by
  obtain ⟨f1, f2⟩ := connect_facts I c (worldOf sess h) hc
  have hp : ∀ m : Made, m.full = isFull sess h → m.notes = (worldOf sess h).notes →
      m.cert = (worldOf sess h).cert → (∀ n ∈ (worldOf sess h).notes, Excused c.manual n) →
      Proved c.manual (ms ++ [m]) (worldOf sess h).cert := by
    intro m e1 e2 e3 hx
    by_cases hf : isFull sess h = true
    · exact ⟨m, by simp, by rw [e1, hf], e3, by rw [e2]; exact hx⟩
    · unfold isFull at hf
      cases sess with
      | none => simp at hf
      | some p =>
        have hr : h.resume = true := by simpa using hf
        have : (worldOf (some p) h).cert = p := by simp [worldOf, hr]
        rw [this]
        exact (hs p rfl).mono (by simp +contextual)
  unfold attempt at ha
  simp only at ha
  split at ha
  · cases ha
  · next hu =>
    cases ha
    have q := f1 hu
    have p := hp ⟨c.host, isFull sess h, (worldOf sess h).notes, (worldOf sess h).cert, true⟩
      rfl rfl rfl q.1
    exact ⟨fun x hx => by cases hx; exact p, rfl, fun _ => ⟨q.2, p⟩, fun _ => rfl⟩
  · next hu =>
    cases ha
    have q := f2 hu
    have p := hp ⟨c.host, isFull sess h, (worldOf sess h).notes, (worldOf sess h).cert, false⟩
      rfl rfl rfl q
    exact ⟨fun x hx => by cases hx; exact p, rfl, by simp, by simp⟩
  · cases ha
    exact ⟨fun x hx => (hs x hx).mono (by simp +contextual), rfl, by simp, by simp⟩

theorem attempts_facts (I : Inet) (c : Tls.Ctx) (hc : Strict c) (hs : List Hs) :
    ∀ (sess : Option Peer) (ms : List Made),
      Kept c.manual ms sess → ∀ (ns : List Flow.Conn) (sess' : Option Peer) (new : List Made),
      attempts I c sess hs = some (ns, sess', new) →
      Kept c.manual (ms ++ new) sess' ∧
      (∀ m ∈ new, m.host = c.host ∧ (m.up = true →
        NameFits I c.srp c.host m.cert ∧ Proved c.manual (ms ++ new) m.cert)) ∧
      (∀ u, Flow.Conn.up u ∈ ns → ∃ m ∈ new, m.up = true) := by
  induction hs with
  | nil =>
    intro sess ms hk ns sess' new h
    cases h
    exact ⟨by simpa using hk, by simp, by simp⟩
  | cons x hs ih =>
    intro sess ms hk ns sess' new h
    unfold attempts at h
    split at h
    · cases h
    · next n s1 m h1 =>
      split at h
      · cases h
      · next ns' s2 ms' h2 =>
        cases h
        obtain ⟨a1, a2, a3, a4⟩ := attempt_facts I c sess x hc ms hk n s1 m h1
        obtain ⟨b1, b2, b3⟩ := ih s1 (ms ++ [m]) a1 ns' sess' ms' h2
        rw [List.append_assoc] at b1 b2
        refine ⟨b1, ?_, ?_⟩
        · intro y hy
          rcases List.mem_cons.1 hy with rfl | hy
          · refine ⟨a2, fun q => ⟨(a3 q).1, (a3 q).2.mono ?_⟩⟩
            intro z hz
            rcases List.mem_append.1 hz with hz | hz <;> simp_all
          · exact b2 y hy
        · intro u hu
          rcases List.mem_cons.1 hu with hu | hu
          · exact ⟨m, by simp, a4 ⟨u, hu.symm⟩⟩
          · obtain ⟨z, hz, w⟩ := b3 u hu
            exact ⟨z, by simp [hz], w⟩

/-! ## Requests need a connection -/

theorem mem_nth (l : List Flow.Conn) (i : Nat) (u : Flow.Up) (h : nth l i = .up u) :
    Flow.Conn.up u ∈ l := by
  unfold nth at h
  rw [List.getD_eq_getElem?_getD] at h
  cases hi : l[i]? with
  | none => rw [hi] at h; cases h
  | some x =>
    rw [hi] at h
    simp only [Option.getD_some] at h
    subst h
    exact List.mem_of_getElem? hi

theorem fill_conns (l : List Flow.Conn) (cmd : Flow.Cmd) (u : Flow.Up)
    (h : Flow.Conn.up u ∈ (fill l cmd).conns) : Flow.Conn.up u ∈ l := by
  have key : ∀ i, Flow.Conn.up u = nth l i → Flow.Conn.up u ∈ l :=
    fun i q => mem_nth l i u q.symm
  cases cmd <;> simp only [fill, Flow.Cmd.conns, List.mem_cons, List.not_mem_nil, or_false] at h
  all_goals first | exact h.elim | skip
  all_goals
    first
      | exact key _ h
      | (rcases h with h | h <;> exact key _ h)
      | (rcases h with h | h | h | h <;> exact key _ h)

theorem done_up {lib : Flow.Lib} {c : Flow.Client} {cmd : Flow.Cmd} {net : Flow.Conn × Flow.Conn}
    {ret : Flow.Ret} {c' : Flow.Client} (h : Flow.Done lib c cmd net ret c') (hs : ret.sent ≠ []) :
    ∃ u, net.1 = .up u := by
  rcases h with ⟨h1, -⟩ | ⟨-, r, j, o, -, h2, -⟩
  · exact absurd h1 hs
  · rw [h2] at hs
    rcases o.sent with q | ⟨u, s, hn, -⟩ | ⟨u1, u2, m, s1, s2, hn1, -⟩
    · exact absurd q hs
    · exact ⟨u, hn⟩
    · exact ⟨u1, hn1⟩

theorem getCacerts_up {lib : Flow.Lib} {cfg : ClientReq.Cfg} {net : Flow.Conn} {c c' : Flow.Client}
    {ret : Flow.Ret} (h : Flow.getCacerts lib cfg net c = some (ret, c'))
    (hs : ret.sent ≠ [] ∨ ret.err = .none) : ∃ u, net = .up u := by
  unfold Flow.getCacerts at h
  split at h
  · simp only [Flow.refuse, Option.some.injEq, Prod.mk.injEq] at h
    obtain ⟨rfl, rfl⟩ := h
    simp at hs
  · split at h
    · next e =>
      simp only [Flow.refuse, Option.some.injEq, Prod.mk.injEq] at h
      obtain ⟨rfl, rfl⟩ := h
      cases e <;> simp [Flow.ConnErr.err] at hs
    · next u => exact ⟨u, rfl⟩

/-- A call that sends something has a connection. -/
theorem step_up (lib : Flow.Lib) (cfg : ClientReq.Cfg) (c : Flow.Client) (cmd : Flow.Cmd)
    (ret : Flow.Ret) (c' : Flow.Client) (h : Flow.step lib cfg c cmd = some (ret, c'))
    (hs : ret.sent ≠ []) : ∃ u, Flow.Conn.up u ∈ cmd.conns := by
  cases cmd with
  | enroll b k n =>
    obtain ⟨u, q⟩ := done_up (Flow.step_done lib cfg c _ n rfl ret c' h) hs
    exact ⟨u, by simp [Flow.Cmd.conns, q]⟩
  | keygenEnroll b k n =>
    obtain ⟨u, q⟩ := done_up (Flow.step_done lib cfg c _ n rfl ret c' h) hs
    exact ⟨u, by simp [Flow.Cmd.conns, q]⟩
  | reenroll b k n =>
    obtain ⟨u, q⟩ := done_up (Flow.step_done lib cfg c _ n rfl ret c' h) hs
    exact ⟨u, by simp [Flow.Cmd.conns, q]⟩
  | enrollCsr b k n =>
    obtain ⟨u, q⟩ := done_up (Flow.step_done lib cfg c _ n rfl ret c' h) hs
    exact ⟨u, by simp [Flow.Cmd.conns, q]⟩
  | keygenCsr b k n =>
    obtain ⟨u, q⟩ := done_up (Flow.step_done lib cfg c _ n rfl ret c' h) hs
    exact ⟨u, by simp [Flow.Cmd.conns, q]⟩
  | getCacerts n =>
    obtain ⟨u, q⟩ := getCacerts_up h (.inl hs)
    exact ⟨u, by simp [Flow.Cmd.conns, q]⟩
  | getCsrattrs n =>
    simp only [Flow.step, Flow.getCsrattrs] at h
    cases n with
    | down e =>
      simp only [Flow.refuse, Option.some.injEq, Prod.mk.injEq] at h
      obtain ⟨rfl, rfl⟩ := h
      exact absurd rfl hs
    | up u => exact ⟨u, by simp [Flow.Cmd.conns]⟩
  | provision b k n1 n2 n =>
    simp only [Flow.step] at h
    unfold Flow.provision at h
    split at h
    · simp only [Flow.refuse, Option.some.injEq, Prod.mk.injEq] at h
      obtain ⟨rfl, rfl⟩ := h
      exact absurd rfl hs
    · split at h
      · simp only [Flow.refuse, Option.some.injEq, Prod.mk.injEq] at h
        obtain ⟨rfl, rfl⟩ := h
        exact absurd rfl hs
      · split at h
        · cases h
        · next r1 c1 h1 =>
          split at h
          · simp only [Option.some.injEq, Prod.mk.injEq] at h
            obtain ⟨rfl, rfl⟩ := h
            obtain ⟨u, q⟩ := getCacerts_up h1 (.inl hs)
            exact ⟨u, by simp [Flow.Cmd.conns, q]⟩
          · next he =>
            obtain ⟨u, q⟩ := getCacerts_up h1 (.inr (by simpa using he))
            exact ⟨u, by simp [Flow.Cmd.conns, q]⟩
  | copyCacerts =>
    simp only [Flow.step, Flow.copyCacerts] at h
    repeat' split at h
    all_goals
      simp only [Flow.refuse, Option.some.injEq, Prod.mk.injEq] at h
      obtain ⟨rfl, rfl⟩ := h
      exact absurd rfl hs
  | copyCert =>
    simp only [Flow.step, Flow.copyCert] at h
    repeat' split at h
    all_goals
      simp only [Flow.refuse, Option.some.injEq, Prod.mk.injEq] at h
      obtain ⟨rfl, rfl⟩ := h
      exact absurd rfl hs
  | copyKey =>
    simp only [Flow.step, Flow.copyKey] at h
    repeat' split at h
    all_goals
      simp only [Flow.refuse, Option.some.injEq, Prod.mk.injEq] at h
      obtain ⟨rfl, rfl⟩ := h
      exact absurd rfl hs
  | setAuth p k =>
    simp only [Flow.step, Flow.setAuth] at h
    repeat' split at h
    all_goals
      simp only [Flow.refuse, Option.some.injEq, Prod.mk.injEq] at h
      obtain ⟨rfl, rfl⟩ := h
      exact absurd rfl hs
  | basicHint =>
    simp only [Flow.step, Flow.refuse, Option.some.injEq, Prod.mk.injEq] at h
    obtain ⟨rfl, rfl⟩ := h
    exact absurd rfl hs
  | forcePop =>
    simp only [Flow.step, Flow.refuse, Option.some.injEq, Prod.mk.injEq] at h
    obtain ⟨rfl, rfl⟩ := h
    exact absurd rfl hs
  | unforcePop =>
    simp only [Flow.step, Flow.refuse, Option.some.injEq, Prod.mk.injEq] at h
    obtain ⟨rfl, rfl⟩ := h
    exact absurd rfl hs

/-! ## C105: where requests go -/

theorem setServer_facts (s : St) (h : List Nat) (p : Nat) :
    (setServer s h p).2.sess = s.sess ∧ (setServer s h p).2.client = s.client ∧
    (setServer s h p).2.tls.manual = s.tls.manual ∧ (setServer s h p).2.tls.srp = s.tls.srp ∧
    (Strict s.tls → Strict (setServer s h p).2.tls) ∧
    (setServer s h p).2.tls.host = if (setServer s h p).1 = .none then h else s.tls.host := by
  unfold setServer Strict
  repeat' split
  all_goals simp_all

theorem run_facts (I : Inet) (ops : List Op) : ∀ (s : St) (ms : List Made), Strict s.tls →
    Kept s.tls.manual ms s.sess → ∀ (outs : List Out) (s' : St),
    run I s ops = some (outs, s') → ∀ (i : Nat) (o : Out), outs[i]? = some o →
      (∀ m ∈ o.made, m.host = lastServer s.tls.host ((ops.zip outs).take i) ∧
        (m.up = true → NameFits I s.tls.srp m.host m.cert ∧
          Proved s.tls.manual (ms ++ (outs.take (i + 1)).flatMap (·.made)) m.cert)) ∧
      (o.ret.sent ≠ [] → ∃ m ∈ o.made, m.up = true) := by
  induction ops with
  | nil =>
    intro s ms _ _ outs s' h i o ho
    cases h
    simp at ho
  | cons op ops ih =>
    intro s ms hst hk outs s' h i o ho
    unfold run at h
    split at h
    · cases h
    · next o1 s1 h1 =>
      split at h
      · cases h
      · next os s2 h2 =>
        cases h
        have first : Strict s1.tls ∧ s1.tls.manual = s.tls.manual ∧ s1.tls.srp = s.tls.srp ∧
            Kept s.tls.manual (ms ++ o1.made) s1.sess ∧
            s1.tls.host = lastServer s.tls.host [(op, o1)] ∧
            (∀ m ∈ o1.made, m.host = s.tls.host ∧ (m.up = true →
              NameFits I s.tls.srp s.tls.host m.cert ∧
                Proved s.tls.manual (ms ++ o1.made) m.cert)) ∧
            (o1.ret.sent ≠ [] → ∃ m ∈ o1.made, m.up = true) := by
          cases op with
          | setServer hn p =>
            simp only [step, Option.some.injEq, Prod.mk.injEq] at h1
            obtain ⟨rfl, rfl⟩ := h1
            obtain ⟨f1, f2, f3, f4, f5, f6⟩ := setServer_facts s hn p
            refine ⟨f5 hst, f3, f4, ?_, ?_, by simp, by simp⟩
            · rw [f1]; simpa using hk
            · rw [f6]; simp [lastServer]
          | call lib cmd hs =>
            simp only [step] at h1
            split at h1
            · cases h1
            · next conns sess made ha =>
              split at h1
              · cases h1
              · next ret client hf =>
                simp only [Option.some.injEq, Prod.mk.injEq] at h1
                obtain ⟨rfl, rfl⟩ := h1
                obtain ⟨a1, a2, a3⟩ := attempts_facts I s.tls hst hs s.sess ms hk conns sess made ha
                refine ⟨hst, rfl, rfl, a1, by simp [lastServer], a2, fun q => ?_⟩
                obtain ⟨u, hu⟩ := step_up lib s.req s.client _ ret client hf q
                exact a3 u (fill_conns conns cmd u hu)
        obtain ⟨c1, c2, c3, c4, c5, c6, c7⟩ := first
        cases i with
        | zero =>
          simp only [List.getElem?_cons_zero, Option.some.injEq] at ho
          subst ho
          refine ⟨fun m hm => ?_, c7⟩
          obtain ⟨q1, q2⟩ := c6 m hm
          refine ⟨by simpa [lastServer] using q1, fun hu => ?_⟩
          rw [q1]
          exact ⟨(q2 hu).1, by simpa using (q2 hu).2⟩
        | succ i =>
          simp only [List.getElem?_cons_succ] at ho
          obtain ⟨r1, r2⟩ := ih s1 (ms ++ o1.made) c1 (by rw [c2]; exact c4) os s' h2 i o ho
          refine ⟨fun m hm => ?_, r2⟩
          obtain ⟨q1, q2⟩ := r1 m hm
          refine ⟨?_, fun hu => ?_⟩
          · rw [q1, c5]
            simp [lastServer]
          · obtain ⟨q3, q4⟩ := q2 hu
            rw [c3] at q3
            rw [c2] at q4
            refine ⟨q3, ?_⟩
            simpa using q4

/-- C105: whatever a client context has been used for before, a call that sends a request does so on
connections to the server that the application named last, whose certificate bears that name and
was proved in a full handshake of this context: in this call or, if the session was resumed, in an
earlier one. -/
theorem C105_only_to_the_named_server (I : Inet) (s : St) (hs : Strict s.tls) (hn : s.sess = none)
    (ops : List Op) (outs : List Out) (s' : St) (h : run I s ops = some (outs, s')) (i : Nat)
    (o : Out) (ho : outs[i]? = some o) :
    (o.ret.sent ≠ [] → ∃ m ∈ o.made, m.up = true) ∧
    ∀ m ∈ o.made, m.up = true →
      m.host = lastServer s.tls.host ((ops.zip outs).take i) ∧
      NameFits I s.tls.srp m.host m.cert ∧
      Proved s.tls.manual ((outs.take (i + 1)).flatMap (·.made)) m.cert := by
  obtain ⟨r1, r2⟩ := run_facts I ops s [] hs (by intro c q; rw [hn] at q; cases q) outs s' h i o ho
  refine ⟨r2, fun m hm hu => ?_⟩
  obtain ⟨q1, q2⟩ := r1 m hm
  exact ⟨q1, (q2 hu).1, by simpa using (q2 hu).2⟩

/-! ## C105: who gets credentials -/

theorem attempts_ups (I : Inet) (c : Tls.Ctx) (hs : List Hs) :
    ∀ (sess : Option Peer) (ns : List Flow.Conn) (sess' : Option Peer) (new : List Made),
      attempts I c sess hs = some (ns, sess', new) →
      ∀ u, Flow.Conn.up u ∈ ns → ∃ h ∈ hs, h.up = u := by
  induction hs with
  | nil =>
    intro sess ns sess' new h u hu
    cases h
    simp at hu
  | cons x hs ih =>
    intro sess ns sess' new h u hu
    unfold attempts at h
    split at h
    · cases h
    · next n s1 m h1 =>
      split at h
      · cases h
      · next ns' s2 ms' h2 =>
        cases h
        rcases List.mem_cons.1 hu with hu | hu
        · refine ⟨x, by simp, ?_⟩
          subst hu
          unfold attempt at h1
          simp only at h1
          split at h1 <;> cases h1
          rfl
        · obtain ⟨y, hy, q⟩ := ih s1 ns' sess' ms' h2 u hu
          exact ⟨y, by simp [hy], q⟩

/-- In this step a server asked for credentials. -/
def AsksIn (op : Op) : Prop :=
  ∃ lib cmd hs, op = .call lib cmd hs ∧ ∃ h ∈ hs, ∃ m, Asked m ∧ Challenged lib (.up h.up) m

theorem asksIn (lib : Flow.Lib) (cmd : Flow.Cmd) (hs : List Hs) (I : Inet) (c : Tls.Ctx)
    (sess sess' : Option Peer) (ns : List Flow.Conn) (new : List Made)
    (ha : attempts I c sess hs = some (ns, sess', new)) (n : Flow.Conn)
    (hn : n ∈ (fill ns cmd).conns) (m : ClientResp.Mode) (hm : Asked m)
    (hc : Challenged lib n m) : AsksIn (.call lib cmd hs) := by
  have hc' := hc
  obtain ⟨u, raw, name, value, rfl, -⟩ := hc'
  obtain ⟨h, hh, rfl⟩ := attempts_ups I c hs sess ns sess' new ha u (fill_conns ns cmd u hn)
  exact ⟨lib, cmd, hs, rfl, h, hh, m, hm, hc⟩

theorem fill_basicHint (l : List Flow.Conn) (cmd : Flow.Cmd) (h : fill l cmd = .basicHint) :
    cmd = .basicHint := by
  cases cmd <;> simp_all [fill]

theorem run_mode (I : Inet) (ops : List Op) : ∀ (s : St) (outs : List Out) (s' : St),
    run I s ops = some (outs, s') → (∀ lib hs, Op.call lib .basicHint hs ∉ ops) →
    (∀ n p, Op.setServer n p ∉ ops) →
    s'.tls.host = s.tls.host ∧ (Asked s'.client.mode → Asked s.client.mode ∨ ∃ op ∈ ops, AsksIn op) := by
  induction ops with
  | nil =>
    intro s outs s' h _ _
    cases h
    exact ⟨rfl, .inl⟩
  | cons op ops ih =>
    intro s outs s' h hb hs
    unfold run at h
    split at h
    · cases h
    · next o1 s1 h1 =>
      split at h
      · cases h
      · next os s2 h2 =>
        cases h
        obtain ⟨i1, i2⟩ := ih s1 os s' h2 (fun l x q => hb l x (by simp [q]))
          (fun n p q => hs n p (by simp [q]))
        cases op with
        | setServer n p => exact absurd (by simp) (hs n p)
        | call lib cmd hh =>
          simp only [step] at h1
          split at h1
          · cases h1
          · next conns sess made ha =>
            split at h1
            · cases h1
            · next ret client hf =>
              simp only [Option.some.injEq, Prod.mk.injEq] at h1
              obtain ⟨rfl, rfl⟩ := h1
              have hne : fill conns cmd ≠ .basicHint := by
                intro q
                have := fill_basicHint conns cmd q
                subst this
                exact hb lib hh (by simp)
              refine ⟨i1, fun q => ?_⟩
              rcases i2 q with w | ⟨op, ho, w⟩
              · rcases (Flow.step_gen lib _ _ _ ret client hf hne).mode w with v | ⟨n, hn, v⟩
                · exact .inl (by simp only at v w; rw [v] at w; exact w)
                · exact .inr ⟨_, by simp, asksIn lib cmd hh I _ _ _ _ _ ha n hn _ w v⟩
              · exact .inr ⟨op, by simp [ho], w⟩

/-- C105: if the context has no mode of authentication when a server is named (as at the
beginning, and after `est_client_set_auth`), then a call sends credentials only if that same
server asked for them, in this call or in one since.  Missing: a context that is told another
server while it still has the mode of the last one (`C105_other_server_false`), and the hint that
the application can give. -/
theorem C105_credentials_partial (I : Inet) (s : St) (hm : ¬ Asked s.client.mode) (ops : List Op)
    (hb : ∀ lib hs, Op.call lib .basicHint hs ∉ ops) (hn : ∀ n p, Op.setServer n p ∉ ops)
    (outs : List Out) (s1 : St) (h : run I s ops = some (outs, s1)) (op : Op) (o : Out) (s2 : St)
    (h' : step I s1 op = some (o, s2)) (x : Flow.Sent) (hx : x ∈ o.ret.sent)
    (ha : x.auth ≠ .none) :
    s1.tls.host = s.tls.host ∧ ∃ p ∈ ops ++ [op], AsksIn p := by
  obtain ⟨i1, i2⟩ := run_mode I ops s outs s1 h hb hn
  refine ⟨i1, ?_⟩
  cases op with
  | setServer n p =>
    simp only [step, Option.some.injEq, Prod.mk.injEq] at h'
    obtain ⟨rfl, rfl⟩ := h'
    simp at hx
  | call lib cmd hh =>
    simp only [step] at h'
    split at h'
    · cases h'
    · next conns sess made hat =>
      split at h'
      · cases h'
      · next ret client hf =>
        simp only [Option.some.injEq, Prod.mk.injEq] at h'
        obtain ⟨rfl, rfl⟩ := h'
        by_cases hbh : fill conns cmd = .basicHint
        · rw [hbh] at hf
          simp only [Flow.step, Flow.refuse, Option.some.injEq, Prod.mk.injEq] at hf
          obtain ⟨rfl, rfl⟩ := hf
          simp at hx
        · rcases ((Flow.step_gen lib _ _ _ ret client hf hbh).sent x hx).2 ha with w | ⟨n, hn, m, w, v⟩
          · rcases i2 w with q | ⟨p, hp, q⟩
            · exact absurd q hm
            · exact ⟨p, by simp [hp], q⟩
          · exact ⟨_, by simp, asksIn lib cmd hh I _ _ _ _ _ hat n hn m w v⟩

/-- C105: `est_client_set_auth` puts the context into that state whenever it accepts the user name
and password. -/
theorem C105_set_auth_clears (I : Inet) (s : St) (lib : Flow.Lib) (keyOk : Bool) :
    ∃ o s', step I s (.call lib (.setAuth true keyOk) []) = some (o, s') ∧ ¬ Asked s'.client.mode := by
  cases keyOk
  · exact ⟨_, _, rfl, by simp [Asked]⟩
  · exact ⟨_, _, rfl, by simp [Asked]⟩

/-! ## Examples -/

/-- A connection to the server of this name on which this text comes back. -/
def exHs (name raw : List Nat) (resume : Bool) : Hs where
  w := { Tls.sampleWorld with cert := some ([.dns name], []) }
  resume := resume
  up := { uid := some [100, 87, 108, 107], auth := fun _ => .value [66, 97, 115, 105, 99, 32, 100, 84, 112, 119], reply := .bytes raw }

/-- A new context. -/
def exSt : St := .init none [69, 83, 84] [97, 110, 99, 104, 111, 114, 115]

/-- Re-enrolment. -/
def exAgain : Flow.Cmd :=
  .reenroll (some ⟨true, some ⟨1, [], none⟩, false, true⟩) (some (7, true))
    (.down .connect, .down .connect)

/-- The operations of the examples: enrol with one server, which asks for a password, then with
another one. -/
def exOps : List Op :=
  [.setServer [97, 46, 101, 120, 97, 109, 112, 108, 101, 46, 99, 111, 109] 8443,
   .call Flow.exLib exAgain [exHs [97, 46, 101, 120, 97, 109, 112, 108, 101, 46, 99, 111, 109] Flow.ex401 false,
     exHs [120, 46, 101, 120, 97, 109, 112, 108, 101, 46, 111, 114, 103] Flow.exCert true],
   .setServer [98, 46, 101, 120, 97, 109, 112, 108, 101, 46, 99, 111, 109] 8443,
   .call Flow.exLib exAgain [exHs [98, 46, 101, 120, 97, 109, 112, 108, 101, 46, 99, 111, 109] Flow.exCert false]]

/-- The second connection resumes the session of the first: the certificate is the one of the
session, whatever the peer has. -/
example : ((run Host.exampleInet exSt exOps).map fun p => p.1.map fun o =>
      (o.ret.err, o.made.map fun m => (m.full, m.up))) =
    some [(.none, []), (.none, [(true, true), (false, true)]), (.none, []),
      (.none, [(true, true)])] := by
  decide +kernel

/-- The hypotheses of the theorems are met. -/
example : Strict exSt.tls ∧ exSt.sess = none ∧ ¬ Asked exSt.client.mode ∧
    (run Host.exampleInet exSt exOps).isSome = true := by
  refine ⟨⟨rfl, by decide⟩, rfl, by decide, by decide +kernel⟩

/-- A session of the first server does not pass for the second one. -/
example : ((run Host.exampleInet exSt (exOps.take 3 ++
      [.call Flow.exLib exAgain [exHs [98, 46, 101, 120, 97, 109, 112, 108, 101, 46, 99, 111, 109] Flow.exCert true]])).map
        fun p => p.1.map fun o => (o.ret.err, o.ret.sent.length)) =
    some [(.none, 0), (.none, 2), (.none, 0), (.fqdnMismatch, 0)] := by
  decide +kernel

/-- C105 is false of contexts that are told another server: the second server, which never asked,
is given the credentials meant for the first one with the first request. -/
theorem C105_other_server_false :
    ((run Host.exampleInet exSt exOps).map fun p => p.1.map fun o => o.ret.sent.map (·.auth)) =
      some [[], [.none, .value [66, 97, 115, 105, 99, 32, 100, 84, 112, 119]], [], [.value [66, 97, 115, 105, 99, 32, 100, 84, 112, 119]]] ∧
    lastServer [] ((exOps.zip (((run Host.exampleInet exSt exOps).map (·.1)).getD [])).take 3) =
      [98, 46, 101, 120, 97, 109, 112, 108, 101, 46, 99, 111, 109] := by
  constructor <;> decide +kernel

end Verif.Sess
