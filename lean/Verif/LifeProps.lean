import Verif.LifeModel

/-!
# Properties of starting and stopping a server (C106)

The specification speaks about the calls that an application made and what they returned, the last
call first.
-/
namespace Verif.Life

/-! ## Specification -/

/-- Calls with their results, the last one first. -/
abbrev Hist := List (Op × Out)

/-- A successful call of `est_server_start` or `est_proxy_start`. -/
def Started : Op × Out → Prop
  | (.start _, o) => o.ret = .none
  | _ => False

/-- Any call of these. -/
def Starting : Op × Out → Prop
  | (.start _, _) => True
  | _ => False

/-- A call of `est_server_stop` or `est_proxy_stop`. -/
def Stopping : Op × Out → Prop
  | (.stop, _) => True
  | _ => False

/-- The application asked for CRL checks. -/
def CrlAsked (h : Hist) : Prop := ∃ o, (Op.enableCrl, o) ∈ h

/-- The application registered a callback for SRP. -/
def SrpAsked (h : Hist) : Prop := ∃ o, (Op.enableSrp true, o) ∈ h

/-- The application started the server with CoAP. -/
def CoapAsked (h : Hist) : Prop := ∃ o : Out, (Op.coapStart true, o) ∈ h

/-- The curve that the application chose last, `prime256v1` (415) if it chose none. -/
def curveOf : Hist → Int
  | [] => 415
  | (.setCurve n, _) :: h => if 0 < n then n else curveOf h
  | _ :: h => curveOf h

/-- The Diffie-Hellman parameters that the application gave last. -/
def dhOf : Hist → Option Nat
  | [] => none
  | (.setDh (some p), _) :: _ => some p
  | _ :: h => dhOf h

/-- A suite without encryption or authentication of the server, or with broken algorithms: one of
these texts is part of the name. -/
def Weak (n : List Nat) : Prop :=
  ∃ w ∈ [[78, 85, 76, 76], [65, 68, 72], [65, 69, 67, 68, 72], [82, 67, 52], [82, 67, 50], [68, 69, 83], [69, 88, 80], [77, 68, 53], [80, 83, 75], [76, 79, 87],
    [83, 69, 69, 68], [73, 68, 69, 65]], w <:+: n

/-- The session of a connection is one that the settings chosen in `h` allow: `trust` are the
trusted certificates. -/
structure Allowed (v : Verify) (trust : List Der) (h : Hist) (k : Conn) (s : Session) : Prop where
  version : 11 ≤ s.version ∧ s.version ≤ 12 ∧ s.version ≤ k.hello.version
  offered : s.suite ∈ k.hello.suites
  srp : s.suite = .srp → SrpAsked h ∧ s.cert = none
  suite : ∀ n, s.suite = .named n → ¬ Weak n
  ecdhe : ∀ n, s.suite = .named n → [69, 67, 68, 72, 69, 45] <+: n → curveOf h ∈ k.hello.curves
  dhe : ∀ n, s.suite = .named n → [68, 72, 69, 45] <+: n → (dhOf h).isSome
  cert : ∀ d, s.cert = some d → k.hello.cert = some d ∧
    ∃ crl : Bool, (crl = true ↔ CrlAsked h) ∧ v trust crl 6 d = true
  noCert : s.cert = none → s.suite = .srp ∨ k.hello.cert = none

/-! ## Lemmas -/

theorem weak_not_listed : ∀ n ∈ cipherList, ¬ Weak n := by
  have key : ∀ n ∈ cipherList, ∀ w ∈ [[78, 85, 76, 76], [65, 68, 72], [65, 69, 67, 68, 72], [82, 67, 52], [82, 67, 50], [68, 69, 83], [69, 88, 80],
      [77, 68, 53], [80, 83, 75], [76, 79, 87], [83, 69, 69, 68], [73, 68, 69, 65]], ¬ w <:+: n := by
    decide +kernel
  intro n hn hw
  obtain ⟨w, hw, hi⟩ := hw
  exact key n hn w hw hi

/-- What is in force after a start for which `h` was the history. -/
structure InForce (s0 : List Der) (h : Hist) (t : Settings) : Prop where
  ver : t.minVer = 11 ∧ t.maxVer = 12
  ver2 : t.verify = true ∧ t.needCert = false ∧ t.depth = 6
  crl : t.crl = true ↔ CrlAsked h
  srp : (t.suites = cipherListSrp ∧ SrpAsked h) ∨ t.suites = cipherList
  curve : t.curve = curveOf h
  dh : t.dh = none ∨ t.dh = dhOf h
  store : t.store = some s0 ∨ t.store = none
  first : (∀ e ∈ h, ¬ Starting e) → t.store = some s0 ∧ t.dh = dhOf h

/-- The context fits the history. -/
structure Inv (s0 : List Der) (h : Hist) (c : Ctx) : Prop where
  crl : c.crl = true ↔ CrlAsked h
  srp : c.srp = true ↔ SrpAsked h
  nid : (if c.nid ≠ 0 then c.nid else prime256v1) = curveOf h
  dh : c.dh = none ∨ c.dh = dhOf h
  store : c.store = some s0 ∨ c.store = none
  first : c.dead = false → (∀ e ∈ h, ¬ Starting e) → c.store = some s0 ∧ c.dh = dhOf h
  coap : c.coap = true ↔ CoapAsked h
  mg : ∀ t, c.mg = .live t → c.coap = false → ∃ h2 e h1, h = h2 ++ e :: h1 ∧ Started e ∧
    (∀ x ∈ h2, ¬ Started x ∧ ¬ Stopping x) ∧ InForce s0 h1 t

theorem not_mem_cons {p : Op × Out → Prop} {e : Op × Out} {h : Hist}
    (hn : ∀ x ∈ e :: h, ¬ p x) : ¬ p e ∧ ∀ x ∈ h, ¬ p x :=
  ⟨hn e (by simp), fun x hx => hn x (by simp [hx])⟩

/-- A call that leaves the service alone keeps what is in force. -/
theorem mg_keep {s0 : List Der} {h : Hist} {t : Settings} {e : Op × Out}
    (hs : ¬ Started e) (hp : ¬ Stopping e)
    (hm : ∃ h2 e' h1, h = h2 ++ e' :: h1 ∧ Started e' ∧
      (∀ x ∈ h2, ¬ Started x ∧ ¬ Stopping x) ∧ InForce s0 h1 t) :
    ∃ h2 e' h1, e :: h = h2 ++ e' :: h1 ∧ Started e' ∧
      (∀ x ∈ h2, ¬ Started x ∧ ¬ Stopping x) ∧ InForce s0 h1 t := by
  obtain ⟨h2, e', h1, he, hs', hn, hf⟩ := hm
  refine ⟨e :: h2, e', h1, by simp [he], hs', ?_, hf⟩
  intro x hx
  rcases List.mem_cons.1 hx with hx | hx
  · subst hx; exact ⟨hs, hp⟩
  · exact hn x hx

theorem inForce_of {s0 : List Der} {h : Hist} {c : Ctx} (hi : Inv s0 h c) (hd : c.dead = false) :
    InForce s0 h (settingsOf c) where
  ver := ⟨rfl, rfl⟩
  ver2 := ⟨rfl, rfl, rfl⟩
  crl := hi.crl
  srp := by
    by_cases hs : c.srp = true
    · exact .inl ⟨by simp [settingsOf, hs], hi.srp.1 hs⟩
    · exact .inr (by simp [settingsOf, hs])
  curve := hi.nid
  dh := hi.dh
  store := hi.store
  first := hi.first hd

theorem inv_init (p : Bool) (s0 : List Der) : Inv s0 [] (Ctx.init p s0) where
  crl := by simp [Ctx.init, CrlAsked]
  srp := by simp [Ctx.init, SrpAsked]
  nid := by simp [Ctx.init, prime256v1, curveOf]
  dh := .inl rfl
  store := .inl rfl
  first := fun _ _ => ⟨rfl, rfl⟩
  coap := by simp [Ctx.init, CoapAsked]
  mg := by intro t ht; cases ht

theorem mgStart_facts (l : StartLib) (c : Ctx) :
    ∃ st d, (mgStart l c).2 = { c with store := st, dh := d } ∧ (st = c.store ∨ st = none) ∧
      (d = c.dh ∨ d = none) ∧ ∀ t, (mgStart l c).1 = some t → t = settingsOf c := by
  unfold mgStart
  dsimp only
  repeat' split
  · exact ⟨c.store, c.dh, rfl, .inl rfl, .inl rfl, by simp⟩
  · exact ⟨none, c.dh, rfl, .inr rfl, .inl rfl, by simp⟩
  · exact ⟨none, none, rfl, .inr rfl, .inr rfl, by simp⟩
  · exact ⟨none, none, rfl, .inr rfl, .inr rfl, by simp⟩

theorem inv_step {v : Verify} {s0 : List Der} {h : Hist} {c c' : Ctx} {op : Op} {o : Out}
    (hi : Inv s0 h c) (hs : step v c op = some (o, c')) : Inv s0 ((op, o) :: h) c' := by
  unfold step at hs
  split at hs
  · cases hs
  · rename_i hd
    replace hd : c.dead = false := by simpa using hd
    cases op with
    | start l =>
      obtain ⟨st, d, h2, hst, hdh, ht⟩ := mgStart_facts l c
      have h0 : ∀ o : Out, ¬ ∀ e ∈ ((Op.start l, o) :: h), ¬ Starting e := by
        intro o hn; exact (not_mem_cons hn).1 trivial
      have hst' : st = some s0 ∨ st = none := by
        rcases hst with rfl | rfl
        · exact hi.store
        · exact .inr rfl
      have hdh' : d = none ∨ d = dhOf h := by
        rcases hdh with rfl | rfl
        · exact hi.dh
        · exact .inl rfl
      simp only [start] at hs
      rcases hr : mgStart l c with ⟨r, cc⟩
      rw [hr] at hs h2 ht
      dsimp only at h2 ht
      subst h2
      cases r with
      | none =>
        simp only [Option.some.injEq, Prod.mk.injEq] at hs
        obtain ⟨rfl, rfl⟩ := hs
        refine ⟨?_, ?_, ?_, hdh', hst', fun _ hn => absurd hn (h0 _), ?_, ?_⟩
        · simpa [CrlAsked] using hi.crl
        · simpa [SrpAsked] using hi.srp
        · simpa [curveOf] using hi.nid
        · simpa [CoapAsked] using hi.coap
        · intro t hm hc
          exact mg_keep (by simp [Started, ret]) (by simp [Stopping]) (hi.mg t hm hc)
      | some t =>
        simp only [Option.some.injEq, Prod.mk.injEq] at hs
        obtain ⟨rfl, rfl⟩ := hs
        refine ⟨?_, ?_, ?_, hdh', hst', fun _ hn => absurd hn (h0 _), ?_, ?_⟩
        · simpa [CrlAsked] using hi.crl
        · simpa [SrpAsked] using hi.srp
        · simpa [curveOf] using hi.nid
        · simpa [CoapAsked] using hi.coap
        · intro t' hm hc
          simp only [Mg.live.injEq] at hm
          subst hm
          rw [ht t rfl]
          exact ⟨[], _, h, rfl, rfl, by simp, inForce_of hi hd⟩
    | stop =>
      simp only [stop] at hs
      have key : ∀ c'', Inv s0 h c'' → c''.mg = c.mg ∨ c''.mg = .stale →
          (c''.coap = true ∨ c''.mg = .stale ∨ c''.mg = .null) → Inv s0 ((Op.stop, o) :: h) c'' := by
        intro c'' hi' _ hm
        refine ⟨?_, ?_, ?_, ?_, hi'.store, ?_, ?_, ?_⟩
        · simpa [CrlAsked] using hi'.crl
        · simpa [SrpAsked] using hi'.srp
        · simpa [curveOf] using hi'.nid
        · simpa [dhOf] using hi'.dh
        · intro h1 h2; exact hi'.first h1 (not_mem_cons h2).2
        · simpa [CoapAsked] using hi'.coap
        · intro t ht hc
          rcases hm with hm | hm | hm
          · rw [hm] at hc; cases hc
          · rw [hm] at ht; cases ht
          · rw [hm] at ht; cases ht
      split at hs
      · rename_i hc
        simp only [Option.some.injEq, Prod.mk.injEq] at hs
        obtain ⟨rfl, rfl⟩ := hs
        simp only [Bool.and_eq_true] at hc
        exact key { c with coapCtx := false } ⟨hi.crl, hi.srp, hi.nid, hi.dh, hi.store, hi.first, hi.coap, hi.mg⟩ (.inl rfl)
          (.inl hc.1)
      · simp only [mgStop] at hs
        split at hs
        · rename_i hm
          simp only [Option.some.injEq, Prod.mk.injEq] at hs
          obtain ⟨rfl, rfl⟩ := hs
          exact key c hi (.inl rfl) (.inr (.inr hm))
        · simp only [Option.some.injEq, Prod.mk.injEq] at hs
          obtain ⟨rfl, rfl⟩ := hs
          exact key { c with mg := .stale } ⟨hi.crl, hi.srp, hi.nid, hi.dh, hi.store, hi.first, hi.coap,
            fun t ht => by cases ht⟩ (.inr rfl) (.inr (.inl rfl))
        · cases hs
    | handle k =>
      have hc : c' = c := by
        simp only [handle] at hs
        split at hs
        · simp only [Option.some.injEq, Prod.mk.injEq] at hs; exact hs.2.symm
        · split at hs
          · simp only [Option.some.injEq, Prod.mk.injEq] at hs; exact hs.2.symm
          · simp only [Option.some.injEq, Prod.mk.injEq] at hs; exact hs.2.symm
          · cases hs
      subst hc
      refine ⟨?_, ?_, ?_, ?_, hi.store, ?_, ?_, ?_⟩
      · simpa [CrlAsked] using hi.crl
      · simpa [SrpAsked] using hi.srp
      · simpa [curveOf] using hi.nid
      · simpa [dhOf] using hi.dh
      · intro h1 h2; exact hi.first h1 (not_mem_cons h2).2
      · simpa [CoapAsked] using hi.coap
      · intro t hm hc; exact mg_keep (by simp [Started]) (by simp [Stopping]) (hi.mg t hm hc)
    | enableCrl =>
      simp only [Option.some.injEq, Prod.mk.injEq] at hs
      obtain ⟨rfl, rfl⟩ := hs
      refine ⟨?_, ?_, ?_, ?_, hi.store, ?_, ?_, ?_⟩
      · simp [CrlAsked]
      · simpa [SrpAsked] using hi.srp
      · simpa [curveOf] using hi.nid
      · simpa [dhOf] using hi.dh
      · intro h1 h2; exact hi.first h1 (not_mem_cons h2).2
      · simpa [CoapAsked] using hi.coap
      · intro t hm hc; exact mg_keep (by simp [Started]) (by simp [Stopping]) (hi.mg t hm hc)
    | enableSrp cb =>
      simp only [Option.some.injEq] at hs
      cases cb with
      | true =>
        simp only [if_true, Prod.mk.injEq] at hs
        obtain ⟨rfl, rfl⟩ := hs
        refine ⟨?_, ?_, ?_, ?_, hi.store, ?_, ?_, ?_⟩
        · simpa [CrlAsked] using hi.crl
        · simp [SrpAsked]
        · simpa [curveOf] using hi.nid
        · simpa [dhOf] using hi.dh
        · intro h1 h2; exact hi.first h1 (not_mem_cons h2).2
        · simpa [CoapAsked] using hi.coap
        · intro t hm hc; exact mg_keep (by simp [Started]) (by simp [Stopping]) (hi.mg t hm hc)
      | false =>
        simp only [Bool.false_eq_true, if_false, Prod.mk.injEq] at hs
        obtain ⟨rfl, rfl⟩ := hs
        refine ⟨?_, ?_, ?_, ?_, hi.store, ?_, ?_, ?_⟩
        · simpa [CrlAsked] using hi.crl
        · simpa [SrpAsked] using hi.srp
        · simpa [curveOf] using hi.nid
        · simpa [dhOf] using hi.dh
        · intro h1 h2; exact hi.first h1 (not_mem_cons h2).2
        · simpa [CoapAsked] using hi.coap
        · intro t hm hc; exact mg_keep (by simp [Started]) (by simp [Stopping]) (hi.mg t hm hc)
    | setCurve n =>
      simp only [Option.some.injEq] at hs
      by_cases hn : n ≤ 0
      · rw [if_pos hn] at hs
        simp only [Prod.mk.injEq] at hs
        obtain ⟨rfl, rfl⟩ := hs
        refine ⟨?_, ?_, ?_, ?_, hi.store, ?_, ?_, ?_⟩
        · simpa [CrlAsked] using hi.crl
        · simpa [SrpAsked] using hi.srp
        · simpa [curveOf, show ¬ 0 < n by omega] using hi.nid
        · simpa [dhOf] using hi.dh
        · intro h1 h2; exact hi.first h1 (not_mem_cons h2).2
        · simpa [CoapAsked] using hi.coap
        · intro t hm hc; exact mg_keep (by simp [Started]) (by simp [Stopping]) (hi.mg t hm hc)
      · rw [if_neg hn] at hs
        simp only [Prod.mk.injEq] at hs
        obtain ⟨rfl, rfl⟩ := hs
        refine ⟨?_, ?_, ?_, ?_, hi.store, ?_, ?_, ?_⟩
        · simpa [CrlAsked] using hi.crl
        · simpa [SrpAsked] using hi.srp
        · simp [curveOf, show 0 < n by omega, show n ≠ 0 by omega]
        · simpa [dhOf] using hi.dh
        · intro h1 h2; exact hi.first h1 (not_mem_cons h2).2
        · simpa [CoapAsked] using hi.coap
        · intro t hm hc; exact mg_keep (by simp [Started]) (by simp [Stopping]) (hi.mg t hm hc)
    | setDh p =>
      cases p with
      | none =>
        simp only [Option.some.injEq, Prod.mk.injEq] at hs
        obtain ⟨rfl, rfl⟩ := hs
        refine ⟨?_, ?_, ?_, ?_, hi.store, ?_, ?_, ?_⟩
        · simpa [CrlAsked] using hi.crl
        · simpa [SrpAsked] using hi.srp
        · simpa [curveOf] using hi.nid
        · simpa [dhOf] using hi.dh
        · intro h1 h2; exact hi.first h1 (not_mem_cons h2).2
        · simpa [CoapAsked] using hi.coap
        · intro t hm hc; exact mg_keep (by simp [Started]) (by simp [Stopping]) (hi.mg t hm hc)
      | some p =>
        simp only [Option.some.injEq, Prod.mk.injEq] at hs
        obtain ⟨rfl, rfl⟩ := hs
        refine ⟨?_, ?_, ?_, ?_, hi.store, ?_, ?_, ?_⟩
        · simpa [CrlAsked] using hi.crl
        · simpa [SrpAsked] using hi.srp
        · simpa [curveOf] using hi.nid
        · exact .inr rfl
        · intro h1 h2; exact ⟨(hi.first h1 (not_mem_cons h2).2).1, rfl⟩
        · simpa [CoapAsked] using hi.coap
        · intro t hm hc; exact mg_keep (by simp [Started]) (by simp [Stopping]) (hi.mg t hm hc)
    | coapStart ok =>
      simp only [coapStart, Option.some.injEq] at hs
      cases ok with
      | true =>
        simp only [if_true, Prod.mk.injEq] at hs
        obtain ⟨rfl, rfl⟩ := hs
        refine ⟨?_, ?_, ?_, ?_, hi.store, ?_, ?_, ?_⟩
        · simpa [CrlAsked] using hi.crl
        · simpa [SrpAsked] using hi.srp
        · simpa [curveOf] using hi.nid
        · simpa [dhOf] using hi.dh
        · intro h1 h2; exact hi.first h1 (not_mem_cons h2).2
        · simp [CoapAsked]
        · intro t hm hc; cases hc
      | false =>
        simp only [Bool.false_eq_true, if_false, Prod.mk.injEq] at hs
        obtain ⟨rfl, rfl⟩ := hs
        refine ⟨?_, ?_, ?_, ?_, hi.store, ?_, ?_, ?_⟩
        · simpa [CrlAsked] using hi.crl
        · simpa [SrpAsked] using hi.srp
        · simpa [curveOf] using hi.nid
        · simpa [dhOf] using hi.dh
        · intro h1 h2; exact hi.first h1 (not_mem_cons h2).2
        · simpa [CoapAsked] using hi.coap
        · intro t hm hc; exact mg_keep (by simp [Started]) (by simp [Stopping]) (hi.mg t hm hc)
    | destroy =>
      simp only [destroy, Option.some.injEq, Prod.mk.injEq] at hs
      obtain ⟨rfl, rfl⟩ := hs
      refine ⟨?_, ?_, ?_, .inl rfl, .inr rfl, ?_, ?_, ?_⟩
      · simpa [CrlAsked] using hi.crl
      · simpa [SrpAsked] using hi.srp
      · simpa [curveOf] using hi.nid
      · intro h1 h2; cases h1
      · simpa [CoapAsked] using hi.coap
      · intro t hm hc; cases hm

/-- Each result of a run was returned by a step from a context that fits the calls before. -/
theorem run_inv {v : Verify} {s0 : List Der} (ops : List Op) {h : Hist} {c : Ctx}
    (hi : Inv s0 h c) {r : Hist} {c' : Ctx} (hr : run v c ops = some (r, c')) :
    Inv s0 (r ++ h) c' ∧ ∀ a op o b, r = a ++ (op, o) :: b →
      ∃ d d', Inv s0 (b ++ h) d ∧ step v d op = some (o, d') := by
  induction ops generalizing h c r c' with
  | nil =>
    simp only [run, Option.some.injEq, Prod.mk.injEq] at hr
    obtain ⟨rfl, rfl⟩ := hr
    exact ⟨hi, by intro a op o b hab; simp at hab⟩
  | cons op ops ih =>
    simp only [run] at hr
    split at hr
    · cases hr
    · rename_i o c1 hs
      rcases hq : run v c1 ops with _ | ⟨q, c2⟩
      · rw [hq] at hr; cases hr
      · rw [hq] at hr
        simp only [Option.map_some, Option.some.injEq, Prod.mk.injEq] at hr
        obtain ⟨rfl, rfl⟩ := hr
        have hi1 := inv_step hi hs
        obtain ⟨h1, h2⟩ := ih hi1 hq
        refine ⟨by simpa using h1, ?_⟩
        intro a op' o' b hab
        rcases List.eq_nil_or_concat b with rfl | ⟨b', e, rfl⟩
        · have := List.append_inj_right' hab rfl
          simp only [List.cons.injEq, Prod.mk.injEq, and_true] at this
          obtain ⟨rfl, rfl⟩ := this
          exact ⟨c, c1, by simpa using hi, hs⟩
        · have h3 : q ++ [(op, o)] = (a ++ (op', o') :: b') ++ [e] := by simpa using hab
          obtain ⟨hq', he⟩ := List.append_inj' h3 rfl
          obtain ⟨d, d', h4, h5⟩ := h2 a op' o' b' hq'
          simp only [List.cons.injEq, and_true] at he
          subst he
          exact ⟨d, d', by simpa using h4, h5⟩

/-- What a handshake with settings in force gives. -/
theorem handshake_allowed {v : Verify} {s0 : List Der} {h : Hist} {t : Settings} {k : Conn}
    {s : Session} (hf : InForce s0 h t) (hs : handshake v t k.hello = some s) :
    Allowed v (t.store.getD []) h k s := by
  unfold handshake at hs
  rw [hf.ver.1, hf.ver.2, hf.ver2.1, hf.ver2.2.1, hf.ver2.2.2] at hs
  dsimp only at hs
  split at hs
  · cases hs
  rename_i hv
  have hmem := @List.mem_of_find?_eq_some _ (usable t k.hello)
  have huse := @List.find?_some _ (usable t k.hello)
  have named : ∀ n, k.hello.suites.find? (usable t k.hello) = some (.named n) →
      ¬ Weak n ∧ ([69, 67, 68, 72, 69, 45] <+: n → curveOf h ∈ k.hello.curves) ∧
        ([68, 72, 69, 45] <+: n → (dhOf h).isSome) := by
    intro n hn
    have hu := huse hn
    simp only [usable, Bool.and_eq_true, Bool.or_eq_true, Bool.not_eq_true',
      List.contains_iff_mem] at hu
    obtain ⟨⟨h1, h2⟩, h3⟩ := hu
    refine ⟨?_, ?_, ?_⟩
    · rcases hf.srp with ⟨he, _⟩ | he
      · rw [he] at h1
        rcases List.mem_append.1 h1 with h1 | h1
        · exact weak_not_listed n h1
        · simp only [List.mem_singleton] at h1
          subst h1
          rintro ⟨w, hw, hi⟩
          have : ∀ w ∈ [[78, 85, 76, 76], [65, 68, 72], [65, 69, 67, 68, 72], [82, 67, 52], [82, 67, 50], [68, 69, 83], [69, 88, 80],
            [77, 68, 53], [80, 83, 75], [76, 79, 87], [83, 69, 69, 68], [73, 68, 69, 65]], ¬ w <:+: [83, 82, 80] := by decide +kernel
          exact this w hw hi
      · rw [he] at h1; exact weak_not_listed n h1
    · intro hp
      rw [← List.isPrefixOf_iff_prefix] at hp
      rw [hp] at h2
      rw [← hf.curve]
      simpa using h2
    · intro hp
      rw [← List.isPrefixOf_iff_prefix] at hp
      rw [hp] at h3
      rcases hf.dh with hd | hd
      · rw [hd] at h3; simp at h3
      · rw [← hd]; simpa using h3
  split at hs
  · cases hs
  · rename_i hfnd
    simp only [Option.some.injEq] at hs
    subst hs
    refine ⟨⟨by dsimp only; omega, by dsimp only; omega, by dsimp only; omega⟩, hmem hfnd, ?_, by simp, by simp,
      by simp, by simp, by simp⟩
    intro _
    refine ⟨?_, rfl⟩
    rcases hf.srp with ⟨_, ha⟩ | he
    · exact ha
    · have hu := huse hfnd
      simp only [usable, he] at hu
      exact absurd hu (by decide +kernel)
  · rename_i n hfnd
    obtain ⟨n1, n2, n3⟩ := named n hfnd
    split at hs
    · rename_i hc
      simp only [Bool.false_eq_true, if_false, Option.some.injEq] at hs
      subst hs
      refine ⟨⟨by dsimp only; omega, by dsimp only; omega, by dsimp only; omega⟩, hmem hfnd, by simp, ?_, ?_, ?_,
        by simp, fun _ => .inr hc⟩
      · intro m hm; cases hm; exact n1
      · intro m hm; cases hm; exact n2
      · intro m hm; cases hm; exact n3
    · rename_i d hc
      split at hs
      · cases hs
      · rename_i hver
        simp only [Option.some.injEq] at hs
        subst hs
        refine ⟨⟨by dsimp only; omega, by dsimp only; omega, by dsimp only; omega⟩, hmem hfnd, by simp, ?_, ?_, ?_,
          ?_, by simp⟩
        · intro m hm; cases hm; exact n1
        · intro m hm; cases hm; exact n2
        · intro m hm; cases hm; exact n3
        · intro d' hd'
          cases hd'
          exact ⟨hc, t.crl, hf.crl, by simpa using hver⟩

/-! ## Examples -/

/-- Everything succeeds. -/
def exLib : StartLib := ⟨true, true, fun n => decide (n = 415 ∨ n = 715), true, true, true⟩

/-- A client with the certificate `[7]`. -/
def exHello : Hello := ⟨13, [.named [69, 67, 68, 72, 69, 45, 82, 83, 65, 45, 65, 69, 83, 49, 50, 56, 45, 71, 67, 77, 45, 83, 72, 65, 50, 53, 54]], [415], some [7]⟩

/-- A connection of it. -/
def exConn : Conn := ⟨true, true, true, exHello, none, true⟩

/-- A certificate verifies if its first byte is one of the trusted certificates, and, with CRL
checks, if it is not revoked. -/
def exVerify : Verify := fun trust crl _ d =>
  (d.take 1 ∈ trust) && !(crl && d.length > 1)

/-! ## C106 -/

/-- C106: whatever calls an application makes on the context of a server or a proxy, every
connection over HTTPS that is served has a session with TLS 1.1 or 1.2, a suite that is not weak,
SRP only if the application registered a callback, ephemeral keys with the curve chosen, and a
client certificate only if that was verified against the certificates given to the initialisation,
with CRL checks if and only if they were asked for.  The settings are those made before the last
successful start, and there was no stop since then. -/
theorem C106_sessions {v : Verify} (hv : ∀ crl n d, v [] crl n d = false)
    {proxy : Bool} {trust : List Der} {ops : List Op} {h : Hist} {c : Ctx}
    (hr : run v (Ctx.init proxy trust) ops = some (h, c)) {later before : Hist} {k : Conn}
    {e : EstErr} {s : Session} (hh : h = later ++ (.handle k, ⟨e, some s⟩) :: before)
    (hc : ¬ CoapAsked before) :
    e = .none ∧ ∃ between st setup, before = between ++ st :: setup ∧ Started st ∧
      (∀ x ∈ between, ¬ Started x ∧ ¬ Stopping x) ∧ Allowed v trust setup k s := by
  obtain ⟨_, h2⟩ := run_inv ops (inv_init proxy trust) hr
  obtain ⟨d, d', hi, hs⟩ := h2 _ _ _ _ hh
  rw [List.append_nil] at hi
  have hcoap : d.coap = false := by
    cases hq : d.coap
    · rfl
    · exact absurd (hi.coap.1 hq) hc
  simp only [step, handle, hcoap, Bool.false_eq_true, if_false] at hs
  split at hs
  · cases hs
  split at hs
  · simp [ret] at hs
  · rename_i t ht
    simp only [Option.some.injEq, Prod.mk.injEq] at hs
    obtain ⟨between, st, setup, hb, hst, hn, hf⟩ := hi.mg t ht hcoap
    have key : ∀ x, handshake v t k.hello = some x → x = s →
        Allowed v trust setup k s := by
      intro x hx hxs
      subst hxs
      have ha := handshake_allowed hf hx
      rcases hf.store with he | he
      · rw [he] at ha; exact ha
      · rw [he] at ha
        refine ⟨ha.version, ha.offered, ha.srp, ha.suite, ha.ecdhe, ha.dhe, ?_, ha.noCert⟩
        intro d hd
        obtain ⟨_, b, _, hb⟩ := ha.cert d hd
        rw [Option.getD_none, hv] at hb
        cases hb
    have hs1 := hs.1
    simp only [handleHttp] at hs1
    split at hs1
    · simp [ret] at hs1
    split at hs1
    · simp [ret] at hs1
    split at hs1
    · simp [ret] at hs1
    split at hs1
    · split at hs1
      · simp [ret] at hs1
      · rename_i x hx
        simp only [Out.mk.injEq, Option.some.injEq] at hs1
        exact ⟨hs1.1.symm, between, st, setup, hb, hst, hn, key x hx hs1.2⟩
    · simp only [Out.mk.injEq] at hs1
      exact ⟨hs1.1.symm, between, st, setup, hb, hst, hn, key s hs1.2 rfl⟩
    · simp [ret] at hs1
    · simp [ret] at hs1
    · simp [ret] at hs1
    · simp [ret] at hs1
  · cases hs

/-- The hypotheses of `C106_sessions` are met by a served connection. -/
example : (run exVerify (Ctx.init false [[7]]) [.enableCrl, .start exLib, .handle exConn]).map
    (fun r => r.1.map (·.2)) =
    some [⟨.none, some ⟨12, .named [69, 67, 68, 72, 69, 45, 82, 83, 65, 45, 65, 69, 83, 49, 50, 56, 45, 71, 67, 77, 45, 83, 72, 65, 50, 53, 54], some [7]⟩⟩, ⟨.none, none⟩,
      ⟨.none, none⟩] := by
  decide +kernel

example : ∀ crl n d, exVerify [] crl n d = false := by
  intro crl n d; simp [exVerify]

/-! ### What works -/

/-- A call that only configures. -/
def Configures : Op → Prop
  | .enableCrl | .enableSrp _ | .setCurve _ | .setDh _ => True
  | _ => False

/-- Nothing fails while the service is started with this curve. -/
def Good (l : StartLib) (curve : Int) : Prop :=
  l.mem ∧ l.sslCtx ∧ l.curve curve ∧ l.ciphers ∧ l.useCert ∧ l.useKey

/-- The client fits the settings that `h` made: the suite it likes most is in the list and can be
used, and its certificate, if it has one, is verified. -/
structure Fits (v : Verify) (trust : List Der) (h : Hist) (k : Hello) : Prop where
  version : 11 ≤ k.version
  suite : ∃ n rest, k.suites = .named n :: rest ∧ n ∈ cipherList ∧
    ([69, 67, 68, 72, 69, 45] <+: n → curveOf h ∈ k.curves) ∧ ([68, 72, 69, 45] <+: n → (dhOf h).isSome)
  cert : ∀ d, k.cert = some d →
    ∀ crl : Bool, (crl = true ↔ CrlAsked h) → v trust crl 6 d = true

theorem run_append {v : Verify} (a b : List Op) (c : Ctx) {h : Hist} {c1 : Ctx}
    (ha : run v c a = some (h, c1)) :
    run v c (a ++ b) = (run v c1 b).map fun r => (r.1 ++ h, r.2) := by
  induction a generalizing c h c1 with
  | nil =>
    simp only [run, Option.some.injEq, Prod.mk.injEq] at ha
    obtain ⟨rfl, rfl⟩ := ha
    simp
  | cons op a ih =>
    simp only [run] at ha
    simp only [List.cons_append, run]
    split at ha
    · cases ha
    · rename_i o c2 hs
      rcases hq : run v c2 a with _ | ⟨q, c3⟩
      · rw [hq] at ha; cases ha
      · rw [hq] at ha
        simp only [Option.map_some, Option.some.injEq, Prod.mk.injEq] at ha
        obtain ⟨rfl, rfl⟩ := ha
        rw [ih c2 hq]
        cases run v c3 b with
        | none => rfl
        | some r => simp

theorem configure_run {v : Verify} (ops : List Op) (ho : ∀ op ∈ ops, Configures op) (c : Ctx)
    (hd : c.dead = false) : ∃ h c', run v c ops = some (h, c') ∧ c'.dead = false ∧
      c'.coap = c.coap ∧ c'.mg = c.mg ∧ (∀ e ∈ h, Configures e.1) := by
  induction ops generalizing c with
  | nil => exact ⟨[], c, rfl, hd, rfl, rfl, by simp⟩
  | cons op ops ih =>
    have h1 := ho op (by simp)
    have : ∃ o c1, step v c op = some (o, c1) ∧ c1.dead = false ∧ c1.coap = c.coap ∧
        c1.mg = c.mg := by
      cases op with
      | enableCrl => exact ⟨ret .none, { c with crl := true }, by simp [step, hd], hd, rfl, rfl⟩
      | enableSrp cb =>
        cases cb
        · exact ⟨ret .invalidParameters, c, by simp [step, hd], hd, rfl, rfl⟩
        · exact ⟨ret .none, { c with srp := true }, by simp [step, hd], hd, rfl, rfl⟩
      | setCurve n =>
        by_cases hn : n ≤ 0
        · exact ⟨ret .invalidParameters, c, by simp [step, hd, hn], hd, rfl, rfl⟩
        · exact ⟨ret .none, { c with nid := n }, by simp [step, hd, hn], hd, rfl, rfl⟩
      | setDh p =>
        cases p with
        | none => exact ⟨ret .invalidParameters, c, by simp [step, hd], hd, rfl, rfl⟩
        | some p =>
          exact ⟨ret .none, { c with dh := some p, lostDh := c.lostDh + if c.dh.isSome then 1 else 0 },
            by simp [step, hd], hd, rfl, rfl⟩
      | start l => cases h1
      | stop => cases h1
      | handle k => cases h1
      | coapStart b => cases h1
      | destroy => cases h1
    obtain ⟨o, c1, hs, hd1, hc1, hm1⟩ := this
    obtain ⟨h, c', hr, h2, h3, h4, h5⟩ := ih (fun x hx => ho x (by simp [hx])) c1 hd1
    refine ⟨h ++ [(op, o)], c', by simp [run, hs, hr], h2, h3.trans hc1, h4.trans hm1, ?_⟩
    intro e he
    rcases List.mem_append.1 he with he | he
    · exact h5 e he
    · simp only [List.mem_singleton] at he; subst he; exact h1

/-- C106, the part that holds about clients being served: after any configuration and one start
without failures, every client that fits the settings is served.  What is missing: this does not
hold after a second start (`C106_restart_false`) and not after a start that failed
(`C106_failed_start_false`). -/
theorem C106_first_start_serves_partial (v : Verify) (proxy : Bool) (trust : List Der)
    (cfg : List Op) (hcfg : ∀ op ∈ cfg, Configures op) :
    ∃ h c, run v (Ctx.init proxy trust) cfg = some (h, c) ∧
      ∀ l k, Good l (curveOf h) → k.peername → k.mem → k.sslNew → k.stop = none →
        Fits v trust h k.hello →
        ∃ s c', run v (Ctx.init proxy trust) (cfg ++ [.start l, .handle k]) =
          some ((.handle k, ⟨.none, some s⟩) :: (.start l, ⟨.none, none⟩) :: h, c') := by
  obtain ⟨h, c, hr, hd, hc, hm, he⟩ := configure_run (v := v) cfg hcfg (Ctx.init proxy trust) rfl
  refine ⟨h, c, hr, ?_⟩
  intro l k hl hp hmem hnew hstop hf
  have hi := (run_inv cfg (inv_init proxy trust) hr).1
  rw [List.append_nil] at hi
  have hns : ∀ e ∈ h, ¬ Starting e := by
    intro e hm hs
    have := he e hm
    rcases e with ⟨op, o⟩
    cases op <;> simp_all [Starting, Configures]
  obtain ⟨hstore, hdh⟩ := hi.first hd hns
  have hfo := inForce_of hi hd
  have hst : mgStart l c = (some (settingsOf c), { c with store := none, dh := none }) := by
    have h3 : l.curve (settingsOf c).curve = true := by rw [hfo.curve]; exact hl.2.2.1
    simp [mgStart, hl.1, hl.2.1, h3, hl.2.2.2.1, hl.2.2.2.2.1, hl.2.2.2.2.2]
  have hs1 : step v c (.start l) = some (⟨.none, none⟩,
      { c with store := none, dh := none, mg := .live (settingsOf c), lostMg := c.lostMg }) := by
    simp [step, hd, start, hst, hm, Ctx.init, running, ret]
  obtain ⟨n, rest, hsu, hin, hec, hdhe⟩ := hf.suite
  have hmem' : n ∈ (settingsOf c).suites := by
    show n ∈ (if c.srp then cipherListSrp else cipherList)
    split
    · exact List.mem_append_left _ hin
    · exact hin
  have huse : usable (settingsOf c) k.hello (.named n) = true := by
    simp only [usable, Bool.and_eq_true, Bool.or_eq_true, Bool.not_eq_true',
      List.contains_iff_mem]
    refine ⟨⟨hmem', ?_⟩, ?_⟩
    · cases hx : List.isPrefixOf [69, 67, 68, 72, 69, 45] n
      · exact .inl rfl
      · right
        rw [hfo.curve]
        exact hec (List.isPrefixOf_iff_prefix.1 hx)
    · cases hx : List.isPrefixOf [68, 72, 69, 45] n
      · exact .inl rfl
      · right
        have := hdhe (List.isPrefixOf_iff_prefix.1 hx)
        rw [← hdh] at this
        exact this
  have hfind : k.hello.suites.find? (usable (settingsOf c) k.hello) = some (.named n) := by
    rw [hsu]; simp [huse]
  have hhs : ∃ s, handshake v (settingsOf c) k.hello = some s := by
    have hv : ¬ min k.hello.version 12 < 11 := by have := hf.version; omega
    unfold handshake
    rw [hfind]
    rw [show (settingsOf c).maxVer = 12 from rfl, show (settingsOf c).minVer = 11 from rfl]
    simp only [if_neg hv]
    cases hct : k.hello.cert with
    | none => exact ⟨_, rfl⟩
    | some d =>
      have h4 := hf.cert d hct c.crl hi.crl
      have h5 : v ((settingsOf c).store.getD []) (settingsOf c).crl (settingsOf c).depth d = true := by
        show v (c.store.getD []) c.crl 6 d = true
        rw [hstore]; exact h4
      simp only [h5]
      exact ⟨_, rfl⟩
  obtain ⟨s, hs⟩ := hhs
  have hcc : c.coap = false := hc
  refine ⟨s, { c with store := none, dh := none, mg := .live (settingsOf c) }, ?_⟩
  rw [run_append cfg _ _ hr]
  have hs2 : step v { c with store := none, dh := none, mg := .live (settingsOf c) } (.handle k) =
      some (⟨.none, some s⟩, { c with store := none, dh := none, mg := .live (settingsOf c) }) := by
    simp [step, hd, handle, hcc, handleHttp, hp, hmem, hnew, hstop, hs]
  simp [run, hs1, hs2]

/-- The hypotheses of `C106_first_start_serves_partial` are met. -/
example : (∀ op ∈ [Op.setDh (some 1), .setCurve 715], Configures op) ∧ Good exLib 715 ∧
    Fits exVerify [[7]] [] exHello := by
  refine ⟨by simp [Configures], by simp [Good, exLib], ⟨by simp [exHello], ?_, ?_⟩⟩
  · exact ⟨_, [], rfl, by decide +kernel, fun _ => by decide, by decide +kernel⟩
  · intro d hd crl hc
    cases hd
    have : crl = false := by
      cases crl
      · rfl
      · obtain ⟨o, ho⟩ := hc.1 rfl; cases ho
    subst this; decide

/-! ### Memory -/

/-- The service is running: it was started, and not stopped since. -/
def Runs : Hist → Prop
  | [] => False
  | (.start _, o) :: h => o.ret = .none ∨ Runs h
  | (.stop, _) :: _ => False
  | (.destroy, _) :: _ => False
  | _ :: h => Runs h

/-- Diffie-Hellman parameters were given, and no start succeeded since. -/
def DhWaits : Hist → Prop
  | [] => False
  | (.setDh (some _), _) :: _ => True
  | (.start _, o) :: h => o.ret ≠ .none ∧ DhWaits h
  | (.destroy, _) :: _ => False
  | _ :: h => DhWaits h

/-- A call that is in order after `h`: the service is only started if it does not run, stopped and
given connections while it runs, and stopped before the context is released, after which nothing is
called; Diffie-Hellman parameters are not given twice before a start; CoAP is not used. -/
def InOrder (h : Hist) (op : Op) : Prop :=
  (¬ ∃ o, (Op.destroy, o) ∈ h) ∧
  match op with
  | .start _ => ¬ Runs h
  | .stop => Runs h
  | .handle _ => Runs h
  | .destroy => ¬ Runs h
  | .setDh (some _) => ¬ DhWaits h
  | .coapStart _ => False
  | _ => True

/-- All calls are in order. -/
def Orderly : Hist → Prop
  | [] => True
  | e :: h => InOrder h e.1 ∧ Orderly h

/-- The context fits an orderly history. -/
structure Safe (h : Hist) (c : Ctx) : Prop where
  dead : c.dead = true ↔ ∃ o, (Op.destroy, o) ∈ h
  runs : (∃ t, c.mg = .live t) ↔ Runs h
  dh : c.dh.isSome = true → DhWaits h
  coap : c.coap = false ∧ c.coapCtx = false
  lost : c.lostMg = 0 ∧ c.lostDh = 0 ∧ c.lostCoap = 0

theorem not_live_running {m : Mg} (h : ¬ ∃ t, m = .live t) : running m = 0 := by
  cases m with
  | null => rfl
  | live t => exact absurd ⟨t, rfl⟩ h
  | stale => rfl

theorem safe_step {v : Verify} {h : Hist} {c : Ctx} {op : Op} (hs : Safe h c)
    (ho : InOrder h op) : ∃ o c', step v c op = some (o, c') ∧ Safe ((op, o) :: h) c' := by
  obtain ⟨hnd, ho⟩ := ho
  have hd : c.dead = false := by
    cases hq : c.dead
    · rfl
    · exact absurd (hs.dead.1 hq) hnd
  obtain ⟨l1, l2, l3⟩ := hs.lost
  cases op with
  | start l =>
    have hl : running c.mg = 0 := not_live_running (fun hx => ho (hs.runs.1 hx))
    obtain ⟨st, d, h2, -, hdh, -⟩ := mgStart_facts l c
    rcases hr : mgStart l c with ⟨r, cc⟩
    rw [hr] at h2
    dsimp only at h2
    subst h2
    cases r with
    | none =>
      refine ⟨ret .noSslCtx, _, by simp only [step, hd, start, hr, Bool.false_eq_true, if_false]; rfl, ?_⟩
      refine ⟨?_, ?_, ?_, hs.coap, hs.lost⟩
      · have := hs.dead; rw [hd] at this; simpa using this
      · simpa [Runs, ret] using hs.runs
      · intro hx
        refine ⟨by simp [ret], hs.dh ?_⟩
        rcases hdh with rfl | rfl
        · exact hx
        · cases hx
    | some t =>
      have hdn : d = none := by
        unfold mgStart at hr
        dsimp only at hr
        repeat' split at hr
        · cases hr
        · cases hr
        · cases hr
        · simp only [Prod.mk.injEq, Ctx.mk.injEq] at hr; exact hr.2.2.2.1.symm
      refine ⟨ret .none, _, by simp only [step, hd, start, hr, Bool.false_eq_true, if_false]; rfl, ?_⟩
      refine ⟨?_, ?_, ?_, hs.coap, ?_⟩
      · have := hs.dead; rw [hd] at this; simpa using this
      · simp [Runs, ret]
      · intro hx; rw [hdn] at hx; cases hx
      · exact ⟨by simp [l1, hl], l2, l3⟩
  | stop =>
    obtain ⟨t, ht⟩ := hs.runs.2 ho
    refine ⟨ret .none, { c with mg := .stale }, by simp [step, hd, stop, hs.coap.1, mgStop, ht], ?_⟩
    refine ⟨?_, ?_, ?_, hs.coap, hs.lost⟩
    · simpa using hs.dead
    · simp [Runs]
    · simpa [DhWaits] using hs.dh
  | handle k =>
    obtain ⟨t, ht⟩ := hs.runs.2 ho
    refine ⟨handleHttp v t k, c, by simp [step, hd, handle, hs.coap.1, ht], ?_⟩
    refine ⟨?_, ?_, ?_, hs.coap, hs.lost⟩
    · simpa using hs.dead
    · simpa [Runs] using hs.runs
    · simpa [DhWaits] using hs.dh
  | enableCrl =>
    refine ⟨ret .none, { c with crl := true }, by simp [step, hd], ?_⟩
    refine ⟨?_, ?_, ?_, hs.coap, hs.lost⟩
    · simpa using hs.dead
    · simpa [Runs] using hs.runs
    · simpa [DhWaits] using hs.dh
  | enableSrp cb =>
    cases cb with
    | false =>
      refine ⟨ret .invalidParameters, c, by simp [step, hd], ?_⟩
      refine ⟨?_, ?_, ?_, hs.coap, hs.lost⟩
      · simpa using hs.dead
      · simpa [Runs] using hs.runs
      · simpa [DhWaits] using hs.dh
    | true =>
      refine ⟨ret .none, { c with srp := true }, by simp [step, hd], ?_⟩
      refine ⟨?_, ?_, ?_, hs.coap, hs.lost⟩
      · simpa using hs.dead
      · simpa [Runs] using hs.runs
      · simpa [DhWaits] using hs.dh
  | setCurve n =>
    by_cases hn : n ≤ 0
    · refine ⟨ret .invalidParameters, c, by simp [step, hd, hn], ?_⟩
      refine ⟨?_, ?_, ?_, hs.coap, hs.lost⟩
      · simpa using hs.dead
      · simpa [Runs] using hs.runs
      · simpa [DhWaits] using hs.dh
    · refine ⟨ret .none, { c with nid := n }, by simp [step, hd, hn], ?_⟩
      refine ⟨?_, ?_, ?_, hs.coap, hs.lost⟩
      · simpa using hs.dead
      · simpa [Runs] using hs.runs
      · simpa [DhWaits] using hs.dh
  | setDh p =>
    cases p with
    | none =>
      refine ⟨ret .invalidParameters, c, by simp [step, hd], ?_⟩
      refine ⟨?_, ?_, ?_, hs.coap, hs.lost⟩
      · simpa using hs.dead
      · simpa [Runs] using hs.runs
      · simpa [DhWaits] using hs.dh
    | some p =>
      have hdn : c.dh = none := by
        cases hq : c.dh with
        | none => rfl
        | some x => exact absurd (hs.dh (by rw [hq]; rfl)) ho
      refine ⟨ret .none, { c with dh := some p }, by simp [step, hd, hdn], ?_⟩
      refine ⟨?_, ?_, ?_, hs.coap, hs.lost⟩
      · simpa using hs.dead
      · simpa [Runs] using hs.runs
      · intro _; trivial
  | coapStart b => cases ho
  | destroy =>
    have hl : running c.mg = 0 := not_live_running (fun hx => ho (hs.runs.1 hx))
    refine ⟨ret .none, _, by simp only [step, hd, destroy, Bool.false_eq_true, if_false]; rfl, ?_⟩
    refine ⟨by simp, by simp [Runs], ?_, ⟨hs.coap.1, rfl⟩, ?_⟩
    · intro hx; cases hx
    · exact ⟨by simp [l1, hl], l2, l3⟩

/-- C106, the part that holds about memory: unless there is a call that is out of order after those
before, every call is defined, and no service, no parameters and no context of libcoap are lost.  What is missing:
calls out of order (`C106_use_after_stop_false`), and CoAP. -/
theorem C106_orderly_calls_partial (v : Verify) (proxy : Bool) (trust : List Der) (ops : List Op) :
    (∃ h c, run v (Ctx.init proxy trust) ops = some (h, c) ∧
      c.lostMg = 0 ∧ c.lostDh = 0 ∧ c.lostCoap = 0) ∨
    ∃ a op b h c, ops = a ++ op :: b ∧ run v (Ctx.init proxy trust) a = some (h, c) ∧
      Orderly h ∧ ¬ InOrder h op := by
  have key : ∀ (ops : List Op) (h0 : Hist) (c0 : Ctx), Orderly h0 → Safe h0 c0 →
      (∃ h c, run v c0 ops = some (h, c) ∧ Safe (h ++ h0) c) ∨
      ∃ a op b h c, ops = a ++ op :: b ∧ run v c0 a = some (h, c) ∧
        Orderly (h ++ h0) ∧ ¬ InOrder (h ++ h0) op := by
    intro ops
    induction ops with
    | nil => intro h0 c0 _ hs; exact .inl ⟨[], c0, rfl, hs⟩
    | cons op ops ih =>
      intro h0 c0 hor hs
      by_cases hio : InOrder h0 op
      · obtain ⟨o, c1, hst, hs1⟩ := safe_step (v := v) hs hio
        rcases ih ((op, o) :: h0) c1 ⟨hio, hor⟩ hs1 with ⟨h, c, hr, hsf⟩ | ⟨a, op', b, h, c, he, hr, hno⟩
        · exact .inl ⟨h ++ [(op, o)], c, by simp [run, hst, hr], by simpa using hsf⟩
        · exact .inr ⟨op :: a, op', b, h ++ [(op, o)], c, by simp [he], by simp [run, hst, hr],
            by simpa using hno.1, by simpa using hno.2⟩
      · exact .inr ⟨[], op, ops, [], c0, rfl, rfl, hor, hio⟩
  have h0 : Safe [] (Ctx.init proxy trust) :=
    ⟨by simp [Ctx.init], by simp [Ctx.init, Runs], by simp [Ctx.init], by simp [Ctx.init],
      by simp [Ctx.init]⟩
  rcases key ops [] (Ctx.init proxy trust) trivial h0 with ⟨h, c, hr, hs⟩ | hx
  · exact .inl ⟨h, c, hr, hs.lost⟩
  · exact .inr (by simpa using hx)

/-- A server that is configured, started, used, stopped, started again, stopped and released. -/
example : (run exVerify (Ctx.init false [[7]]) [.setDh (some 1), .start exLib, .handle exConn, .stop,
    .setDh (some 1), .start exLib, .stop, .destroy]).map
      (fun r => (r.2.lostMg, r.2.lostDh, r.1.length)) = some (0, 0, 8) := by
  decide +kernel

example : Orderly [(.stop, ret .none), (.handle exConn, ret .none), (.start exLib, ret .none)] := by
  simp [Orderly, InOrder, Runs, ret]

/-! ### What does not -/

/-- C106, the property does not hold: after a stop and a second start the server trusts no
certificate, so the client that was served before is refused; the Diffie-Hellman parameters are
gone too. -/
theorem C106_restart_false :
    ((run exVerify (Ctx.init false [[7]])
        [.start exLib, .handle exConn, .stop, .start exLib, .handle exConn]).map
      fun r => r.1.map fun e => (e.2.ret, e.2.session.isSome)) =
      some [(.unknown, false), (.none, false), (.none, false), (.none, true), (.none, false)] ∧
    (run exVerify (Ctx.init false [[7]])
        [.setDh (some 5), .start exLib, .stop, .start exLib]).map (fun r => r.2.mg) =
      some (.live { settingsOf (Ctx.init false [[7]]) with store := none, dh := none }) := by
  decide +kernel

/-- C106, the property does not hold: a curve that OpenSSL does not know is accepted by
`est_server_set_ecdhe_curve`.  The start fails, and with it the trusted certificates are gone: after
the curve was corrected, the start succeeds, but clients with a certificate are refused. -/
theorem C106_failed_start_false :
    (run exVerify (Ctx.init false [[7]])
        [.setCurve 9999, .start exLib, .setCurve 415, .start exLib, .handle exConn]).map
      (fun r => r.1.map fun e => (e.2.ret, e.2.session.isSome)) =
      some [(.unknown, false), (.none, false), (.none, false), (.noSslCtx, false),
        (.none, false)] := by
  decide +kernel

/-- C106, the property does not hold: stopping a server twice, or handing a connection to a server
that was stopped, uses memory that was released. -/
theorem C106_use_after_stop_false :
    run exVerify (Ctx.init false [[7]]) [.start exLib, .stop, .stop] = none ∧
    run exVerify (Ctx.init false [[7]]) [.start exLib, .stop, .handle exConn] = none ∧
    run exVerify (Ctx.init true [[7]]) [.start exLib, .stop, .stop] = none := by
  refine ⟨rfl, rfl, rfl⟩

/-- C106, the property does not hold: a second start without a stop, a second setting of the
Diffie-Hellman parameters, and a second start with CoAP each lose what was there. -/
theorem C106_lost_false :
    (run exVerify (Ctx.init false [[7]]) [.start exLib, .start exLib, .stop, .destroy]).map
      (fun r => r.2.lostMg) = some 1 ∧
    (run exVerify (Ctx.init false [[7]]) [.setDh (some 1), .setDh (some 2), .destroy]).map
      (fun r => r.2.lostDh) = some 1 ∧
    (run exVerify (Ctx.init false [[7]]) [.coapStart true, .coapStart true, .destroy]).map
      (fun r => r.2.lostCoap) = some 1 := by
  decide +kernel

/-- C106, the property does not hold: a proxy that works with CoAP goes on after
`est_proxy_stop`, which returns success. -/
theorem C106_coap_proxy_stop_false :
    (run exVerify (Ctx.init true [[7]]) [.coapStart true, .stop, .handle exConn]).map
      (fun r => r.1.map fun e => (e.2.ret, e.2.session.isSome)) =
      some [(.none, true), (.none, false), (.none, false)] ∧
    (run exVerify (Ctx.init false [[7]]) [.coapStart true, .stop, .handle exConn]).map
      (fun r => r.1.map fun e => (e.2.ret, e.2.session.isSome)) =
      some [(.noCtx, false), (.none, false), (.none, false)] := by
  decide +kernel

/-- C106, the property does not hold: with CoAP, `est_enable_crl` returns success, but a client
is served that the CRL check would not pass for want of a CRL. -/
theorem C106_coap_crl_false :
    (run exVerify (Ctx.init false [[7]])
        [.enableCrl, .coapStart true, .handle { exConn with hello := ⟨12, [], [], some [7, 7]⟩ }]).map
      (fun r => r.1.map fun e => (e.2.ret, e.2.session.isSome)) =
      some [(.none, true), (.none, false), (.none, false)] ∧
    exVerify [[7]] true 7 [7, 7] = false := by
  decide +kernel

end Verif.Life
