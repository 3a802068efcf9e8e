import Verif.CoapStartSpec
import Verif.ClientRespProps

/-!
# C136: starting and stopping the CoAP server
-/
namespace Verif.CoapStart

/-! ## Listening -/

theorem bind_some (w : World) (e : Est) (l : List Addr) (c c' : Coap) (b b' : Book) (h : bind w e l c b = (some c', b')) :
    c'.pki = c.pki ∧ c'.app = c.app ∧ c'.events = c.events ∧ c'.resources = c.resources ∧ (∃ n, c'.endpoints = n ++ c.endpoints ∧
      ∀ p ∈ n, p.addr ∈ l ∧ Usable p.addr ∧ w.sock p.addr = some p.fd ∧ p.max = e.max) := by
  induction l generalizing c b with
  | nil =>
    unfold bind at h
    cases h
    exact ⟨rfl, rfl, rfl, rfl, [], rfl, fun p hp => by cases hp⟩
  | cons a l ih =>
    have skip : bind w e l c b = (some c', b') → c'.pki = c.pki ∧ c'.app = c.app ∧ c'.events = c.events ∧ c'.resources = c.resources ∧
        (∃ n, c'.endpoints = n ++ c.endpoints ∧ ∀ p ∈ n, p.addr ∈ a :: l ∧ Usable p.addr ∧ w.sock p.addr = some p.fd ∧ p.max = e.max) := by
      intro h
      obtain ⟨h1, h2, h3, h4, n, h5, h6⟩ := ih c b h
      exact ⟨h1, h2, h3, h4, n, h5, fun p hp => ⟨List.mem_cons_of_mem _ (h6 p hp).1, (h6 p hp).2⟩⟩
    unfold bind at h
    by_cases g1 : a.len ≤ 28
    · rw [if_pos g1] at h
      by_cases g2 : a.len = 0
      · rw [if_pos g2] at h; cases h
      · rw [if_neg g2] at h
        by_cases g3 : a.family = 2 ∨ a.family = 10
        · rw [if_pos g3] at h
          by_cases g4 : w.dtls = true
          · rw [if_pos g4] at h
            cases hs : w.sock a with
            | none => rw [hs] at h; cases h
            | some fd =>
              rw [hs] at h
              dsimp only at h
              obtain ⟨h1, h2, h3, h4, n, h5, h6⟩ := ih _ _ h
              refine ⟨h1, h2, h3, h4, n ++ [⟨a, fd, e.max⟩], by rw [h5]; simp, ?_⟩
              intro p hp
              rcases List.mem_append.1 hp with hp | hp
              · exact ⟨List.mem_cons_of_mem _ (h6 p hp).1, (h6 p hp).2⟩
              · cases List.mem_singleton.1 hp
                exact ⟨List.mem_cons_self, ⟨by dsimp only; omega, g1, g3⟩, hs, rfl⟩
          · rw [if_neg g4] at h
            exact skip h
        · rw [if_neg g3] at h
          cases h
          exact ⟨rfl, rfl, rfl, rfl, [], rfl, fun p hp => by cases hp⟩
    · rw [if_neg g1] at h
      exact skip h

theorem bind_all (w : World) (e : Est) (l : List Addr) (c c' : Coap) (b b' : Book) (hd : w.dtls = true) (hl : ∀ a ∈ l, Usable a)
    (h : bind w e l c b = (some c', b')) : ∃ n, c'.endpoints = n ++ c.endpoints ∧ n.map (·.addr) = l.reverse := by
  induction l generalizing c b with
  | nil =>
    unfold bind at h
    cases h
    exact ⟨[], rfl, rfl⟩
  | cons a l ih =>
    obtain ⟨u1, u2, u3⟩ := hl a List.mem_cons_self
    unfold bind at h
    rw [if_pos u2, if_neg (by omega), if_pos u3, if_pos hd] at h
    cases hs : w.sock a with
    | none => rw [hs] at h; cases h
    | some fd =>
      rw [hs] at h
      dsimp only at h
      obtain ⟨n, h5, h6⟩ := ih _ _ (fun x hx => hl x (List.mem_cons_of_mem _ hx)) h
      exact ⟨n ++ [⟨a, fd, e.max⟩], by rw [h5]; simp, by simp [h6]⟩

theorem getContext_some (w : World) (e : Est) (port : List Nat) (c : Coap) (b b' : Book) (h : getContext w e port b = (some c, b')) :
    ∃ l, w.ctxNew = true ∧ w.pki = true ∧ w.resolve port = some l ∧
      bind w e l { pki := some (pkiOf e) } { b with made := b.made + 1, lists := b.lists + 1 } = (some c, b') := by
  unfold getContext at h
  by_cases g1 : w.ctxNew = true
  · by_cases g2 : w.pki = true
    · simp only [g1, g2, Bool.not_true, Bool.false_eq_true, if_false] at h
      cases hr : w.resolve port with
      | none => rw [hr] at h; cases h
      | some l =>
        rw [hr] at h
        exact ⟨l, g1, g2, rfl, h⟩
    · simp [g1, g2] at h
  · simp [g1] at h

/-- What a start that succeeded has made. -/
theorem start_some (w : World) (e e' : Est) (port : Int) (b b' : Book) (h : start w e port b = (.none, e', b')) :
    0 ≤ port ∧ port ≤ 65535 ∧ e.mode ≠ .client ∧ ∃ c, getContext w { e with portStr := ClientResp.decimal port.toNat, portNum := port } (ClientResp.decimal port.toNat) b = (some c, b') ∧
      e' = { e with portStr := ClientResp.decimal port.toNat, portNum := port, coap := some { c with app := true, events := true, resources := resources }, overCoap := true, httpAuth := false } := by
  unfold start at h
  by_cases g1 : e.mode ≠ .server ∧ e.mode ≠ .proxy
  · rw [if_pos g1] at h; cases h
  · rw [if_neg g1] at h
    by_cases g2 : port < 0 ∨ port > 65535
    · rw [if_pos g2] at h; cases h
    · rw [if_neg g2] at h
      dsimp only at h
      refine ⟨by omega, by omega, ?_, ?_⟩
      · intro hm
        rw [hm] at g1
        exact g1 ⟨by decide, by decide⟩
      · split at h
        · cases h
        · rename_i c b2 hg
          cases h
          exact ⟨c, hg, rfl⟩

/-- A server that was started listens with DTLS at every address of the resolver for its port, demands certificates, and keeps to the
limit of sessions; provided the addresses are usable and there is DTLS. -/
theorem C136_listens_partial (w : World) (e e' : Est) (port : Int) (b b' : Book) (h : start w e port b = (.none, e', b')) (l : List Addr)
    (hl : w.resolve (ClientResp.decimal port.toNat) = some l) (hu : ∀ a ∈ l, Usable a) (hd : w.dtls = true) :
    ∃ c, e'.coap = some c ∧ c.endpoints.map (·.addr) = l.reverse ∧ ∀ p ∈ c.endpoints, w.sock p.addr = some p.fd ∧ p.max = e.max := by
  obtain ⟨_, _, _, c, hg, rfl⟩ := start_some w e e' port b b' h
  obtain ⟨l', _, _, hr, hb⟩ := getContext_some w _ _ c b b' hg
  rw [hl] at hr
  cases hr
  obtain ⟨_, _, _, _, n, h5, h6⟩ := bind_some w _ l _ c _ b' hb
  obtain ⟨m, h7, h8⟩ := bind_all w _ l _ c _ b' hd hu hb
  have : n = m := by
    rw [h5] at h7
    exact List.append_cancel_right h7
  subst this
  refine ⟨_, rfl, ?_, ?_⟩
  · show c.endpoints.map (·.addr) = _
    rw [h5]
    simpa using h8
  · intro p hp
    have hp' : p ∈ n := by
      have : p ∈ c.endpoints := hp
      rw [h5] at this
      simpa using this
    exact ⟨(h6 p hp').2.2.1, (h6 p hp').2.2.2⟩

/-- A world with two addresses. -/
def good : World :=
  { ctxNew := true, pki := true, dtls := true, resolve := fun _ => some [⟨16, 2, 5684⟩, ⟨28, 10, 5684⟩], sock := fun a => some (a.family + 1) }

/-- A new server. -/
def fresh : Est := { mode := .server }

example : ∃ e' b', start good fresh 5684 {} = (.none, e', b') ∧ e'.portStr = [53, 54, 56, 52] ∧ sockets e' = [11, 3] ∧ b'.opened = [3, 11] ∧ b'.closed = [] :=
  ⟨_, _, rfl, by decide +kernel, by decide +kernel, by decide +kernel, by decide +kernel⟩

/-- Whatever the world is like, a server that was started demands and checks certificates, no socket has any other setup or limit, every
request over it comes without HTTP authentication, and events and requests find the EST context. -/
theorem C136_mutual (w : World) (e e' : Est) (port : Int) (b b' : Book) (h : start w e port b = (.none, e', b')) :
    ∃ c p, e'.coap = some c ∧ c.pki = some p ∧ Mutual p ∧ (p.timer = true ↔ e.timer ≠ 0) ∧ p.mtu = e.mtu ∧ (∀ x ∈ c.endpoints, x.max = e.max ∧ Usable x.addr) ∧
      c.app = true ∧ c.events = true ∧ e'.overCoap = true ∧ e'.httpAuth = false := by
  obtain ⟨_, _, _, c, hg, rfl⟩ := start_some w e e' port b b' h
  obtain ⟨l, _, _, _, hb⟩ := getContext_some w _ _ c b b' hg
  obtain ⟨h1, _, _, _, n, h5, h6⟩ := bind_some w _ l _ c _ b' hb
  refine ⟨_, pkiOf e, rfl, h1, ⟨rfl, rfl, rfl, rfl, rfl, rfl, rfl⟩, by simp [pkiOf], ?_, ?_, rfl, rfl, rfl, rfl⟩
  · unfold pkiOf
    dsimp only
    by_cases hm : e.mtu = 0
    · rw [if_neg (by simp [hm]), hm]
    · rw [if_pos hm]
  · intro x hx
    have : x ∈ c.endpoints := hx
    rw [h5] at this
    have hx' : x ∈ n := by simpa using this
    exact ⟨(h6 x hx').2.2.2, (h6 x hx').2.1⟩

/-- That a client whose certificate may have been revoked is kept out is false: although revocation is checked, a list that is missing
and a list that has expired are accepted, however the server is set up. -/
theorem C136_revoked_false (w : World) (e e' : Est) (port : Int) (b b' : Book) (h : start w e port b = (.none, e', b')) :
    ∃ c p, e'.coap = some c ∧ c.pki = some p ∧ p.revocation = true ∧ p.noCrl = true ∧ p.expiredCrl = true := by
  obtain ⟨_, _, _, c, hg, rfl⟩ := start_some w e e' port b b' h
  obtain ⟨l, _, _, _, hb⟩ := getContext_some w _ _ c b b' hg
  obtain ⟨h1, _, _, _, n, h5, h6⟩ := bind_some w _ l _ c _ b' hb
  exact ⟨_, pkiOf e, rfl, h1, rfl, rfl, rfl⟩

/-- That a server that was started listens is false: an address of another family, and likewise a libcoap without DTLS, gives a success
without an endpoint; the first request then uses an endpoint that is not there. -/
theorem C136_listens_false : ∃ (w : World) (e' : Est) (b' : Book), start w fresh 5684 {} = (.none, e', b') ∧ sockets e' = [] ∧
    ∀ fd r, handle e' fd r = .ub :=
  ⟨{ good with resolve := fun _ => some [⟨16, 1, 5684⟩, ⟨16, 2, 5684⟩] }, _, _, rfl, rfl, fun _ _ => rfl⟩

/-- The same without DTLS. -/
theorem C136_dtls_false : ∃ (e' : Est) (b' : Book), start { good with dtls := false } fresh 5684 {} = (.none, e', b') ∧ sockets e' = [] ∧
    ∀ fd r, handle e' fd r = .ub :=
  ⟨_, _, rfl, rfl, fun _ _ => rfl⟩

/-- The port is asked for as a number in decimal, without leading zeros, in the ten bytes that there are. -/
theorem C136_port (w : World) (e e' : Est) (port : Int) (b b' : Book) (h : start w e port b = (.none, e', b')) :
    (ClientResp.numVal e'.portStr : Int) = port ∧ e'.portNum = port ∧ e'.portStr.length ≤ 5 ∧ (∀ c ∈ e'.portStr, 48 ≤ c ∧ c ≤ 57) := by
  obtain ⟨h1, h2, _, c, _, rfl⟩ := start_some w e e' port b b' h
  refine ⟨?_, rfl, ?_, ClientResp.decimal_digits _⟩
  · show (ClientResp.numVal (ClientResp.decimal port.toNat) : Int) = port
    rw [ClientResp.numVal_decimal]
    omega
  · show (ClientResp.decimal port.toNat).length ≤ 5
    have hn : port.toNat ≤ 65535 := by omega
    generalize port.toNat = n at hn
    have step : ∀ n k, (n ≥ 10 → (ClientResp.decimal (n / 10)).length ≤ k) → (ClientResp.decimal n).length ≤ k + 1 := by
      intro n k hk
      rw [ClientResp.decimal]
      by_cases hs : n < 10
      · rw [if_pos hs]; simp
      · rw [if_neg hs]
        have := hk (by omega)
        simp
        omega
    have one : ∀ n, n < 10 → (ClientResp.decimal n).length ≤ 1 := fun n hn => step n 0 (fun h => by omega)
    have two : ∀ n, n < 100 → (ClientResp.decimal n).length ≤ 2 := fun n hn => step n 1 (fun _ => one _ (by omega))
    have three : ∀ n, n < 1000 → (ClientResp.decimal n).length ≤ 3 := fun n hn => step n 2 (fun _ => two _ (by omega))
    have four : ∀ n, n < 10000 → (ClientResp.decimal n).length ≤ 4 := fun n hn => step n 3 (fun _ => three _ (by omega))
    exact step n 4 (fun _ => four _ (by omega))

/-- The requests reach exactly the functions of EST. -/
theorem C136_resources (w : World) (e e' : Est) (port : Int) (b b' : Book) (h : start w e port b = (.none, e', b')) (c : Coap) (hc : e'.coap = some c)
    (uri : List Nat) (m : Method) : dispatch c uri m = wanted uri m := by
  obtain ⟨_, _, _, c0, _, rfl⟩ := start_some w e e' port b b' h
  cases hc
  unfold dispatch wanted
  dsimp only
  unfold resources
  simp only [List.find?_cons, List.find?_nil]
  by_cases h1 : uri = [101, 115, 116, 47, 115, 101, 110]
  · subst h1; cases m <;> decide
  · by_cases h2 : uri = [101, 115, 116, 47, 115, 114, 101, 110]
    · subst h2; cases m <;> decide
    · by_cases h3 : uri = [101, 115, 116, 47, 115, 107, 103]
      · subst h3; cases m <;> decide
      · by_cases h4 : uri = [101, 115, 116, 47, 99, 114, 116, 115]
        · subst h4; cases m <;> decide
        · by_cases h5 : uri = [101, 115, 116, 47, 97, 116, 116]
          · subst h5; cases m <;> decide
          · have k1 := Ne.symm h1
            have k2 := Ne.symm h2
            have k3 := Ne.symm h3
            have k4 := Ne.symm h4
            have k5 := Ne.symm h5
            simp [h1, h2, h3, h4, h5, k1, k2, k3, k4, k5]

/-! ## Nothing is lost -/

theorem bind_book (w : World) (e : Est) (l : List Addr) (c : Coap) (b : Book) (hp : b.opened.Perm (b.closed ++ c.endpoints.map (·.fd))) :
    (bind w e l c b).2.made = b.made ∧ (bind w e l c b).2.lists = b.lists ∧ (bind w e l c b).2.listsFreed = b.listsFreed + 1 ∧
    (match (bind w e l c b).1 with
      | none => (bind w e l c b).2.released = b.released + 1 ∧ (bind w e l c b).2.opened.Perm (bind w e l c b).2.closed
      | some c' => (bind w e l c b).2.released = b.released ∧ (bind w e l c b).2.opened.Perm ((bind w e l c b).2.closed ++ c'.endpoints.map (·.fd))) := by
  induction l generalizing c b with
  | nil => exact ⟨rfl, rfl, rfl, rfl, hp⟩
  | cons a l ih =>
    unfold bind
    by_cases g1 : a.len ≤ 28
    · rw [if_pos g1]
      by_cases g2 : a.len = 0
      · rw [if_pos g2]
        exact ⟨rfl, rfl, rfl, rfl, hp⟩
      · rw [if_neg g2]
        by_cases g3 : a.family = 2 ∨ a.family = 10
        · rw [if_pos g3]
          by_cases g4 : w.dtls = true
          · rw [if_pos g4]
            cases hs : w.sock a with
            | none => exact ⟨rfl, rfl, rfl, rfl, hp⟩
            | some fd =>
              refine ih { c with endpoints := ⟨a, fd, e.max⟩ :: c.endpoints } { b with opened := b.opened ++ [fd] } ?_
              dsimp only
              rw [List.map_cons]
              refine (List.Perm.append_right [fd] hp).trans ?_
              rw [List.append_assoc]
              exact List.Perm.append_left _ (List.perm_append_singleton _ _)
          · rw [if_neg g4]
            exact ih c b hp
        · rw [if_neg g3]
          exact ⟨rfl, rfl, rfl, rfl, hp⟩
    · rw [if_neg g1]
      exact ih c b hp

/-- Whatever fails, a start from a context without a server keeps the books balanced. -/
theorem start_balanced (w : World) (e : Est) (port : Int) (b : Book) (hc : e.coap = none) (h : Balanced e b) :
    Balanced (start w e port b).2.1 (start w e port b).2.2 := by
  obtain ⟨h1, h2, h3⟩ := h
  have h1' : b.made = b.released := by rw [hc] at h1; simpa using h1
  have h3' : b.opened.Perm b.closed := by
    have : sockets e = [] := by unfold sockets; rw [hc]
    rw [this] at h3
    simpa using h3
  unfold start
  by_cases g1 : e.mode ≠ .server ∧ e.mode ≠ .proxy
  · rw [if_pos g1]; exact ⟨h1, h2, h3⟩
  · rw [if_neg g1]
    by_cases g2 : port < 0 ∨ port > 65535
    · rw [if_pos g2]; exact ⟨h1, h2, h3⟩
    · rw [if_neg g2]
      dsimp only
      unfold getContext
      by_cases g3 : w.ctxNew = true
      · by_cases g4 : w.pki = true
        · simp only [g3, g4, Bool.not_true, Bool.false_eq_true, if_false]
          cases hr : w.resolve (ClientResp.decimal port.toNat) with
          | none =>
            refine ⟨?_, h2, ?_⟩
            · show b.made + 1 = b.released + 1 + 0
              omega
            · show b.opened.Perm (b.closed ++ [] ++ [])
              simpa using h3'
          | some l =>
            have k := bind_book w { e with portStr := ClientResp.decimal port.toNat, portNum := port } l
              { pki := some (pkiOf { e with portStr := ClientResp.decimal port.toNat, portNum := port }) }
              { b with made := b.made + 1, lists := b.lists + 1 } (by simpa using h3')
            dsimp only at k ⊢
            generalize bind w _ l _ _ = r at k ⊢
            obtain ⟨r1, r2⟩ := r
            cases r1 with
            | none =>
              obtain ⟨k1, k2, k3, k4, k5⟩ := k
              dsimp only at k1 k2 k3 k4 k5 ⊢
              refine ⟨?_, ?_, ?_⟩
              · show r2.made = r2.released + 0
                omega
              · show r2.lists = r2.listsFreed
                omega
              · show r2.opened.Perm (r2.closed ++ [])
                simpa using k5
            | some c =>
              obtain ⟨k1, k2, k3, k4, k5⟩ := k
              dsimp only at k1 k2 k3 k4 k5 ⊢
              refine ⟨?_, ?_, ?_⟩
              · show r2.made = r2.released + 1
                omega
              · show r2.lists = r2.listsFreed
                omega
              · exact k5
        · simp only [g3, g4, Bool.not_true, Bool.false_eq_true, if_false, Bool.not_false, if_true]
          refine ⟨?_, h2, ?_⟩
          · show b.made + 1 = b.released + 1 + 0
            omega
          · show b.opened.Perm (b.closed ++ [] ++ [])
            simpa using h3'
      · simp only [g3, Bool.not_false, if_true]
        refine ⟨?_, h2, ?_⟩
        · show b.made = b.released + 0
          omega
        · show b.opened.Perm (b.closed ++ [])
          simpa using h3'

theorem step_balanced (s s' : Est × Book) (a : Op) (l : List Op) (ho : Orderly s (a :: l)) (h : Balanced s.1 s.2) (hs : step s a = some s') : Balanced s'.1 s'.2 := by
  obtain ⟨e, b⟩ := s
  cases a with
  | start w p =>
    cases hs
    exact start_balanced w e p b ho.1 h
  | stop =>
    cases hs
    unfold stop
    dsimp only
    by_cases g1 : e.overCoap = true
    · rw [if_pos g1]
      cases hc : e.coap with
      | none => exact h
      | some c =>
        obtain ⟨h1, h2, h3⟩ := h
        dsimp only at h1 h2 h3
        rw [hc] at h1
        refine ⟨?_, h2, ?_⟩
        · show b.made = b.released + 1 + 0
          simpa using h1
        · have : sockets e = c.endpoints.map (·.fd) := by unfold sockets; rw [hc]
          rw [this] at h3
          show b.opened.Perm (b.closed ++ c.endpoints.map (·.fd) ++ [])
          simpa using h3
    · rw [if_neg g1]
      exact h
  | handle fd r =>
    have hf := ho.1
    dsimp only at hf
    unfold step handle at hs
    dsimp only at hs
    cases hc : e.coap with
    | none =>
      rw [hc] at hs
      cases hs
      exact h
    | some c =>
      rw [hc] at hs
      dsimp only at hs
      have hsk : sockets e = c.endpoints.map (·.fd) := by unfold sockets; rw [hc]
      cases hp : c.endpoints with
      | nil => rw [hp] at hs; cases hs
      | cons p t =>
        rw [hp] at hs
        cases hs
        rw [hsk, hp] at hf
        have hpf : p.fd = fd := by simpa using hf
        obtain ⟨h1, h2, h3⟩ := h
        dsimp only at h1 h2 h3
        rw [hc] at h1
        rw [hsk, hp] at h3
        refine ⟨h1, h2, ?_⟩
        show b.opened.Perm (b.closed ++ List.map (·.fd) ({ p with fd := fd } :: t))
        rw [← hpf]
        exact h3

/-- In any orderly history nothing is lost; and when the context is released at its end, everything is. -/
theorem C136_balanced_partial (e : Est) (l : List Op) (s : Est × Book) (he : e.coap = none) (ho : Orderly (e, {}) l) (hr : run (e, {}) l = some s) :
    Balanced s.1 s.2 ∧ (destroy s.1 s.2).made = (destroy s.1 s.2).released ∧ (destroy s.1 s.2).lists = (destroy s.1 s.2).listsFreed ∧
      (destroy s.1 s.2).opened.Perm (destroy s.1 s.2).closed := by
  have h0 : Balanced e {} := ⟨by rw [he]; rfl, rfl, by unfold sockets; rw [he]; exact List.Perm.refl _⟩
  have main : ∀ (s0 : Est × Book), Balanced s0.1 s0.2 → Orderly s0 l → run s0 l = some s → Balanced s.1 s.2 := by
    clear hr ho h0 he
    induction l with
    | nil =>
      intro s0 hb _ hr
      cases hr
      exact hb
    | cons a l ih =>
      intro s0 hb ho hr
      rw [run] at hr
      cases hs : step s0 a with
      | none => rw [hs] at hr; cases hr
      | some s1 =>
        rw [hs] at hr
        exact ih s1 (step_balanced s0 s1 a l ho hb hs) (ho.2 s1 hs) hr
  have hb := main (e, {}) h0 ho hr
  refine ⟨hb, ?_⟩
  obtain ⟨h1, h2, h3⟩ := hb
  unfold destroy
  cases hc : s.1.coap with
  | none =>
    rw [hc] at h1
    unfold sockets at h3
    rw [hc] at h3
    exact ⟨by simpa using h1, h2, by simpa using h3⟩
  | some c =>
    rw [hc] at h1
    unfold sockets at h3
    rw [hc] at h3
    exact ⟨by simpa [free] using h1, h2, h3⟩

example : Orderly (fresh, {}) [.start good 5684, .stop, .start { good with pki := false } 5684, .start good 5685] := by
  refine ⟨rfl, fun s hs => ?_⟩
  cases hs
  refine ⟨trivial, fun s hs => ?_⟩
  cases hs
  refine ⟨rfl, fun s hs => ?_⟩
  cases hs
  exact ⟨rfl, fun s hs => trivial⟩

/-- A second start of a running server loses the first: its context is never released, its sockets are never closed. -/
theorem C136_restart_false : ∃ s, run (fresh, {}) [.start good 5684, .start good 5684, .stop] = some s ∧ s.1.coap = none ∧ s.2.made = 2 ∧ s.2.released = 1 ∧
    s.2.opened = [3, 11, 3, 11] ∧ s.2.closed = [11, 3] := ⟨_, rfl, rfl, rfl, rfl, rfl, rfl⟩

/-- A request with a descriptor of the application loses the socket the server is bound to: at the end the application's descriptor is
closed, and that socket never is. -/
theorem C136_socket_false (r : Int) : ∃ s, run (fresh, {}) [.start good 5684, .handle 77 r, .stop] = some s ∧ s.1.coap = none ∧
    s.2.opened = [3, 11] ∧ s.2.closed = [77, 3] := ⟨_, rfl, rfl, rfl, rfl⟩

/-- A start that fails changes nothing but the port. -/
theorem C136_failed_partial (w : World) (e : Est) (port : Int) (b : Book) (hc : e.coap = none) (h : (start w e port b).1 ≠ .none) :
    ∃ n t, (start w e port b).2.1 = { e with portNum := n, portStr := t } := by
  unfold start at h ⊢
  by_cases g1 : e.mode ≠ .server ∧ e.mode ≠ .proxy
  · rw [if_pos g1]; exact ⟨e.portNum, e.portStr, rfl⟩
  · rw [if_neg g1] at h ⊢
    by_cases g2 : port < 0 ∨ port > 65535
    · rw [if_pos g2]; exact ⟨e.portNum, e.portStr, rfl⟩
    · rw [if_neg g2] at h ⊢
      dsimp only at h ⊢
      split
      · refine ⟨port, ClientResp.decimal port.toNat, ?_⟩
        rw [hc]
      · rename_i hg
        rw [hg] at h
        exact absurd rfl h

/-- That it changes nothing is false: the port stays, by which the library tells that the server runs. -/
theorem C136_failed_false (b : Book) : (start { good with ctxNew := false } fresh 5684 b).1 = .coapProcessingError ∧
    (start { good with ctxNew := false } fresh 5684 b).2.1.portNum ≠ 0 ∧ (start { good with ctxNew := false } fresh 5684 b).2.1.coap = none :=
  ⟨rfl, by show (5684 : Int) ≠ 0; decide, rfl⟩

/-- When exactly a start succeeds. -/
theorem C136_start_iff (w : World) (e : Est) (port : Int) (b : Book) (l : List Addr) (hl : w.resolve (ClientResp.decimal port.toNat) = some l)
    (hu : ∀ a ∈ l, Usable a) (hd : w.dtls = true) :
    (start w e port b).1 = .none ↔ e.mode ≠ .client ∧ 0 ≤ port ∧ port ≤ 65535 ∧ w.ctxNew = true ∧ w.pki = true ∧ ∀ a ∈ l, (w.sock a).isSome = true := by
  have key : ∀ (l : List Addr) (e : Est) (c : Coap) (b : Book), (∀ a ∈ l, Usable a) → ((bind w e l c b).1.isSome = true ↔ ∀ a ∈ l, (w.sock a).isSome = true) := by
    intro l
    induction l with
    | nil => intro e c b _; simp [bind]
    | cons a l ih =>
      intro e c b hu
      obtain ⟨u1, u2, u3⟩ := hu a List.mem_cons_self
      unfold bind
      rw [if_pos u2, if_neg (by omega), if_pos u3, if_pos hd]
      cases hs : w.sock a with
      | none => simp [hs]
      | some fd =>
        have := ih e { c with endpoints := ⟨a, fd, e.max⟩ :: c.endpoints } { b with opened := b.opened ++ [fd] } (fun x hx => hu x (List.mem_cons_of_mem _ hx))
        simp [hs]
        simpa using this
  unfold start
  by_cases g1 : e.mode ≠ .server ∧ e.mode ≠ .proxy
  · have : e.mode = .client := by
      cases hm : e.mode with
      | server => exact absurd hm g1.1
      | proxy => exact absurd hm g1.2
      | client => rfl
    rw [if_pos g1]
    simp [this]
  · have hm : e.mode ≠ .client := by
      intro hm
      rw [hm] at g1
      exact g1 ⟨by decide, by decide⟩
    rw [if_neg g1]
    by_cases g2 : port < 0 ∨ port > 65535
    · rw [if_pos g2]
      constructor
      · intro h; cases h
      · intro h; omega
    · rw [if_neg g2]
      dsimp only
      unfold getContext
      by_cases g3 : w.ctxNew = true
      · by_cases g4 : w.pki = true
        · simp only [g3, g4, Bool.not_true, Bool.false_eq_true, if_false, hl]
          have k := key l { e with portStr := ClientResp.decimal port.toNat, portNum := port }
            { pki := some (pkiOf { e with portStr := ClientResp.decimal port.toNat, portNum := port }) }
            { b with made := b.made + 1, lists := b.lists + 1 } hu
          generalize bind w _ l _ _ = r at k ⊢
          obtain ⟨r1, r2⟩ := r
          cases r1 with
          | none =>
            constructor
            · intro h; cases h
            · intro h
              have := k.2 h.2.2.2.2.2
              cases this
          | some c =>
            exact ⟨fun _ => ⟨hm, by omega, by omega, trivial, trivial, k.1 rfl⟩, fun _ => rfl⟩
        · simp [g3, g4]
      · simp [g3]

/-- A request is an error exactly if there is no server or libcoap failed. -/
theorem C136_request (e : Est) (c : Coap) (p : Endpoint) (t : List Endpoint) (fd : Nat) (r : Int) (hc : e.coap = some c) (hp : c.endpoints = p :: t) :
    ∃ e', handle e fd r = .ret (if r < 0 then .unknown else .none) e' ∧ ∃ c', e'.coap = some c' ∧ c'.endpoints = ⟨p.addr, fd, p.max⟩ :: t ∧ c'.pki = c.pki := by
  refine ⟨{ e with coap := some { c with endpoints := { p with fd := fd } :: t } }, ?_, _, rfl, rfl, rfl⟩
  unfold handle
  rw [hc]
  dsimp only
  rw [hp]
  unfold runOnce
  by_cases hr : r < 0
  · simp [hr]
  · simp [hr]

end Verif.CoapStart
