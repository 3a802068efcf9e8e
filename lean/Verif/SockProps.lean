import Verif.SockModel
import Verif.ClientMemLemmas

/-!
# C114: every connection is closed again, once

The specification is in terms of the resources that are open before and after: `Heap.live` is the
list of open sockets, libcurl handles, `BIO`s, `SSL` objects (and one buffer).
-/
namespace Verif.Sock
open Verif.ClientMem

variable {ok : Nat → Bool} {G : Prop}

/-! ## Rules -/

/-- The socket structure holds the open socket `fd` and nothing else. -/
def Holds (t : Tcw) (fd : Nat) : Prop :=
  t.fd = some fd ∧ (t.proxied = true → t.curl = some fd)

theorem tcwClose_spec {t : Tcw} {fd : Nat} (h : Holds t fd) :
    Spec ok G [fd] (tcwClose t) (fun _ => []) (fun _ => True) := by
  unfold tcwClose
  split
  · next hp =>
    unfold curlClose
    rw [h.2 hp]
    fr
    exact spec_pure (.refl _) trivial
  · unfold directClose
    rw [h.1]
    fr
    exact spec_pure (.refl _) trivial

/-- The resources of an open socket. -/
def got (a : TErr × Option Nat) : List Nat := a.2.toList

theorem directLoop_spec (l : List Bool) : ∀ r, Spec ok G [] (directLoop r l) got
    (fun a => (l ≠ [] ∨ r ≠ .ok → (a.1 = .ok ↔ a.2.isSome = true)) ∧ (a.1 ≠ .ok → a.2 = none) ∧
      a.1 ≠ .resolv ∨ l = []) := by
  induction l with
  | nil =>
    intro r
    exact spec_pure (.refl _) (.inr rfl)
  | cons c l ih =>
    intro r
    unfold directLoop
    have hrest : Spec ok G [] (directLoop .failed l) got
        (fun a => ((c :: l) ≠ [] ∨ r ≠ .ok → (a.1 = .ok ↔ a.2.isSome = true)) ∧
          (a.1 ≠ .ok → a.2 = none) ∧ a.1 ≠ .resolv ∨ (c :: l) = []) := by
      cases l with
      | nil => exact spec_pure (.refl _) (.inl ⟨fun _ => by simp, fun _ => rfl, by simp⟩)
      | cons d l =>
        refine spec_post (ih .failed) ?_
        intro a ha
        refine ⟨.refl _, ?_⟩
        rcases ha with ha | ha
        · exact .inl ⟨fun _ => ha.1 (.inl (by simp)), ha.2⟩
        · cases ha
    al
    · split
      · exact spec_pure (.refl _) (.inl ⟨fun _ => by simp, fun h => absurd rfl h, by simp⟩)
      · fr
        exact hrest
    · exact hrest

theorem curlClose_spec (t : Tcw) :
    Spec ok G t.curl.toList (curlClose t) (fun _ => []) (fun _ => True) := by
  unfold curlClose
  exact spec_free_opt (P' := []) (by simp) (spec_pure (.refl _) trivial)

theorem tcwConnect_spec (p : Bool) (n : Net) :
    Spec ok G [] (tcwConnect p n) (fun a => if a.1 = .ok then a.2.fd.toList else [])
      (fun a => a.1 = .ok → ∃ fd, Holds a.2 fd) := by
  have close : ∀ (e : TErr) (t : Tcw) (x : Nat), e ≠ .ok → t.curl = some x → Spec ok G [x]
      (curlClose t >>= fun t => pure (e, t)) (fun a => if a.1 = .ok then a.2.fd.toList else [])
      (fun a => a.1 = .ok → ∃ fd, Holds a.2 fd) := by
    intro e t x he ht
    refine spec_call (P := t.curl.toList) (D := []) (curlClose_spec t) (by simp [ht]) ?_
    intro t' _
    exact spec_pure (by simp [he]) (fun h => absurd h he)
  unfold tcwConnect
  dsimp only
  split
  · unfold curlConnect
    al
    · next h =>
      split
      · exact close _ _ h (by simp) rfl
      · split
        · split
          · exact spec_pure (by simp) (fun _ => ⟨h, rfl, fun _ => rfl⟩)
          · exact close _ _ h (by simp) rfl
        · exact close _ _ h (by assumption) rfl
    · refine spec_call (P := []) (D := []) (curlClose_spec ⟨p, none, none⟩) (.refl _) ?_
      intro t' _
      exact spec_pure (by simp) (fun h => by cases h)
  · next hp =>
    unfold directConnect
    split
    · exact spec_pure (by simp) (fun h => by cases h)
    · next a l _ =>
      refine spec_call (P := []) (D := []) (directLoop_spec (a :: l) .ok) (.refl _) ?_
      intro b hb
      obtain ⟨e, fd⟩ := b
      rcases hb with ⟨h1, h2, _⟩ | hb
      · have h1 := h1 (.inl (by simp))
        dsimp only at h1 h2
        refine spec_pure ?_ ?_
        · by_cases he : e = .ok
          · simp [he, got]
          · simp [he, got, h2 he]
        · intro he
          have := h1.1 he
          cases fd with
          | none => cases this
          | some x => exact ⟨x, rfl, fun h => absurd h hp⟩
      · cases hb

theorem spec_use_last {P : List Nat} {p : Nat} (hp : p ∈ P) :
    Spec ok G P (use (some p)) (fun _ => P) (fun _ => True) := by
  intro h F hh
  have hm : p ∈ h.live := hh.mem_iff.2 (List.mem_append_left _ hp)
  exact ⟨(), h, [], by simp only [use, hm, if_true], trivial, hh, .inl rfl⟩

/-- The `SSL` object and its `BIO`. -/
def pair (s : Ssl) : List Nat := [s.obj, s.bio]

theorem shutdown_spec (s : Ssl) :
    Spec ok G (pair s ++ [s.fd]) (shutdown s) (fun _ => pair s ++ [s.fd]) (fun _ => True) := by
  unfold shutdown pair
  us
  split
  · exact spec_use_last (by simp)
  · exact spec_pure (.refl _) trivial

theorem sslFree_spec (s : Ssl) : Spec ok G (pair s) (sslFree s) (fun _ => []) (fun _ => True) := by
  unfold sslFree pair
  fr
  exact spec_last

theorem drop_spec {ssl : Option Ssl} (h : ∀ s, ssl = some s → s.up = false) :
    Spec ok G (ssl.toList.flatMap pair) (drop ssl) (fun _ => []) (fun _ => True) := by
  cases ssl with
  | none => exact spec_pure (.refl _) trivial
  | some s =>
    unfold drop
    refine spec_call (Q := fun _ => pair s) (R := fun _ => True) (P := pair s) (D := []) ?_ (by simp) ?_
    · unfold shutdown pair
      rw [h s rfl]
      us
      exact spec_pure (.refl _) trivial
    · intro _ _
      rw [List.append_nil]
      exact sslFree_spec s

/-- The same with the connection still there: it stays. -/
theorem drop_spec_up (s : Ssl) :
    Spec ok G (pair s ++ [s.fd]) (drop (some s)) (fun _ => [s.fd]) (fun _ => True) := by
  unfold drop
  refine spec_call (Q := fun _ => pair s ++ [s.fd]) (R := fun _ => True) (P := pair s ++ [s.fd])
    (D := []) (shutdown_spec s) (by simp) ?_
  intro _ _
  refine spec_perm (P' := pair s ++ [s.fd]) (by simp) ?_
  have := sslFree_spec (ok := ok) (G := G) s
  intro hp F hh
  obtain ⟨a, h', L, e, hr, hq, hl⟩ := this hp ([s.fd] ++ F) (by rwa [List.append_assoc] at hh)
  refine ⟨a, h', L, e, hr, hq.trans ?_, hl⟩
  rcases hl with rfl | _
  · simp
  · rw [List.nil_append]
    rw [List.perm_iff_count]; intro x
    simp only [List.count_append]; omega

theorem disconnect_spec {c : Ctx} {s : Ssl} (hc : c.connected = true) (h : Holds c.sock s.fd) :
    Spec ok G (pair s ++ [s.fd]) (disconnect c (some s)) (fun _ => []) (fun _ => True) := by
  unfold disconnect
  refine spec_call (Q := fun _ => pair s ++ [s.fd]) (R := fun _ => True) (P := pair s ++ [s.fd])
    (D := []) (shutdown_spec s) (by simp) ?_
  intro _ _
  refine spec_call (Q := fun _ => []) (R := fun _ => True) (P := pair s) (D := [s.fd]) (sslFree_spec s)
    (by simp) ?_
  intro _ _
  rw [if_pos hc]
  refine spec_call (P := [s.fd]) (D := []) (tcwClose_spec h) (.refl _) ?_
  intro t _
  exact spec_pure (.refl _) trivial

/-- What is open when `est_client_connect` returns. -/
def left (a : EstErr × Ctx × Option Ssl) : List Nat :=
  a.2.2.toList.flatMap fun s => if s.up then pair s ++ [s.fd] else pair s

/-- What its results mean. -/
def Fine (w : Conn) (a : EstErr × Ctx × Option Ssl) : Prop :=
  (a.1 = .none → ∃ s, a.2.2 = some s ∧ s.up = true ∧ a.2.1.connected = true ∧
    Holds a.2.1.sock s.fd) ∧
  (a.1 ≠ .none → ∀ s, a.2.2 = some s → s.up = false ∧ w.shake = false)

theorem secure_spec {c : Ctx} {w : Conn} {fd : Nat} (h : Holds c.sock fd) :
    Spec ok G [fd] (secure c w fd) left (Fine w) := by
  have close : ∀ (e : EstErr) (x : Option Ssl) (P : List Nat), e ≠ .none →
      (∀ s, x = some s → s.up = false ∧ w.shake = false) →
      P.Perm (x.toList.flatMap pair) →
      Spec ok G (fd :: P) (tcwClose c.sock >>= fun t => pure (e, { c with sock := t }, x)) left (Fine w) := by
    intro e x P he hx hP
    refine spec_call (P := [fd]) (D := P) (tcwClose_spec h) (.refl _) ?_
    intro t _
    refine spec_pure ?_ ⟨fun h => absurd h he, fun _ => hx⟩
    refine hP.trans ?_
    cases x with
    | none => exact .refl _
    | some s => simp [left, (hx s rfl).1]
  unfold secure
  us
  split
  · exact close _ _ [] (by simp) (by simp) (.refl _)
  · al
    · next bio =>
      al
      · next s =>
        us
        split
        · next hw =>
          refine spec_perm (P' := fd :: [s, bio]) (by perm) ?_
          exact close _ _ _ (by simp) (fun s hs => (by cases hs; exact ⟨rfl, by simpa using hw⟩)) (.refl _)
        · split
          · refine spec_pure (by simp [left, pair]) ⟨fun _ => ⟨_, rfl, rfl, rfl, h⟩, fun h => absurd rfl h⟩
          · refine spec_call (P := pair ⟨s, bio, fd, true⟩ ++ [fd]) (D := [])
              (disconnect_spec (s := ⟨s, bio, fd, true⟩) rfl h) (by simp [pair]) ?_
            intro c' _
            exact spec_pure (.refl _) ⟨fun h => (by cases h), fun _ s hs => (by cases hs)⟩
      · fr
        exact close _ _ [] (by simp) (by simp) (.refl _)
    · exact close _ _ [] (by simp) (by simp) (.refl _)

theorem connect_spec (c : Ctx) (w : Conn) : Spec ok G [] (connect c w) left (Fine w) := by
  unfold connect
  refine spec_call (P := []) (D := []) (tcwConnect_spec _ _) (.refl _) ?_
  intro a ha
  obtain ⟨e, t⟩ := a
  cases e with
  | ok =>
    obtain ⟨fd, hf⟩ := ha rfl
    dsimp only at hf
    simp only [hf.1, if_true, Option.toList, List.append_nil]
    exact secure_spec hf
  | resolv => exact spec_pure (.refl _) ⟨fun h => (by cases h), fun _ s hs => (by cases hs)⟩
  | failed => exact spec_pure (.refl _) ⟨fun h => (by cases h), fun _ s hs => (by cases hs)⟩

theorem talk_spec (s : Ssl) :
    Spec ok G (pair s ++ [s.fd]) (talk (some s)) (fun _ => pair s ++ [s.fd]) (fun _ => True) := by
  unfold talk pair
  us
  us
  exact spec_use_last (by simp)

theorem fine_ok {a : EstErr × Ctx × Option Ssl} {w : Conn} (h : Fine w a) (e : a.1 = .none) :
    ∃ s, a.2.2 = some s ∧ left a = pair s ++ [s.fd] ∧ a.2.1.connected = true ∧ Holds a.2.1.sock s.fd := by
  obtain ⟨s, h1, h2, h3, h4⟩ := h.1 e
  exact ⟨s, h1, by simp [left, h1, h2], h3, h4⟩

theorem fine_err {a : EstErr × Ctx × Option Ssl} {w : Conn} (h : Fine w a) (e : a.1 ≠ .none) :
    left a = a.2.2.toList.flatMap pair ∧ (∀ s, a.2.2 = some s → s.up = false) ∧
      (w.shake = true → a.2.2 = none) := by
  have h2 := h.2 e
  obtain ⟨e', c, x⟩ := a
  cases x with
  | none => exact ⟨rfl, fun _ h => (by cases h), fun _ => rfl⟩
  | some s =>
    obtain ⟨hu, he⟩ := h2 s rfl
    refine ⟨by simp [left, hu], fun s' hs => (by cases hs; exact hu), fun hn => by rw [he] at hn; cases hn⟩

/-- A request over an open connection, which is closed afterwards. -/
theorem talked {c : Ctx} {s : Ssl} {β : Type} {P : List Nat} (hc : c.connected = true)
    (h : Holds c.sock s.fd) {f : Ctx → Mem β} {Q : β → List Nat} {R : β → Prop}
    (hf : ∀ c, Spec ok G P (f c) Q R) :
    Spec ok G (pair s ++ [s.fd] ++ P) (talk (some s) >>= fun _ => disconnect c (some s) >>= f) Q R := by
  refine spec_call (D := P) (talk_spec s) (.refl _) ?_
  intro _ _
  refine spec_call (D := P) (disconnect_spec hc h) (.refl _) ?_
  intro c' _
  exact hf c'

/-- The end of a function after a failed connection. -/
theorem dropped {a : EstErr × Ctx × Option Ssl} {w : Conn} (h : Fine w a) (e : a.1 ≠ .none) {β : Type} {P : List Nat}
    {f : Unit → Mem β} {Q : β → List Nat} {R : β → Prop} (hf : Spec ok G P (f ()) Q R) :
    Spec ok G (left a ++ P) (drop a.2.2 >>= f) Q R := by
  obtain ⟨h1, h2, _⟩ := fine_err h e
  rw [h1]
  refine spec_call (D := P) (drop_spec h2) (.refl _) ?_
  intro _ _
  exact hf

theorem single_spec (c : Ctx) (x : Try) :
    Spec ok G [] (single c x) (fun _ => []) (fun _ => True) := by
  unfold single
  refine spec_call (P := []) (D := []) (connect_spec _ _) (.refl _) ?_
  rintro ⟨er, cx, sl⟩ ha
  dsimp only
  split
  · obtain ⟨s, h1, h2, h3, h4⟩ := fine_ok ha rfl
    dsimp only at h1
    rw [h2, h1]
    exact talked h3 h4 fun _ => spec_pure (.refl _) trivial
  · exact dropped ha (by assumption) (spec_pure (.refl _) trivial)

theorem twice_spec (c : Ctx) (x y : Try) (f : Then) :
    Spec ok G [] (twice c x y f) (fun _ => []) (fun _ => True) := by
  unfold twice
  refine spec_call (P := []) (D := []) (connect_spec _ _) (.refl _) ?_
  rintro ⟨er, cx, sl⟩ ha
  dsimp only
  split
  · obtain ⟨s, h1, h2, h3, h4⟩ := fine_ok ha rfl
    dsimp only at h1
    rw [h2, h1]
    refine talked h3 h4 fun c => ?_
    split
    · split
      · exact spec_pure (.refl _) trivial
      · exact spec_pure (.refl _) trivial
      · exact single_spec c y
    · exact spec_pure (.refl _) trivial
  · exact dropped ha (by assumption) (spec_pure (.refl _) trivial)

theorem forward_spec (c : Ctx) (x : Try) (hG : G ∨ x.conn.shake = true) :
    Spec ok G [] (forward c x) (fun _ => []) (fun _ => True) := by
  unfold forward
  refine spec_call (P := []) (D := []) (connect_spec _ _) (.refl _) ?_
  rintro ⟨er, cx, sl⟩ ha
  dsimp only
  split
  · obtain ⟨s, h1, h2, h3, h4⟩ := fine_ok ha rfl
    dsimp only at h1
    rw [h2, h1]
    exact talked h3 h4 fun _ => spec_pure (.refl _) trivial
  · next he =>
    obtain ⟨h1, _, h3⟩ := fine_err ha he
    rw [h1]
    rcases hG with hG | hG
    · exact spec_lose (sl.toList.flatMap pair) hG (by simp) trivial
    · have h3 := h3 hG
      dsimp only at h3
      rw [h3]
      exact spec_pure (.refl _) trivial

theorem ask_spec (c : Ctx) (x y : Try) (f : Then) (n : Needs) (s : Ssl) (hc : c.connected = true)
    (h : Holds c.sock s.fd)
    (hG : G ∨ (AllOk ok ∧ n.rand = true ∧ n.time = true ∧ n.cert = true ∧ n.cert2 = true)) :
    Spec ok G (pair s ++ [s.fd]) (ask c x y f n (some s)) (fun _ => []) (fun _ => True) := by
  unfold ask
  split
  · exact spec_lose (pair s ++ [s.fd]) (hG.resolve_right (by simp_all)) (.refl _) trivial
  split
  · exact spec_lose (pair s ++ [s.fd]) (hG.resolve_right (by simp_all)) (.refl _) trivial
  al
  · next buf =>
    split
    · fr
      exact spec_lose (pair s ++ [s.fd]) (hG.resolve_right (by simp_all)) (.refl _) trivial
    · refine spec_perm (P' := pair s ++ [s.fd] ++ [buf]) (by unfold pair; perm) ?_
      refine talked hc h fun c => ?_
      split
      · split
        · fr
          exact spec_pure (.refl _) trivial
        · fr
          exact spec_pure (.refl _) trivial
        · refine spec_call (P := []) (D := [buf]) (connect_spec _ _) (.refl _) ?_
          rintro ⟨er, cx, sl⟩ ha
          dsimp only
          split
          · obtain ⟨s, h1, h2, h3, h4⟩ := fine_ok ha rfl
            dsimp only at h1
            rw [h2, h1]
            split
            · refine spec_call (D := [buf]) (drop_spec_up s) (.refl _) ?_
              intro _ _
              fr
              exact spec_lose [s.fd] (hG.resolve_right (by simp_all)) (.refl _) trivial
            · refine talked h3 h4 fun c => ?_
              fr
              exact spec_pure (.refl _) trivial
          · refine dropped ha (by assumption) ?_
            fr
            exact spec_pure (.refl _) trivial
      · fr
        exact spec_pure (.refl _) trivial
  · next hn =>
    exact spec_lose (pair s ++ [s.fd]) (hG.resolve_right (fun h => hn h.1)) (.refl _) trivial

theorem sendGetVoucher_spec (c : Ctx) (x y : Try) (f : Then) (n : Needs)
    (hG : G ∨ (AllOk ok ∧ n.rand = true ∧ n.time = true ∧ n.cert = true ∧ n.cert2 = true)) :
    Spec ok G [] (sendGetVoucher c x y f n) (fun _ => []) (fun _ => True) := by
  unfold sendGetVoucher
  refine spec_call (P := []) (D := []) (connect_spec _ _) (.refl _) ?_
  rintro ⟨er, cx, sl⟩ ha
  dsimp only
  split
  · obtain ⟨s, h1, h2, h3, h4⟩ := fine_ok ha rfl
    dsimp only at h1
    rw [h2, h1, List.append_nil]
    exact ask_spec cx x y f n s h3 h4 hG
  · exact dropped ha (by assumption) (spec_pure (.refl _) trivial)

/-! ## The property -/

/-- The random numbers, the clock and the server's certificate are there. -/
def Needs.Met (n : Needs) : Prop := n.rand = true ∧ n.time = true ∧ n.cert = true ∧ n.cert2 = true

/-- Operations for which it is proved that they leave nothing open: all of a client but voucher
requests that lack something, and those of a proxy whose handshake does not fail. -/
def Op.Tidy (ok : Nat → Bool) : Op → Prop
  | .single _ | .twice _ _ _ => True
  | .voucher r r' => (∀ n, ok n = true) ∧ r.n.Met ∧ r'.n.Met
  | .forward x => x.conn.shake = true

theorem step_spec (c : Ctx) (o : Op) (hG : G ∨ o.Tidy ok) :
    Spec ok G [] (step c o) (fun _ => []) (fun _ => True) := by
  cases o with
  | single x => exact single_spec c x
  | twice x y f => exact twice_spec c x y f
  | forward x => exact forward_spec c x hG
  | voucher r r' =>
    unfold step getVoucher
    refine spec_call (P := []) (D := []) (sendGetVoucher_spec c _ _ _ _
      (hG.imp_right fun h => ⟨h.1, h.2.1⟩)) (.refl _) ?_
    rintro ⟨e, c'⟩ _
    dsimp only
    split
    · exact sendGetVoucher_spec _ _ _ _ _ (hG.imp_right fun h => ⟨h.1, h.2.2⟩)
    · exact spec_pure (.refl _) trivial

theorem run_spec : ∀ (ops : List Op) (c : Ctx), (∀ o ∈ ops, G ∨ o.Tidy ok) →
    Spec ok G [] (run c ops) (fun _ => []) (fun _ => True)
  | [], _, _ => spec_pure (.refl _) trivial
  | o :: os, c, h => by
    unfold run
    refine spec_call (P := []) (D := []) (step_spec c o (h o (List.mem_cons_self ..))) (.refl _) ?_
    intro a _
    refine spec_call (P := []) (D := []) (run_spec os a.2 fun o' ho => h o' (List.mem_cons_of_mem _ ho))
      (.refl _) ?_
    intro b _
    exact spec_pure (.refl _) trivial

/-- Whatever the network, the server and the operating system do, no operation of any sequence
writes to a socket that is not its own open one, or closes one twice, and what others have open
stays open. -/
theorem C114_no_stray (ok : Nat → Bool) (c : Ctx) (ops : List Op) (h : Heap) :
    ∃ r h' left, run c ops ok h = some (r, h') ∧ h'.live.Perm (left ++ h.live) := by
  obtain ⟨r, h', L, e, _, hl, _⟩ := run_spec (G := True) ops c (fun _ _ => .inl trivial) h h.live (.refl _)
  exact ⟨r, h', L, e, hl⟩

/-- After any sequence of tidy operations exactly that is open which was open before.  Not so for
voucher requests that lack something and for a proxy's failed handshakes: see below. -/
theorem C114_closed_partial (ok : Nat → Bool) (c : Ctx) (ops : List Op) (h : Heap)
    (ht : ∀ o ∈ ops, o.Tidy ok) :
    ∃ r h', run c ops ok h = some (r, h') ∧ h'.live.Perm h.live := by
  obtain ⟨r, h', L, e, _, hl, hL⟩ := run_spec (G := False) ops c (fun o ho => .inr (ht o ho)) h h.live (.refl _)
  rcases hL with rfl | hL
  · exact ⟨r, h', e, hl⟩
  · exact absurd hL id

/-- A connection that succeeds, to the second address. -/
def exConn : Conn := ⟨false, ⟨some (false, [true]), true, .ok, true⟩, true, true, true⟩

/-- The handshake fails, e.g. because the server's certificate is not trusted. -/
def exUntrusted : Conn := { exConn with shake := false }

/-- Through an HTTP proxy, to a server of another name. -/
def exOther : Conn := { exConn with proxied := true, nameOk := false }

def exOps : List Op :=
  [.single ⟨exConn, .none⟩, .single ⟨exUntrusted, .none⟩, .twice ⟨exConn, .authFail⟩ ⟨exOther, .none⟩ .again,
    .voucher ⟨⟨exConn, .caEnrollRetry⟩, ⟨exConn, .none⟩, .stop, ⟨true, true, true, true⟩⟩
      ⟨⟨exConn, .authFail⟩, ⟨exConn, .none⟩, .again, ⟨true, true, true, true⟩⟩,
    .forward ⟨exConn, .none⟩]

example : (∀ o ∈ exOps, o.Tidy fun _ => true) ∧
    (run Ctx.fresh exOps (fun _ => true) ⟨7, [3]⟩).map (fun r => (r.1.1, r.2.live)) =
      some ([.none, .sslConnect, .fqdnMismatch, .none, .none], [3]) := by
  refine ⟨?_, by decide +kernel⟩
  intro o ho
  simp only [exOps, List.mem_cons, List.not_mem_nil, or_false] at ho
  rcases ho with rfl | rfl | rfl | rfl | rfl
  · trivial
  · trivial
  · trivial
  · exact ⟨fun _ => rfl, ⟨rfl, rfl, rfl, rfl⟩, ⟨rfl, rfl, rfl, rfl⟩⟩
  · rfl

/-- Descriptors run out in the middle of the sequence: the second socket of the first operation. -/
example : (run Ctx.fresh exOps (fun n => decide (n ≠ 1)) ⟨0, []⟩).map (fun r => (r.1.1, r.2.live)) =
    some ([.ipConnect, .sslConnect, .fqdnMismatch, .none, .none], []) := by decide +kernel

/-! ## Where it is false -/

/-- A step that always succeeds and leaves `k` things open. -/
theorem leaks_add {o : Op} {k : Nat} (h : ∀ c hp, ∃ r c' hp', step c o (fun _ => true) hp = some ((r, c'), hp') ∧
      hp'.live.length = hp.live.length + k) :
    ∀ (n : Nat) (c : Ctx) (hp : Heap), ∃ r hp',
      run c (List.replicate n o) (fun _ => true) hp = some (r, hp') ∧
        hp'.live.length = hp.live.length + n * k
  | 0, c, hp => ⟨_, hp, rfl, by omega⟩
  | n + 1, c, hp => by
    obtain ⟨r, c', hp', e, hl⟩ := h c hp
    obtain ⟨r2, hp2, e2, hl2⟩ := leaks_add h n c' hp'
    refine ⟨(r :: r2.1, r2.2), hp2, ?_, by rw [hl2, hl, Nat.add_mul]; omega⟩
    rw [List.replicate_succ]
    unfold run
    rw [bind_some e]
    dsimp only
    rw [bind_some e2]
    rfl

theorem bind_eq {α β : Type} (m : Mem α) (f : α → Mem β) (ok : Nat → Bool) (h : Heap) :
    (m >>= f) ok h = match m ok h with | none => none | some (a, h') => f a ok h' := rfl

theorem pure_eq {α : Type} (a : α) (ok : Nat → Bool) (h : Heap) : (pure a : Mem α) ok h = some (a, h) := rfl

theorem alloc_eq (h : Heap) :
    alloc (fun _ => true) h = some (some h.next, ⟨h.next + 1, h.next :: h.live⟩) := rfl

theorem use_eq (p : Nat) (ok : Nat → Bool) (h : Heap) :
    use (some p) ok h = if p ∈ h.live then some ((), h) else none := rfl

theorem free_eq (p : Nat) (ok : Nat → Bool) (h : Heap) :
    free (some p) ok h = if p ∈ h.live then some ((), { h with live := h.live.erase p }) else none := rfl

/-- A server is reached and its certificate not accepted. -/
def exRefused : Conn := ⟨false, ⟨some (true, []), true, .ok, true⟩, true, false, true⟩

/-- A proxy that forwards enrolments to a server whose certificate it does not accept keeps an `SSL`
object and a `BIO` for each of them. -/
theorem C114_forward_false (n : Nat) (c : Ctx) (h : Heap) : ∃ r h',
    run c (List.replicate n (.forward ⟨exRefused, .none⟩)) (fun _ => true) h = some (r, h') ∧
      h'.live.length = h.live.length + n * 2 := by
  refine leaks_add ?_ n c h
  intro c hp
  refine ⟨.sslConnect, { c with sock := ⟨false, none, none⟩ }, ⟨hp.next + 3, (hp.next + 2) :: (hp.next + 1) :: hp.live⟩, ?_, rfl⟩
  simp [step, forward, connect, tcwConnect, directConnect, directLoop, secure, exRefused, bind_eq, pure_eq,
    alloc_eq, use_eq, free_eq, tcwClose, directClose]
  rw [List.erase_cons_tail (by simp; omega), List.erase_cons_tail (by simp), List.erase_cons_head]

/-- The server is reached and accepted. -/
def exUp : Conn := { exRefused with shake := true }

/-- A pledge keeps the connection and its `SSL` object for every voucher request for which no random
number, no time or no certificate of the registrar is available. -/
theorem C114_voucher_false (n : Nat) (c : Ctx) (h : Heap) (x y : Try) (hx : x.conn = exUp) (f : Then) (r : Round)
    (nd : Needs) (hn : nd.rand = false ∨ nd.time = false ∨ nd.cert = false) : ∃ r' h',
    run c (List.replicate n (.voucher ⟨x, y, f, nd⟩ r)) (fun _ => true) h = some (r', h') ∧
      h'.live.length = h.live.length + n * 3 := by
  refine leaks_add ?_ n c h
  intro c hp
  by_cases h1 : nd.rand = true
  · by_cases h2 : nd.time = true
    · have h3 : nd.cert = false := by simp_all
      refine ⟨.loadCacerts, ⟨⟨false, some hp.next, none⟩, true⟩,
        ⟨hp.next + 4, (hp.next + 2) :: (hp.next + 1) :: hp.next :: hp.live⟩, ?_, rfl⟩
      simp [step, getVoucher, sendGetVoucher, ask, connect, tcwConnect, directConnect, directLoop, secure, hx,
        exUp, exRefused, bind_eq, pure_eq, alloc_eq, use_eq, free_eq, h1, h2, h3]
    · refine ⟨.syscall, ⟨⟨false, some hp.next, none⟩, true⟩,
        ⟨hp.next + 3, (hp.next + 2) :: (hp.next + 1) :: hp.next :: hp.live⟩, ?_, rfl⟩
      simp [step, getVoucher, sendGetVoucher, ask, connect, tcwConnect, directConnect, directLoop, secure, hx,
        exUp, exRefused, bind_eq, pure_eq, alloc_eq, use_eq, h1, h2]
  · refine ⟨.syscall, ⟨⟨false, some hp.next, none⟩, true⟩,
      ⟨hp.next + 3, (hp.next + 2) :: (hp.next + 1) :: hp.next :: hp.live⟩, ?_, rfl⟩
    simp [step, getVoucher, sendGetVoucher, ask, connect, tcwConnect, directConnect, directLoop, secure, hx,
      exUp, exRefused, bind_eq, pure_eq, alloc_eq, use_eq, h1]

example : (⟨true, true, false, true⟩ : Needs).rand = false ∨ (⟨true, true, false, true⟩ : Needs).time = false ∨
    (⟨true, true, false, true⟩ : Needs).cert = false := by decide

/-- If the certificate is missing on the second connection, after a request for a password, the
socket stays open. -/
theorem C114_second_false :
    (run Ctx.fresh [.voucher ⟨⟨exUp, .authFail⟩, ⟨exUp, .none⟩, .again, ⟨true, true, true, false⟩⟩
        ⟨⟨exUp, .none⟩, ⟨exUp, .none⟩, .stop, ⟨true, true, true, true⟩⟩] (fun _ => true) ⟨0, []⟩).map
      (fun r => (r.1.1, r.2.live)) = some ([.loadCacerts], [4]) := by
  decide +kernel

end Verif.Sock
