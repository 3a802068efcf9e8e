import Verif.TlsModel
import Verif.HostProps

/-!
# Properties of the connection set-up and of the certificate callbacks (C37, C76, C77, C78)
-/
namespace Verif.Tls
open Verif.Host (Inet San Check Str Plain SanMatches NoLongIp)

/-! ## C37 -/

/-- When a call of the callback may let the handshake go on: OpenSSL found no fault, or the
certificate is untrusted or the chain ends in an unknown self-signed certificate and the
application approves, or a revocation list is missing and the application does not object. -/
def Excused (app : Option (Nat → Nat → Int)) (n : Note) : Prop :=
  n.ok ≠ 0 ∨
  ((n.err = 27 ∨ n.err = 19) ∧ ∃ f, app = some f ∧ f n.cert n.err ≠ 0) ∨
  (n.err = 3 ∧ ∀ f, app = some f → f n.cert n.err ≠ 0)

/-- C37: the callback lets the handshake go on exactly in those cases. -/
theorem C37_accepts_iff (app : Option (Nat → Nat → Int)) (n : Note) :
    certVerifyCb true app n ≠ 0 ↔ Excused app n := by
  unfold certVerifyCb Excused errUntrusted errSelfSigned errNoCrl
  by_cases h : n.ok = 0
  · by_cases h27 : n.err = 27
    · cases app <;> simp [h, h27]
    · by_cases h19 : n.err = 19
      · cases app <;> simp [h, h19]
      · by_cases h3 : n.err = 3
        · cases app <;> simp [h, h3]
        · simp [h, h27, h19, h3]
  · simp [h]

/-- C37: a success stays the success it was, every error that is not one of the three stays a
failure, and without a context nothing is changed. -/
theorem C37_unchanged (known : Bool) (app : Option (Nat → Nat → Int)) (n : Note)
    (h : known = false ∨ n.ok ≠ 0 ∨ (n.err ≠ 27 ∧ n.err ≠ 19 ∧ n.err ≠ 3)) :
    certVerifyCb known app n = n.ok := by
  unfold certVerifyCb errUntrusted errSelfSigned errNoCrl
  rcases h with h | h | ⟨h1, h2, h3⟩
  · simp [h]
  · simp [h]
  · simp [h1, h2, h3]

/-- C37: the application is not asked for a certificate OpenSSL found in order or rejected for
another reason. -/
theorem C37_not_asked (n : Note) (f g : Nat → Nat → Int)
    (h : n.ok ≠ 0 ∨ (n.err ≠ 27 ∧ n.err ≠ 19 ∧ n.err ≠ 3)) :
    certVerifyCb true (some f) n = certVerifyCb true (some g) n := by
  rw [C37_unchanged true _ n (Or.inr h), C37_unchanged true _ n (Or.inr h)]

/-- C37: the whole chain passes exactly if every call is excused. -/
theorem C37_chain (app : Option (Nat → Nat → Int)) (l : List Note) :
    runChain (fun n => some (certVerifyCb true app n)) l = .fine ↔ ∀ n ∈ l, Excused app n := by
  induction l with
  | nil => simp [runChain]
  | cons n l ih =>
    have := C37_accepts_iff app n
    by_cases h : certVerifyCb true app n = 0
    · have : ¬ Excused app n := fun q => (this.mpr q) h
      simp [runChain, h, this]
    · have : Excused app n := this.mp h
      simp [runChain, h, this, ih]

/-- An expired certificate is refused whatever the application says. -/
example : certVerifyCb true (some fun _ _ => 1) ⟨0, 10, 0⟩ = 0 := by decide
example : certVerifyCb true (some fun c _ => if c = 7 then 1 else 0) ⟨0, 27, 7⟩ = 1 := by decide
example : certVerifyCb true none ⟨0, 3, 7⟩ = 1 := by decide

/-! ## C77 -/

/-- C77, the part that holds: with a buffer of at least one byte more than the length given, the
result is the C string of the first `len` bytes of the subject, and nothing else is written. -/
theorem C77_subject_partial (old : List Nat) (len : Nat) (text : List Nat) (hs : 0 ∉ text)
    (hc : len < old.length) :
    ∃ b, subjFld old len text = .bytes b ∧ b.length = old.length ∧ cstr b = text.take len := by
  have tw : ∀ (a r : List Nat), 0 ∉ a → (a ++ 0 :: r).takeWhile (· ≠ 0) = a := by
    intro a r ha
    induction a with
    | nil => simp
    | cons x a ih =>
      simp only [List.mem_cons, not_or] at ha
      rw [List.cons_append, List.takeWhile_cons_of_pos (by simpa using fun h => ha.1 h.symm), ih ha.2]
  have st : ∀ (a r : List Nat), r ≠ [] → (a ++ r).set a.length 0 = a ++ 0 :: r.tail := by
    intro a r hr
    rw [List.set_append_right _ _ (Nat.le_refl _)]
    cases r with
    | nil => exact absurd rfl hr
    | cons x r => simp
  unfold subjFld putZero cstr
  simp only
  by_cases h : text.length > len
  · simp only [if_pos h]
    rw [if_neg (by omega), if_neg (by omega), if_pos (by simp; omega)]
    refine ⟨_, rfl, by simp; omega, ?_⟩
    have hl : (text.take len).length = len := by simp; omega
    have := st (text.take len) (old.drop len) (by
      intro q
      have := congrArg List.length q
      simp at this
      omega)
    rw [hl] at this
    rw [this]
    exact tw _ _ (fun q => hs (List.mem_of_mem_take q))
  · simp only [if_neg h]
    rw [if_neg (by omega)]
    have ht : text.take text.length = text := List.take_length
    have hne : old.drop text.length ≠ [] := by
      intro q
      have := congrArg List.length q
      simp at this
      omega
    rw [ht]
    by_cases h2 : text.length < len
    · rw [if_pos h2, if_pos (by simp; omega)]
      refine ⟨_, rfl, by simp; omega, ?_⟩
      rw [st _ _ hne, tw _ _ hs, List.take_of_length_le (by omega)]
    · have he : len = text.length := by omega
      subst he
      rw [if_neg h2, if_pos (by simp; omega)]
      refine ⟨_, rfl, by simp; omega, ?_⟩
      rw [st _ _ hne, tw _ _ hs, ht]

example : ∃ b, subjFld (List.replicate 256 0) 255 [67, 78, 32, 61, 32, 99, 108, 105, 101, 110, 116] = .bytes b ∧ cstr b = [67, 78, 32, 61, 32, 99, 108, 105, 101, 110, 116] := by
  obtain ⟨b, h1, _, h2⟩ := C77_subject_partial (List.replicate 256 0) 255 [67, 78, 32, 61, 32, 99, 108, 105, 101, 110, 116] (by decide)
    (by rw [List.length_replicate]; omega)
  exact ⟨b, h1, by rw [h2]; rfl⟩

/-- C77 is false of the calls that pass the size of the buffer as the length: a subject of at least
that many bytes makes the function write a NUL behind the buffer. -/
theorem C77_long_subject_false (old text : List Nat) (h : old.length ≤ text.length) :
    subjFld old old.length text = .overrun := by
  unfold subjFld putZero
  simp only
  by_cases h1 : text.length > old.length
  · simp only [if_pos h1]
    rw [if_neg (by omega), if_neg (by omega), if_neg (by simp; omega)]
  · simp only [if_neg h1]
    rw [if_neg (show ¬ text.length < old.length by omega), if_neg (by simp; omega)]

/-- C77: so the server's verification callback corrupts the heap when a client certificate with a
long subject does not verify. -/
theorem C77_verify_callback_false (text : List Nat) (err cert : Nat) (h : 255 ≤ text.length) :
    osslVerifyCb (some text) ⟨0, err, cert⟩ = none := by
  have := C77_long_subject_false (List.replicate 255 0) text (by rw [List.length_replicate]; exact h)
  rw [List.length_replicate] at this
  unfold osslVerifyCb
  rw [if_pos rfl, Option.map_some, this]

example : osslVerifyCb (some (List.replicate 300 65)) ⟨0, 20, 0⟩ = none :=
  C77_verify_callback_false _ _ _ (by rw [List.length_replicate]; omega)

theorem subjFld_short (text : List Nat) (h : text.length < 255) :
    subjFld (List.replicate 255 0) 255 text ≠ .overrun := by
  unfold subjFld putZero
  simp only [if_neg (show ¬ text.length > 255 by omega)]
  rw [if_neg (by rw [List.length_replicate]; omega), if_pos h,
    if_pos (by rw [List.length_append, List.length_drop, List.length_replicate, List.length_take]; omega)]
  exact Buf.noConfusion

/-- C37 for the server (and a client in BRSKI mode): its callback forgives a missing revocation list
only.  `_partial` because of `C77_verify_callback_false`: subjects of less than 255 bytes. -/
theorem C37_server_partial (subj : Option (List Nat)) (n : Note)
    (h : ∀ t, subj = some t → t.length < 255) :
    ∃ r, osslVerifyCb subj n = some r ∧ (r ≠ 0 ↔ n.ok ≠ 0 ∨ n.err = 3) := by
  unfold osslVerifyCb errNoCrl
  by_cases h0 : n.ok = 0
  · rw [if_pos h0]
    refine ⟨if n.err = 3 then 1 else 0, ?_, ?_⟩
    · cases hs : subj with
      | none => rfl
      | some t =>
        have := subjFld_short t (h t hs)
        rw [Option.map_some]
        split
        · rename_i q
          exact absurd (Option.some.inj q) this
        · rfl
    · by_cases h3 : n.err = 3 <;> simp [h0, h3]
  · rw [if_neg h0]
    exact ⟨n.ok, rfl, by simp [h0]⟩

/-! ## C76 -/

/-- The descriptor of the first address to which a connection can be made. -/
def firstUp (l : List Addr) : Option Nat :=
  (l.find? fun a => a.sock.isSome && a.conn).bind (·.sock)

theorem directLoop_spec (l : List Addr) (st : Tcw × Option Nat) (hst : st.1 ≠ .ok) :
    (∃ fd, firstUp l = some fd ∧ directLoop st l = (.ok, some fd)) ∨
    (firstUp l = none ∧ (directLoop st l).1 ≠ .ok ∧ ((directLoop st l).1 = .resolv → st.1 = .resolv)) := by
  induction l generalizing st with
  | nil => exact Or.inr ⟨rfl, hst, fun h => h⟩
  | cons a l ih =>
    unfold firstUp directLoop
    cases hs : a.sock with
    | none =>
      simp only [List.find?_cons, hs, Option.isSome_none, Bool.false_and]
      rcases ih (.socket, none) (by simp) with ⟨fd, h1, h2⟩ | ⟨h1, h2, h3⟩
      · exact Or.inl ⟨fd, h1, h2⟩
      · exact Or.inr ⟨h1, h2, fun q => by have := h3 q; cases this⟩
    | some fd =>
      by_cases hc : a.conn = true
      · simp [hs, hc]
      · have hc' : a.conn = false := by simpa using hc
        simp only [List.find?_cons, hs, hc', Option.isSome_some, Bool.and_false]
        rcases ih (.connect, none) (by simp) with ⟨fd, h1, h2⟩ | ⟨h1, h2, h3⟩
        · exact Or.inl ⟨fd, h1, by simpa using h2⟩
        · exact Or.inr ⟨h1, by simpa using h2, fun q => by have := h3 (by simpa using q); cases this⟩

/-- C76: without a proxy the library connects to the first address of the server's that accepts;
a name that cannot be resolved and a list of addresses none of which accepts are told apart. -/
theorem C76_addresses (l : List Addr) (hl : l ≠ []) :
    (direct (some l)).2 = firstUp l ∧
    ((direct (some l)).1 = .ok ↔ ∃ fd, firstUp l = some fd) ∧
    (direct (some l)).1 ≠ .resolv ∧ (direct none).1 = .resolv := by
  have nofd : ∀ (l : List Addr) (st : Tcw × Option Nat), st.2 = none → firstUp l = none →
      (directLoop st l).2 = none := by
    intro l
    induction l with
    | nil => intro st h _; exact h
    | cons a l ih =>
      intro st h hf
      unfold firstUp at hf
      unfold directLoop
      cases hs : a.sock with
      | none =>
        simp only [List.find?_cons, hs, Option.isSome_none, Bool.false_and] at hf
        exact ih _ rfl hf
      | some fd =>
        by_cases hc : a.conn = true
        · simp [hs, hc] at hf
        · have hc' : a.conn = false := by simpa using hc
          simp only [List.find?_cons, hs, hc', Option.isSome_some, Bool.and_false] at hf
          simp only [hc]
          exact ih _ rfl hf
  cases l with
  | nil => exact absurd rfl hl
  | cons a l =>
    have step : direct (some (a :: l)) = directLoop (.socket, none) (a :: l) := rfl
    rw [step]
    rcases directLoop_spec (a :: l) (.socket, none) (by simp) with ⟨fd, h1, h2⟩ | ⟨h1, h2, h3⟩
    · rw [h2]
      exact ⟨h1.symm, by simp [h1], by simp, rfl⟩
    · refine ⟨by rw [nofd _ _ rfl h1, h1], by simp [h1, h2], fun q => ?_, rfl⟩
      have := h3 q
      cases this

/-- The name of the server in the certificate (`cert`) is the one configured.  Without a certificate
only SRP will do. -/
def NameFits (I : Inet) (srp : Bool) (host : List Nat)
    (cert : Option (List San × List (Option (List Nat)))) : Prop :=
  match cert with
  | none => srp = true
  | some (sans, cns) =>
    (∃ s ∈ sans, SanMatches I host s) ∨
      ((∀ s ∈ sans, s.isHost = false) ∧
        ∃ b, cns.getLast? = some (some b) ∧ Plain b ∧ Host.hostcheck I b host = true)

/-- C76: with the callback and the mode of `est_client_init` a connection comes about exactly if
the transport does, every fault of the chain is excused and the name fits.  `_partial`: the
certificate has no address entry longer than the host's address
(`C11_long_address_false`). -/
theorem C76_connected_iff_partial (I : Inet) (c : Ctx) (w : World) (hcb : c.verifyCb = true)
    (hv : c.verify ≠ 0) (hk : w.known = true) (hp : c.useProxy = false) (l : List Addr)
    (hl : w.addrs = some l) (hne : l ≠ [])
    (hip : ∀ sans cns, w.cert = some (sans, cns) → NoLongIp I c.host sans) :
    connect I c w = .up ↔
      (∃ fd, firstUp l = some fd) ∧ w.keepalive = true ∧ w.bio = true ∧ w.sslNew = true ∧
      w.other = true ∧ (∀ n ∈ w.notes, Excused c.manual n) ∧ NameFits I c.srp c.host w.cert := by
  have hname : ∀ r, Host.checkFqdn I c.srp c.host w.cert = r →
      ((r = .ok ↔ NameFits I c.srp c.host w.cert) ∧ r ≠ .ub) := by
    intro r hr
    subst hr
    unfold Host.checkFqdn NameFits
    cases hc : w.cert with
    | none => cases c.srp <;> simp
    | some x =>
      obtain ⟨sans, cns⟩ := x
      exact Host.C11_accepts_iff_partial I c.host sans cns (hip sans cns hc)
  obtain ⟨_, a2, a3, _⟩ := C76_addresses l hne
  have hchain := C37_chain c.manual w.notes
  unfold connect tcwConnect
  simp only [hp, if_neg (show ¬ (false = true) by simp)]
  rw [if_neg (by simp), hl]
  have hsh : ∃ P : Bool, (P = true ↔ ∀ n ∈ w.notes, Excused c.manual n) ∧
      handshake c w = some (P && w.other) := by
    unfold handshake callback
    rw [if_pos hcb, hk]
    cases hr : runChain (fun n => some (certVerifyCb true c.manual n)) w.notes with
    | undef =>
      exfalso
      have : ∀ l : List Note, runChain (fun n => some (certVerifyCb true c.manual n)) l ≠ .undef := by
        intro l
        induction l with
        | nil => simp [runChain]
        | cons n l ih =>
          simp only [runChain]
          split
          · simp
          · exact ih
      exact this _ hr
    | givenUp =>
      have : ¬ ∀ n ∈ w.notes, Excused c.manual n := fun q => by
        rw [hchain.mpr q] at hr; cases hr
      exact ⟨false, by simp only [this, Bool.false_eq_true], by simp [hv]⟩
    | fine => exact ⟨true, by simp only [true_iff]; exact hchain.mp hr, by rw [Bool.true_and]⟩
  obtain ⟨P, hP, hsh⟩ := hsh
  rw [← hP]
  generalize hd : direct (some l) = d
  rw [hd] at a2 a3
  obtain ⟨t, fd⟩ := d
  simp only at a2 a3
  by_cases ht : t = .ok
  · subst ht
    simp only [true_iff] at a2
    simp only [a2, true_and]
    by_cases k1 : w.keepalive = true
    · by_cases k2 : w.bio = true
      · by_cases k3 : w.sslNew = true
        · simp only [k1, k2, k3, hsh, Bool.not_true, if_neg (show ¬ (false = true) by simp), true_and]
          by_cases hx : P = true
          · by_cases ho : w.other = true
            · simp only [hx, ho, Bool.and_true, true_and]
              obtain ⟨q1, q2⟩ := hname _ rfl
              cases hf : Host.checkFqdn I c.srp c.host w.cert with
              | ub => exact absurd hf q2
              | ok => simp [q1.mp hf]
              | mismatch =>
                have : ¬ NameFits I c.srp c.host w.cert := fun q => by
                  rw [q1.mpr q] at hf; cases hf
                simp [this]
            · have ho' : w.other = false := by simpa using ho
              simp [ho']
          · have hx' : P = false := by simpa using hx
            simp [hx']
        · simp [k1, k2, k3]
      · simp [k1, k2]
    · simp [k1]
  · have hn : ¬ ∃ fd, firstUp l = some fd := fun q => ht (a2.mpr q)
    simp only [hn, false_and, iff_false]
    cases t <;> simp_all

/-- C76: every failure leaves an error that says which step failed. -/
theorem C76_errors (I : Inet) (c : Ctx) (w : World) (e : EstErr) (h : connect I c w = .err e) :
    e = .ipGetaddr ∨ e = .ipConnect ∨ e = .sslNew ∨ e = .sslConnect ∨ e = .fqdnMismatch := by
  unfold connect at h
  split at h
  · cases h; simp
  · split at h
    · cases h; simp
    · split at h
      · cases h; simp
      · split at h
        · cases h; simp
        · split at h
          · cases h
          · cases h; simp
          · split at h
            · cases h
            · cases h; simp
            · cases h
  · cases h; simp

/-- C76: which error stands for which failure (normal mode, no proxy). -/
theorem C76_which_error (I : Inet) (c : Ctx) (w : World) (hcb : c.verifyCb = true)
    (hv : c.verify ≠ 0) (hk : w.known = true) (hp : c.useProxy = false) :
    (w.addrs = none → connect I c w = .err .ipGetaddr) ∧
    (∀ l, w.addrs = some l → l ≠ [] → firstUp l = none → connect I c w = .err .ipConnect) ∧
    (∀ l fd, w.addrs = some l → l ≠ [] → firstUp l = some fd → w.keepalive = true → w.bio = true →
      (w.sslNew = false → connect I c w = .err .sslNew) ∧
      (w.sslNew = true → (∃ n ∈ w.notes, ¬ Excused c.manual n) → connect I c w = .err .sslConnect) ∧
      (w.sslNew = true → (∀ n ∈ w.notes, Excused c.manual n) → w.other = true →
        ∀ sans cns, w.cert = some (sans, cns) → NoLongIp I c.host sans →
          ¬ NameFits I c.srp c.host w.cert → connect I c w = .err .fqdnMismatch)) := by
  have hchain := C37_chain c.manual w.notes
  have hud : ∀ l : List Note, runChain (fun n => some (certVerifyCb true c.manual n)) l ≠ .undef := by
    intro l
    induction l with
    | nil => simp [runChain]
    | cons n l ih =>
      simp only [runChain]
      split
      · simp
      · exact ih
  refine ⟨fun h => ?_, fun l h hl hf => ?_, fun l fd h hl hf k1 k2 => ?_⟩
  · unfold connect tcwConnect
    simp [hp, h, direct]
  · obtain ⟨_, a2, a3, _⟩ := C76_addresses l hl
    unfold connect tcwConnect
    simp only [hp, if_neg (show ¬ (false = true) by simp), h]
    rw [if_neg (by simp)]
    cases ht : (direct (some l)).1 with
    | ok => rw [a2.mp ht |>.choose_spec] at hf; cases hf
    | resolv => exact absurd ht a3
    | _ => rfl
  · obtain ⟨_, a2, _, _⟩ := C76_addresses l hl
    have ht := a2.mpr ⟨fd, hf⟩
    refine ⟨fun k3 => ?_, fun k3 hx => ?_, fun k3 hx ho sans cns hc hip hn => ?_⟩
    · unfold connect tcwConnect
      simp [hp, h, ht, k1, k2, k3]
    · have hs : handshake c w = some false := by
        unfold handshake callback
        rw [if_pos hcb, hk]
        cases hr : runChain (fun n => some (certVerifyCb true c.manual n)) w.notes with
        | undef => exact absurd hr (hud _)
        | givenUp => simp [hv]
        | fine =>
          obtain ⟨n, hn, hb⟩ := hx
          exact absurd (hchain.mp hr n hn) hb
      unfold connect tcwConnect
      simp [hp, h, ht, k1, k2, k3, hs]
    · have hs : handshake c w = some true := by
        unfold handshake callback
        rw [if_pos hcb, hk, hchain.mpr hx, ho]
      have hf : Host.checkFqdn I c.srp c.host w.cert = .mismatch := by
        rw [hc] at hn ⊢
        obtain ⟨q1, q2⟩ := Host.C11_accepts_iff_partial I c.host sans cns hip
        unfold Host.checkFqdn
        cases hr : Host.verifyhost I c.host sans cns with
        | ok => exact absurd (q1.mp hr) hn
        | ub => exact absurd hr q2
        | mismatch => exact hr
      unfold connect tcwConnect
      simp [hp, h, ht, k1, k2, k3, hs, hf]

/-- C76 is false as a safety statement in BRSKI mode, where the store's own callback is in force: a
registrar's certificate with a long subject that does not verify makes the client write behind
a heap buffer. -/
theorem C76_brski_false (I : Inet) (c : Ctx) (w : World) (fd : Nat) (n : Note) (l : List Note)
    (t : List Nat) (hcb : c.verifyCb = false) (hp : c.useProxy = false)
    (ha : w.addrs = some [⟨some fd, true⟩]) (hk : w.keepalive = true) (hb : w.bio = true)
    (hs : w.sslNew = true) (hn : w.notes = n :: l) (h0 : n.ok = 0) (ht : w.subj n.cert = some t)
    (hl : 255 ≤ t.length) : connect I c w = .undef := by
  have q := C77_verify_callback_false t n.err n.cert hl
  have hn0 : n = ⟨0, n.err, n.cert⟩ := by cases n; simp_all
  have : handshake c w = none := by
    unfold handshake callback
    rw [if_neg (by simp [hcb]), hn]
    unfold runChain
    rw [ht, hn0, q]
  unfold connect tcwConnect
  simp [hp, ha, direct, directLoop, hk, hb, hs, this]

/-- A concrete connection. -/
def sampleCtx : Ctx := ⟨[119, 119, 119, 46, 101, 120, 97, 109, 112, 108, 101, 46, 99, 111, 109], 8443, false, ⟨-1, [], [], 0⟩, false, 3, true, none⟩
def sampleWorld : World where
  libcurl := false
  curl _ := .failed
  addrs := some [⟨none, true⟩, ⟨some 5, false⟩, ⟨some 6, true⟩, ⟨some 7, true⟩]
  keepalive := true
  bio := true
  sslNew := true
  known := true
  notes := [⟨1, 0, 2⟩, ⟨0, 3, 1⟩, ⟨1, 0, 0⟩]
  subj _ := some [67, 78, 32, 61, 32, 120]
  other := true
  cert := some ([.dns [42, 46, 101, 120, 97, 109, 112, 108, 101, 46, 99, 111, 109]], [])

example : connect Host.exampleInet sampleCtx sampleWorld = .up := by decide
example : connect Host.exampleInet sampleCtx { sampleWorld with notes := [⟨0, 19, 1⟩] } =
    .err .sslConnect := by decide
example : connect Host.exampleInet { sampleCtx with host := [101, 120, 97, 109, 112, 108, 101, 46, 111, 114, 103] } sampleWorld =
    .err .fqdnMismatch := by decide

/-! ## C78 -/

/-- The address of a server in a URL: an IPv6 address, recognised by its colon, is put into
brackets. -/
def authority (host : List Nat) : List Nat := if 58 ∈ host then 91 :: (host ++ [93]) else host

/-- C78, the part that holds: for a server given by name or IPv4 address the URL names the server
and the port. -/
theorem C78_url_partial (host : List Nat) (port : Nat) (h : 58 ∉ host) (hp : port < 65536) :
    curlUrl host port = [104, 116, 116, 112, 58, 47, 47] ++ (authority host ++ ([58] ++ ClientResp.decimal port)) := by
  unfold curlUrl authority
  simp [h, Nat.mod_eq_of_lt hp]

/-- C78 is false for every IPv6 address: the brackets are never put. -/
theorem C78_ipv6_false (host : List Nat) (port : Nat) (h : 58 ∈ host) (hp : port < 65536) :
    curlUrl host port ≠ [104, 116, 116, 112, 58, 47, 47] ++ (authority host ++ ([58] ++ ClientResp.decimal port)) := by
  unfold curlUrl authority
  simp only [Nat.mod_eq_of_lt hp, if_pos h]
  rw [if_neg (by simp)]
  intro q
  have := congrArg List.length q
  simp at this
  omega

example : curlUrl [58, 58, 49] 8443 = [104, 116, 116, 112, 58, 47, 47, 58, 58, 49, 58, 56, 52, 52, 51] := by decide +kernel

/-- C78: the user and the password go to the proxy exactly if both are set and a method is asked
for, with the methods asked for, and basic if none is left. -/
theorem C78_credentials (p : Proxy) :
    (proxyCred p = none ↔ p.user = [] ∨ p.pwd = [] ∨ p.auth = 0) ∧
    (∀ u q b n, proxyCred p = some (u, q, b, n) → u = p.user ∧ q = p.pwd ∧
      (n = true ↔ p.auth / 8 % 2 = 1) ∧
      (b = true ↔ p.auth % 2 = 1 ∨ p.auth / 8 % 2 ≠ 1)) := by
  constructor
  · unfold proxyCred
    by_cases h1 : p.user = [] <;> by_cases h2 : p.pwd = [] <;> by_cases h3 : p.auth = 0 <;>
      simp [h1, h2, h3]
  · intro u q b n h
    unfold proxyCred at h
    split at h
    · simp only [Option.some.injEq, Prod.mk.injEq] at h
      obtain ⟨rfl, rfl, h⟩ := h
      refine ⟨rfl, rfl, ?_⟩
      by_cases hb : p.auth % 2 = 1 <;> by_cases hn : p.auth / 8 % 2 = 1 <;>
        simp [hb, hn] at h <;> obtain ⟨rfl, rfl⟩ := h <;> simp [hb, hn]
    · cases h

example : proxyCred ⟨1, [117], [112], 8⟩ = some ([117], [112], false, true) := by decide

/-- C78: with a proxy configured the library never connects to the server directly: the outcome does
not depend on the server's addresses. -/
theorem C78_no_bypass (I : Inet) (c : Ctx) (w : World) (a : Option (List Addr))
    (h : c.useProxy = true) (hp : c.proxy.proto ≠ -1) :
    connect I c { w with addrs := a } = connect I c w := by
  have : ∀ b : World, tcwConnect b.libcurl (if c.useProxy = true then c.proxy.proto else -1) b.curl
      b.addrs c.host c.port =
      if b.libcurl then curlConnect (b.curl (curlUrl c.host c.port)) else (.arg, none) := by
    intro b
    unfold tcwConnect
    rw [if_pos h, if_pos hp]
  unfold connect
  rw [this w, this { w with addrs := a }]
  rfl

/-- C78: a build without libcurl refuses to connect when a proxy is configured. -/
theorem C78_no_libcurl (I : Inet) (c : Ctx) (w : World) (h : c.useProxy = true)
    (hp : c.proxy.proto ≠ -1) (hc : w.libcurl = false) : connect I c w = .err .ipConnect := by
  unfold connect tcwConnect
  simp [h, hp, hc]

end Verif.Tls
