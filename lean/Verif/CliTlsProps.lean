import Verif.CliTlsSpec
import Verif.TlsProps

/-!
# C135: the client's TLS settings
-/
namespace Verif.CliTls
open Verif.Tls (World Excused)
open Verif.Host (Inet)

/-! ## The context -/

/-- A context that was created checks servers: TLS 1.1 and 1.2 only, the named suites, the peer's certificate demanded and
checked by the library's function, for the purpose of a server, with the store of the application and the same length of chains whatever
the version of OpenSSL counts; and the client is ready for BRSKI mode. -/
theorem C135_context (o : Ossl) (n : Nat) (m : Option (Nat → Nat → Int)) (c : Ctx) (h : init o (some n) m = some c) :
    c.manual = m ∧ c.srp = false ∧ (c.ready = true ∧ c.brski = false ∧ ∀ s, c.ssl = some s → s.depth + (if o.old then 0 else 1) = 7) ∧ ∃ s, c.ssl = some s ∧ (∀ v, s.allows v = true ↔ v = .tls11 ∨ v = .tls12) ∧ s.ciphers = cipherList ∧
      s.verify = 1 + 2 ∧ s.verifyCb = true ∧ s.purpose = 2 ∧ s.store = some n ∧ s.user = none ∧ s.pwd = none := by
  unfold init initSslCtx at h
  by_cases h1 : o.ctxNew = true
  · by_cases h2 : o.cipherOk cipherList = true
    · by_cases h3 : o.vpmNew = true
      · simp [h1, h2, h3] at h
        subst h
        refine ⟨rfl, rfl, ⟨rfl, rfl, ?_⟩, _, rfl, ?_, rfl, rfl, rfl, rfl, rfl, rfl, rfl⟩
        · intro s hs
          cases hs
          cases o.old <;> rfl
        intro v
        cases v <;> simp [Ssl.allows]
      · simp [h1, h2, h3] at h
    · simp [h1, h2] at h
  · simp [h1] at h

/-- No context is created if anything fails. -/
theorem C135_all_or_nothing (o : Ossl) (n : Option Nat) (m : Option (Nat → Nat → Int)) :
    (init o n m).isSome = true ↔ n.isSome = true ∧ o.ctxNew = true ∧ o.cipherOk cipherList = true ∧ o.vpmNew = true := by
  unfold init initSslCtx
  cases n with
  | none => simp
  | some n =>
    by_cases h1 : o.ctxNew = true
    · by_cases h2 : o.cipherOk cipherList = true
      · by_cases h3 : o.vpmNew = true
        · simp [h1, h2, h3]
        · simp [h1, h2, h3]
      · simp [h1, h2]
    · simp [h1]

/-! ## The suites -/

/-- The data are encrypted with AES or ChaCha20, told by the name of the suite. -/
def Encrypts (suite : List Nat) : Prop := ∃ x ∈ ([[65, 69, 83, 49, 50, 56, 45], [65, 69, 83, 50, 53, 54, 45], [67, 72, 65, 67, 72, 65, 50, 48, 45]] : List (List Nat)), ∃ a b, suite = a ++ x ++ b

/-- A checkable form: some tail of the name begins with one of the words. -/
def encrypts : List Nat → Bool
  | [] => false
  | c :: r => Begins (c :: r) [65, 69, 83, 49, 50, 56, 45] || Begins (c :: r) [65, 69, 83, 50, 53, 54, 45] || Begins (c :: r) [67, 72, 65, 67, 72, 65, 50, 48, 45] || encrypts r

theorem begins_iff (s p : List Nat) : Begins s p = true ↔ ∃ b, s = p ++ b := by
  unfold Begins
  rw [List.isPrefixOf_iff_prefix]
  exact ⟨fun ⟨b, h⟩ => ⟨b, h.symm⟩, fun ⟨b, h⟩ => ⟨b, h.symm⟩⟩

theorem encrypts_sound (s : List Nat) (h : encrypts s = true) : Encrypts s := by
  induction s with
  | nil => cases h
  | cons c r ih =>
    unfold encrypts at h
    simp only [Bool.or_eq_true] at h
    rcases h with ((h | h) | h) | h
    · obtain ⟨b, e⟩ := (begins_iff _ _).1 h
      exact ⟨[65, 69, 83, 49, 50, 56, 45], by simp, [], b, by rw [e]; rfl⟩
    · obtain ⟨b, e⟩ := (begins_iff _ _).1 h
      exact ⟨[65, 69, 83, 50, 53, 54, 45], by simp, [], b, by rw [e]; rfl⟩
    · obtain ⟨b, e⟩ := (begins_iff _ _).1 h
      exact ⟨[67, 72, 65, 67, 72, 65, 50, 48, 45], by simp, [], b, by rw [e]; rfl⟩
    · obtain ⟨x, hx, a, b, e⟩ := ih h
      exact ⟨x, hx, c :: a, b, by rw [e]; rfl⟩

theorem list_facts : ∀ w ∈ words cipherList, w ≠ [83, 82, 80] ∧ (authOf w).byCert = true ∧ encrypts w = true ∧ bySrp w = false := by decide +kernel

/-- Without SRP every suite has the server show a certificate, and encrypts with AES or ChaCha20. -/
theorem C135_suites (suite : List Nat) (h : Offered cipherList suite) : (authOf suite).byCert = true ∧ Encrypts suite ∧ bySrp suite = false := by
  obtain ⟨_, ⟨w, hw, hn⟩, _⟩ := h
  obtain ⟨h1, h2, h3, h4⟩ := list_facts w hw
  rcases hn with rfl | ⟨h, _⟩
  · exact ⟨h2, encrypts_sound _ h3, h4⟩
  · exact absurd h h1

example : Offered cipherList [68, 72, 69, 45, 82, 83, 65, 45, 65, 69, 83, 50, 53, 54, 45, 71, 67, 77, 45, 83, 72, 65, 51, 56, 52] := by
  refine ⟨by decide, ⟨[68, 72, 69, 45, 82, 83, 65, 45, 65, 69, 83, 50, 53, 54, 45, 71, 67, 77, 45, 83, 72, 65, 51, 56, 52], by decide +kernel, .inl rfl⟩, ?_⟩
  intro ⟨w, hw, he⟩
  have : ∀ w ∈ words cipherList, w ≠ [33, 97, 82, 83, 65] ∧ w ≠ [33, 97, 68, 83, 83] := by decide +kernel
  rcases he with ⟨h, _⟩ | ⟨h, _⟩
  · exact (this w hw).1 h
  · exact (this w hw).2 h

/-- None is offered twice, and none is unknown. -/
theorem C135_names : (words cipherList).Nodup ∧ (words cipherList).length = 27 := by decide +kernel

theorem server_words : ∀ w ∈ words srpServer, w = [83, 82, 80] ∨ w ∈ words cipherList := by decide +kernel

theorem srp_auth (suite : List Nat) (h : bySrp suite = true) : authOf suite = .rsa ∨ authOf suite = .dss ∨ authOf suite = .srp := by
  obtain ⟨r, rfl⟩ := (begins_iff _ _).1 h
  unfold authOf
  by_cases h1 : Begins ([83, 82, 80, 45] ++ r) [83, 82, 80, 45, 82, 83, 65, 45] = true
  · left
    rw [if_neg (by simp [Begins]), if_pos (by rw [h1]; simp)]
  · have h1' : Begins ([83, 82, 80, 45] ++ r) [83, 82, 80, 45, 82, 83, 65, 45] = false := by simpa using h1
    rw [if_neg (by simp [Begins]), if_neg (by rw [h1']; simp [Begins])]
    by_cases h2 : Begins ([83, 82, 80, 45] ++ r) [83, 82, 80, 45, 68, 83, 83, 45] = true
    · right; left
      rw [if_pos (by rw [h2]; simp)]
    · have h2' : Begins ([83, 82, 80, 45] ++ r) [83, 82, 80, 45, 68, 83, 83, 45] = false := by simpa using h2
      rw [if_neg (by rw [h2']; simp [Begins]), if_pos (by simp [Begins])]
      exact .inr (.inr rfl)

/-- The server offers suites without a certificate only with SRP. -/
theorem C135_server (srp : Bool) (suite : List Nat) (h : Offered (serverList srp) suite) :
    (authOf suite).byCert = true ∨ (srp = true ∧ bySrp suite = true) := by
  cases srp with
  | false => exact .inl (C135_suites suite h).1
  | true =>
    obtain ⟨g, ⟨w, hw, hn⟩, _⟩ := h
    rcases server_words w hw with rfl | hw
    · rcases hn with rfl | ⟨_, hb⟩
      · exact absurd (by simp) g
      · exact .inr ⟨rfl, hb⟩
    · obtain ⟨h1, h2, _⟩ := list_facts w hw
      rcases hn with rfl | ⟨h, _⟩
      · exact .inl h2
      · exact absurd h h1

example : Offered (serverList true) [83, 82, 80, 45, 65, 69, 83, 45, 49, 50, 56, 45, 67, 66, 67, 45, 83, 72, 65] := by
  refine ⟨by decide, ⟨[83, 82, 80], by decide +kernel, .inr ⟨rfl, by decide⟩⟩, ?_⟩
  intro ⟨w, hw, he⟩
  rcases he with ⟨_, h⟩ | ⟨_, h⟩
  · revert h; decide
  · revert h; decide

/-! ## SRP -/

theorem offered_srpAuth (suite : List Nat) (h : Offered srpAuth suite) : bySrp suite = true := by
  obtain ⟨g, ⟨w, hw, hn⟩, _⟩ := h
  have : w = [83, 82, 80] := by
    have : words srpAuth = [[83, 82, 80]] := by decide
    rw [this] at hw
    simpa using hw
  subst this
  rcases hn with rfl | ⟨_, hb⟩
  · exact absurd (by simp) g
  · exact hb

theorem offered_srpOnly (suite : List Nat) (h : Offered srpOnly suite) : bySrp suite = true ∧ authOf suite = .srp := by
  obtain ⟨g, ⟨w, hw, hn⟩, he⟩ := h
  have hws : words srpOnly = [[83, 82, 80], [33, 97, 82, 83, 65], [33, 97, 68, 83, 83]] := by decide
  have hb : bySrp suite = true := by
    rw [hws] at hw
    rcases hn with rfl | ⟨_, hb⟩
    · exfalso
      apply g
      simp at hw ⊢
      rcases hw with h | h | h <;> simp [h]
    · exact hb
  refine ⟨hb, ?_⟩
  rcases srp_auth suite hb with h | h | h
  · exact absurd ⟨[33, 97, 82, 83, 65], by rw [hws]; simp, .inl ⟨rfl, h⟩⟩ he
  · exact absurd ⟨[33, 97, 68, 83, 83], by rw [hws]; simp, .inr ⟨rfl, h⟩⟩ he
  · exact h

theorem offered_nil (suite : List Nat) (h : Offered [] suite) : False := by
  obtain ⟨g, ⟨w, hw, hn⟩, _⟩ := h
  have : w = [] := by simpa [words] using hw
  subst this
  rcases hn with rfl | ⟨hz, _⟩
  · exact g (by simp)
  · cases hz

/-- When SRP was turned on, it is used exclusively, with the user, the password and the strength given; the server needs no
certificate, and without trust anchors it shows none. -/
theorem C135_exclusive (o : Ossl) (c c' : Ctx) (s : Ssl) (n : Int) (uid pwd : Option (List Nat)) (hs : c.ssl = some s)
    (h : enableSrp o c n uid pwd = .ret .none c') :
    c'.srp = true ∧ ∃ s' u p, c'.ssl = some s' ∧ uid = some u ∧ pwd = some p ∧ s'.user = some u ∧ s'.pwd = some p ∧ s'.strength = some n ∧ 1024 ≤ n ∧
      s'.verify = s.verify ∧ s'.verifyCb = s.verifyCb ∧
      ∀ suite, Offered s'.ciphers suite → bySrp suite = true ∧ (s.store = some 0 → authOf suite = .srp) := by
  unfold enableSrp at h
  rw [hs] at h
  dsimp only at h
  by_cases h1 : n < 1024
  · rw [if_pos h1] at h; cases h
  · rw [if_neg h1] at h
    cases uid with
    | none => cases h
    | some u =>
      cases pwd with
      | none => cases h
      | some p =>
        dsimp only at h
        cases ht : srpList o.old s.store with
        | none => rw [ht] at h; cases h
        | some t =>
          rw [ht] at h
          dsimp only at h
          by_cases h2 : o.cipherOk t = true
          · by_cases h3 : o.userOk u = true
            · by_cases h4 : o.pwdOk p = true
              · simp only [h2, h3, h4, Bool.not_true, Bool.false_eq_true, if_false] at h
                cases h
                refine ⟨rfl, _, u, p, rfl, rfl, rfl, rfl, rfl, rfl, by omega, rfl, rfl, ?_⟩
                intro suite ho
                dsimp only at ho
                unfold srpList at ht
                split at ht
                · rename_i k hk
                  cases ht
                  by_cases hz : k ≠ 0
                  · rw [if_pos hz] at ho
                    refine ⟨offered_srpAuth suite ho, fun h0 => ?_⟩
                    rw [hk] at h0
                    exact absurd (Option.some.inj h0) hz
                  · rw [if_neg hz] at ho
                    exact ⟨(offered_srpOnly suite ho).1, fun _ => (offered_srpOnly suite ho).2⟩
                · split at ht
                  · cases ht
                    exact ⟨(offered_srpOnly suite ho).1, fun _ => (offered_srpOnly suite ho).2⟩
                  · cases ht
              · simp [h2, h3, h4] at h
            · simp [h2, h3] at h
          · simp [h2] at h

/-! ## Histories -/

/-- What holds after any calls. -/
structure Inv (l : List Op) (c : Ctx) (s : Ssl) : Prop where
  ssl : c.ssl = some s
  store : ∃ k, s.store = some k
  verify : s.verify ≠ 0
  max : s.max = 0x303 ∧ s.no2 = true ∧ s.no3 = true ∧ s.no10 = true
  list : s.ciphers = cipherList ∨ (c.srp = true ∧ (s.ciphers = srpOnly ∨ s.ciphers = srpAuth ∨ s.ciphers = []))
  gave : ∀ u p, s.user = some u → s.pwd = some p → Gave l u p

theorem gave_mono {l : List Op} {u p : List Nat} (a : Op) (h : Gave l u p) : Gave (a :: l) u p := by
  obtain ⟨o, n, h, g⟩ := h
  exact ⟨o, n, List.mem_cons_of_mem _ h, g⟩

theorem apply_inv (l : List Op) (c : Ctx) (s : Ssl) (a : Op) (h : Inv l c s) : ∃ c' s', apply c a = some c' ∧ Inv (a :: l) c' s' ∧ c'.manual = c.manual := by
  obtain ⟨h1, ⟨k, h2⟩, h3, h4, h5, h6⟩ := h
  cases a with
  | brski =>
    unfold apply setBrski
    dsimp only
    by_cases hr : c.ready = true
    · by_cases hb : c.brski = true
      · exact ⟨c, s, by simp [hr, hb], ⟨h1, ⟨k, h2⟩, h3, h4, h5, fun u p hu hp => gave_mono _ (h6 u p hu hp)⟩, rfl⟩
      · refine ⟨{ c with brski := true, ssl := some { s with verify := 0xffffffff, verifyCb := false } }, { s with verify := 0xffffffff, verifyCb := false }, by simp [hr, hb, h1],
          ⟨rfl, ⟨k, h2⟩, by simp, h4, h5, fun u p hu hp => gave_mono _ (h6 u p hu hp)⟩, rfl⟩
    · exact ⟨c, s, by simp [hr], ⟨h1, ⟨k, h2⟩, h3, h4, h5, fun u p hu hp => gave_mono _ (h6 u p hu hp)⟩, rfl⟩
  | srp o n uid pwd =>
    have same : ∀ e, enableSrp o c n uid pwd = .ret e c →
        ∃ c' s', apply c (.srp o n uid pwd) = some c' ∧ Inv (.srp o n uid pwd :: l) c' s' ∧ c'.manual = c.manual := by
      intro e he
      exact ⟨c, s, by simp [apply, he], ⟨h1, ⟨k, h2⟩, h3, h4, h5, fun u p hu hp => gave_mono _ (h6 u p hu hp)⟩, rfl⟩
    by_cases g1 : n < 1024
    · exact same .srpStrengthLow (by simp [enableSrp, h1, g1])
    · cases uid with
      | none => exact same .invalidParameters (by simp [enableSrp, h1, g1])
      | some u =>
        cases pwd with
        | none => exact same .invalidParameters (by simp [enableSrp, h1, g1])
        | some p =>
          have ht : ∃ t, srpList o.old s.store = some t ∧ (t = srpOnly ∨ t = srpAuth) := by
            rw [h2]
            unfold srpList
            dsimp only
            by_cases hz : k ≠ 0
            · exact ⟨srpAuth, by rw [if_pos hz], .inr rfl⟩
            · exact ⟨srpOnly, by rw [if_neg hz], .inl rfl⟩
          obtain ⟨t, ht, htt⟩ := ht
          have hl : ∀ b : Bool, (b = true ∧ (t = srpOnly ∨ t = srpAuth ∨ t = [])) ∨ b = false := by
            intro b
            cases b
            · exact .inr rfl
            · exact .inl ⟨rfl, htt.elim .inl (fun h => .inr (.inl h))⟩
          by_cases g2 : o.cipherOk t = true
          · by_cases g3 : o.userOk u = true
            · by_cases g4 : o.pwdOk p = true
              · refine ⟨{ c with srp := true, ssl := some { s with ciphers := t, user := some u, pwd := some p, strength := some n } }, { s with ciphers := t, user := some u, pwd := some p, strength := some n }, by simp [apply, enableSrp, h1, g1, ht, g2, g3, g4], ?_, rfl⟩
                refine ⟨rfl, ⟨k, h2⟩, h3, h4, .inr ⟨rfl, htt.elim .inl (fun h => .inr (.inl h))⟩, ?_⟩
                intro u' p' hu hp
                cases hu
                cases hp
                exact ⟨o, n, List.mem_cons_self, by omega⟩
              · refine ⟨{ c with srp := true, ssl := some { s with ciphers := t, user := some u, pwd := none } }, { s with ciphers := t, user := some u, pwd := none }, by simp [apply, enableSrp, h1, g1, ht, g2, g3, g4], ?_, rfl⟩
                exact ⟨rfl, ⟨k, h2⟩, h3, h4, .inr ⟨rfl, htt.elim .inl (fun h => .inr (.inl h))⟩, fun u' p' _ hp => by cases hp⟩
            · refine ⟨{ c with srp := true, ssl := some { s with ciphers := t, user := none } }, { s with ciphers := t, user := none }, by simp [apply, enableSrp, h1, g1, ht, g2, g3], ?_, rfl⟩
              exact ⟨rfl, ⟨k, h2⟩, h3, h4, .inr ⟨rfl, htt.elim .inl (fun h => .inr (.inl h))⟩, fun u' p' hu _ => by cases hu⟩
          · refine ⟨{ c with srp := true, ssl := some { s with ciphers := if o.kept then s.ciphers else [] } }, { s with ciphers := if o.kept then s.ciphers else [] }, by simp [apply, enableSrp, h1, g1, ht, g2], ?_, rfl⟩
            refine ⟨rfl, ⟨k, h2⟩, h3, h4, ?_, fun u' p' hu hp => gave_mono _ (h6 u' p' hu hp)⟩
            cases o.kept with
            | false => exact .inr ⟨rfl, .inr (.inr rfl)⟩
            | true =>
              rcases h5 with h5 | ⟨_, h5⟩
              · exact .inl h5
              · exact .inr ⟨rfl, h5⟩

theorem inv_mem {l m : List Op} {c : Ctx} {s : Ssl} (h : Inv l c s) (hm : ∀ x ∈ l, x ∈ m) : Inv m c s :=
  ⟨h.ssl, h.store, h.verify, h.max, h.list, fun u p hu hp => by
    obtain ⟨o, n, g1, g2⟩ := h.gave u p hu hp
    exact ⟨o, n, hm _ g1, g2⟩⟩

theorem run_inv (c : Ctx) (s : Ssl) (l m : List Op) (h : Inv m c s) : ∃ c' s', run c l = some c' ∧ Inv (m ++ l) c' s' ∧ c'.manual = c.manual := by
  induction l generalizing c s m with
  | nil => exact ⟨c, s, rfl, by simpa using h, rfl⟩
  | cons a l ih =>
    obtain ⟨c1, s1, e1, i1, m1⟩ := apply_inv m c s a h
    obtain ⟨c2, s2, e2, i2, m2⟩ := ih c1 s1 (a :: m) i1
    refine ⟨c2, s2, by rw [run, e1]; exact e2, inv_mem i2 ?_, m2.trans m1⟩
    intro x hx
    simp only [List.mem_append, List.mem_cons] at hx ⊢
    rcases hx with (h | h) | h
    · exact .inr (.inl h)
    · exact .inl h
    · exact .inr (.inr h)

theorem init_inv (o : Ossl) (n : Option Nat) (m : Option (Nat → Nat → Int)) (c : Ctx) (h : init o n m = some c) : ∃ s, Inv [] c s ∧ c.manual = m := by
  cases n with
  | none => cases h
  | some n =>
    obtain ⟨hm, _, _, s, h1, hv, h2, h3, _, _, h4, h5, h6⟩ := C135_context o n m c h
    have v1 := hv .ssl2
    have v2 := hv .ssl3
    have v3 := hv .tls10
    simp [Ssl.allows] at v1 v2 v3
    have hmax : s.max = 0x303 := by
      have v4 := hv .tls12
      have v5 := hv .tls13
      simp [Ssl.allows] at v4 v5
      omega
    exact ⟨s, ⟨h1, ⟨n, h4⟩, by omega, ⟨hmax, v1, v2, v3⟩, .inl h2, fun u p hu => by rw [h5] at hu; cases hu⟩, hm⟩

/-- After any calls nothing undefined has happened, and there is a context for TLS. -/
theorem C135_defined (o : Ossl) (n : Option Nat) (m : Option (Nat → Nat → Int)) (c : Ctx) (l : List Op) (h : init o n m = some c) :
    ∃ c' s, run c l = some c' ∧ c'.ssl = some s ∧ ∀ v, s.allows v = true ↔ v = .tls11 ∨ v = .tls12 := by
  obtain ⟨s, hi, _⟩ := init_inv o n m c h
  obtain ⟨c', s', e, i, _⟩ := run_inv c s l [] hi
  refine ⟨c', s', e, i.ssl, ?_⟩
  obtain ⟨a, b, d, f⟩ := i.max
  intro v
  cases v <;> simp [Ssl.allows, a, b, d, f]

theorem chain_fine (f : Tls.Note → Option Int) (l : List Tls.Note) (h : Tls.runChain f l = .fine) : ∀ n ∈ l, ∃ r, f n = some r ∧ r ≠ 0 := by
  induction l with
  | nil => intro n hn; cases hn
  | cons a l ih =>
    intro n hn
    rw [Tls.runChain] at h
    cases ha : f a with
    | none => rw [ha] at h; cases h
    | some r =>
      rw [ha] at h
      dsimp only at h
      by_cases hr : r = 0
      · rw [if_pos hr] at h; cases h
      · rw [if_neg hr] at h
        rcases List.mem_cons.1 hn with rfl | hn
        · exact ⟨r, ha, hr⟩
        · exact ih h n hn

theorem callback_excused (t : Tls.Ctx) (w : World) (n : Tls.Note) (r : Int) (h : Tls.callback t w n = some r) (hr : r ≠ 0) :
    Excused t.manual n ∨ Excused none n := by
  unfold Tls.callback at h
  by_cases hc : t.verifyCb = true
  · rw [if_pos hc] at h
    cases h
    left
    cases hk : w.known with
    | true => rw [hk] at hr; exact (Tls.C37_accepts_iff _ _).1 hr
    | false =>
      rw [hk] at hr
      exact .inl (by simpa [Tls.certVerifyCb] using hr)
  · rw [if_neg hc] at h
    right
    unfold Tls.osslVerifyCb at h
    by_cases ho : n.ok = 0
    · rw [if_pos ho] at h
      split at h
      · cases h
      · cases h
        by_cases he : n.err = Tls.errNoCrl
        · exact .inr (.inr ⟨he, fun f hf => by cases hf⟩)
        · rw [if_neg he] at hr
          exact absurd rfl hr
    · exact .inl ho

/-- Whatever calls an application makes, a connection comes about only with a server that has shown a certificate with an excused
chain and the right name, or that knows, by SRP, a user and a password that the application has given. -/
theorem C135_authentic (o : Ossl) (k : Option Nat) (m : Option (Nat → Nat → Int)) (c c' : Ctx) (l : List Op) (s : Ssl) (h : init o k m = some c)
    (hr : run c l = some c') (hs : c'.ssl = some s) (I : Inet) (host : List Nat) (port : Nat) (useProxy : Bool) (proxy : Tls.Proxy) (t : Tls.Ctx)
    (ht : forConnect c' host port useProxy proxy = some t) (w : World) (suite : List Nat) (hrules : Rules s suite w.cert.isSome)
    (hup : Tls.connect I t w = .up) :
    (∃ sans cns, w.cert = some (sans, cns) ∧ Host.verifyhost I host sans cns = .ok ∧ ∀ n ∈ w.notes, Excused m n ∨ Excused none n) ∨
    (w.cert = none ∧ bySrp suite = true ∧ ∃ u p, s.user = some u ∧ s.pwd = some p ∧ Gave l u p) := by
  obtain ⟨s0, hi, hm⟩ := init_inv o k m c h
  obtain ⟨c2, s2, e, i, hm2⟩ := run_inv c s0 l [] hi
  rw [hr] at e
  cases e
  rw [i.ssl] at hs
  cases hs
  have htt : t = ⟨host, port, useProxy, proxy, c'.srp, s.verify, s.verifyCb, c'.manual⟩ := by
    unfold forConnect at ht
    rw [i.ssl] at ht
    cases ht
    rfl
  unfold Tls.connect at hup
  split at hup
  · cases hup
  · by_cases g1 : w.keepalive = true
    · by_cases g2 : w.bio = true
      · by_cases g3 : w.sslNew = true
        · simp only [g1, g2, g3, Bool.not_true, Bool.false_eq_true, if_false] at hup
          split at hup
          · cases hup
          · cases hup
          · rename_i hh
            have hchain : Tls.runChain (Tls.callback t w) w.notes = .fine := by
              unfold Tls.handshake at hh
              split at hh
              · cases hh
              · exfalso
                have hv : (t.verify == 0) = false := by
                  rw [htt]
                  have := i.verify
                  simpa using this
                rw [hv] at hh
                simp at hh
              · rename_i hf
                exact hf
            cases hc : w.cert with
            | some x =>
              left
              obtain ⟨sans, cns⟩ := x
              refine ⟨sans, cns, rfl, ?_, ?_⟩
              · rw [hc] at hup
                have : Host.checkFqdn I t.srp t.host (some (sans, cns)) = Host.verifyhost I t.host sans cns := rfl
                rw [this] at hup
                have hth : t.host = host := by rw [htt]
                rw [hth] at hup
                split at hup
                · cases hup
                · cases hup
                · assumption
              · intro n hn
                obtain ⟨r, hr1, hr2⟩ := chain_fine _ _ hchain n hn
                have := callback_excused t w n r hr1 hr2
                have hmm : t.manual = m := by rw [htt]; exact hm2.trans hm
                rw [hmm] at this
                exact this
            | none =>
              right
              have hcert := hrules.cert
              rw [hc] at hcert
              have hsrp : bySrp suite = true := by
                have ho := hrules.offered
                rcases i.list with hl | ⟨_, hl | hl | hl⟩
                · rw [hl] at ho
                  have := (C135_suites suite ho).1
                  rw [← hcert] at this
                  cases this
                · rw [hl] at ho
                  exact (offered_srpOnly suite ho).1
                · rw [hl] at ho
                  exact offered_srpAuth suite ho
                · rw [hl] at ho
                  exact (offered_nil suite ho).elim
              obtain ⟨q1, q2⟩ := hrules.creds hsrp
              obtain ⟨u, hu⟩ := Option.isSome_iff_exists.1 q1
              obtain ⟨p, hp⟩ := Option.isSome_iff_exists.1 q2
              exact ⟨rfl, hsrp, u, p, hu, hp, i.gave u p hu hp⟩
        · simp [g1, g2, g3] at hup
      · simp [g1, g2] at hup
    · simp [g1] at hup
  · cases hup

/-- An OpenSSL in which everything succeeds. -/
def fine : Ossl := ⟨true, fun _ => true, true, true, fun _ => true, fun _ => true, false⟩

/-- A call for SRP. -/
def exSrp : Op := .srp fine 1024 (some [117, 115, 101, 114]) (some [115, 101, 99, 114, 101, 116])

example : ∃ c c' s, init fine (some 0) none = some c ∧ run c [exSrp] = some c' ∧ c'.ssl = some s ∧ s.ciphers = srpOnly ∧ s.user = some [117, 115, 101, 114] ∧
    Rules s [83, 82, 80, 45, 65, 69, 83, 45, 49, 50, 56, 45, 67, 66, 67, 45, 83, 72, 65] false := by
  refine ⟨_, _, _, rfl, rfl, rfl, rfl, rfl, ?_, ?_, ?_⟩
  · refine ⟨by decide, ⟨[83, 82, 80], by decide, .inr ⟨rfl, by decide⟩⟩, ?_⟩
    intro ⟨w, hw, he⟩
    rcases he with ⟨_, h⟩ | ⟨_, h⟩
    · revert h; decide
    · revert h; decide
  · intro _
    exact ⟨rfl, rfl⟩
  · decide

example : ∃ c c' t, init fine (some 0) none = some c ∧ run c [exSrp] = some c' ∧
    forConnect c' Tls.sampleCtx.host 8443 false ⟨-1, [], [], 0⟩ = some t ∧
    Tls.connect Host.exampleInet t { Tls.sampleWorld with cert := none } = .up := ⟨_, _, _, rfl, rfl, rfl, by decide⟩

example : ∃ c c' t, init fine (some 0) none = some c ∧ run c [.brski] = some c' ∧
    forConnect c' Tls.sampleCtx.host 8443 false ⟨-1, [], [], 0⟩ = some t ∧
    Tls.connect Host.exampleInet t Tls.sampleWorld = .up := ⟨_, _, _, rfl, rfl, rfl, by decide +kernel⟩

/-! ## Calls that fail -/

/-- A call with wrong parameters changes nothing. -/
theorem C135_unchanged_partial (o : Ossl) (c : Ctx) (n : Int) (uid pwd : Option (List Nat)) (s : Ssl) (hs : c.ssl = some s)
    (h : n < 1024 ∨ uid = none ∨ pwd = none) : ∃ e, e ≠ .none ∧ enableSrp o c n uid pwd = .ret e c := by
  unfold enableSrp
  rw [hs]
  dsimp only
  by_cases h1 : n < 1024
  · exact ⟨.srpStrengthLow, by decide, by rw [if_pos h1]⟩
  · rw [if_neg h1]
    cases uid with
    | none => exact ⟨.invalidParameters, by decide, rfl⟩
    | some u =>
      cases pwd with
      | none => exact ⟨.invalidParameters, by decide, rfl⟩
      | some p =>
        rcases h with h | h | h
        · exact absurd h h1
        · cases h
        · cases h

/-- That a call that fails changes nothing is false: a user that OpenSSL refuses (an empty one, for instance) leaves the client without
any suite it could use, so that no connection comes about any more. -/
theorem C135_unchanged_false (o : Ossl) (c : Ctx) (s : Ssl) (k : Nat) (n : Int) (u p : List Nat) (hs : c.ssl = some s) (hk : s.store = some k)
    (hn : 1024 ≤ n) (hu : o.userOk u = false) (hc : o.cipherOk srpOnly = true) (hc' : o.cipherOk srpAuth = true) :
    ∃ c' s', enableSrp o c n (some u) (some p) = .ret .unknown c' ∧ c'.srp = true ∧ c'.ssl = some s' ∧ ∀ suite cert, ¬ Rules s' suite cert := by
  have ht : ∃ t, srpList o.old s.store = some t ∧ o.cipherOk t = true ∧ (t = srpOnly ∨ t = srpAuth) := by
    rw [hk]
    unfold srpList
    dsimp only
    by_cases hz : k ≠ 0
    · exact ⟨srpAuth, by rw [if_pos hz], hc', .inr rfl⟩
    · exact ⟨srpOnly, by rw [if_neg hz], hc, .inl rfl⟩
  obtain ⟨t, ht, htc, htt⟩ := ht
  refine ⟨_, { s with ciphers := t, user := none }, by simp [enableSrp, hs, show ¬ n < 1024 by omega, ht, htc, hu]; rfl, rfl, rfl, ?_⟩
  intro suite cert hr
  have hb : bySrp suite = true := by
    have ho := hr.offered
    dsimp only at ho
    rcases htt with rfl | rfl
    · exact (offered_srpOnly suite ho).1
    · exact offered_srpAuth suite ho
  have := (hr.creds hb).1
  cases this

example : ∃ c s, init fine (some 3) none = some c ∧ c.ssl = some s ∧ s.store = some 3 := ⟨_, _, rfl, rfl, rfl⟩

/-- That verification is off in BRSKI mode, as the comment says, is false: the mode has the bit for it set, only the application's
callback is lost. -/
theorem C135_brski_false (c : Ctx) (s : Ssl) (hs : c.ssl = some s) (hr : c.ready = true) (hb : c.brski = false) :
    ∃ s', (setBrski c).1 = .none ∧ (setBrski c).2.ssl = some s' ∧ s'.verify % 2 = 1 ∧ s'.verifyCb = false := by
  have e : setBrski c = (.none, { c with brski := true, ssl := some { s with verify := 0xffffffff, verifyCb := false } }) := by
    unfold setBrski
    rw [hr, hb, hs]
    rfl
  rw [e]
  refine ⟨_, rfl, rfl, ?_, ?_⟩
  · show 0xffffffff % 2 = 1
    decide
  · rfl

/-- The two settings together: with SRP and without a certificate the name is not looked at, but a server that shows one
under SRP is checked as any other. -/
theorem C135_srp_cert (I : Inet) (host : List Nat) (x : List Host.San × List (Option (List Nat))) (srp : Bool) :
    Host.checkFqdn I srp host (some x) = Host.checkFqdn I false host (some x) := rfl

end Verif.CliTls
