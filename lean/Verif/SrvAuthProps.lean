import Verif.SrvAuthLemmas
import Verif.CredProps
import Verif.ConfigProps
import Verif.Asn1Model

/-!
# C129: who the sample server lets in

The sample server knows one user, "estuser" with the password "estpwd", and one token.  The
theorems say which options lead to which checks, which headers pass them, and whom the handlers
of libest then let in.
-/
namespace Verif.SrvAuth
open Verif.AuthHdr (Ah Parsed cstr parseAuthHeader Hash16)
open Verif.ClientResp (Mode)

/-! ## Options -/

/-- C129: the server starts exactly if no realm is longer than 32 characters, Digest is not asked
for in FIPS mode, and a password for enhanced certificate authentication comes with that feature
and has at most 255 characters. -/
theorem C129_starts (lib : Setter.Lib) (os : List Opt) :
    (start lib os).isSome = true ↔
      (∀ r, Opt.realm r ∈ os → r.length ≤ 32) ∧
      ¬ (Opt.digest ∈ os ∧ lib.fips = true) ∧
      (∀ p, last pwdArg os = some p → Opt.eca ∈ os ∧ p.length ≤ 255) := by
  rw [start_eq]
  have hf : os.all fits = true ↔ ∀ r, Opt.realm r ∈ os → r.length ≤ 32 := by
    rw [List.all_eq_true]
    constructor
    · intro h r hr
      have := h _ hr
      simpa [fits] using this
    · intro h o ho
      cases o <;> simp [fits]
      exact h _ ho
  rw [← hf]
  have hp : (ecaPass (after {} os)) = ((last pwdArg os).map (·.take 256)).getD defaultPwd := by
    unfold ecaPass after
    cases last pwdArg os <;> rfl
  rw [hp]
  have e1 : (after {} os).eca = decide (Opt.eca ∈ os) := rfl
  have e2 : (after {} os).pwdSet = (last pwdArg os).isSome := by simp [after]
  have e3 : (after {} os).digest = decide (Opt.digest ∈ os) := rfl
  rw [e1, e2, e3]
  cases hl : last pwdArg os with
  | none =>
    by_cases h1 : Opt.digest ∈ os <;> by_cases h2 : Opt.eca ∈ os <;> cases h3 : lib.fips <;>
      by_cases h4 : os.all fits = true <;> simp [h1, h2, h4, defaultPwd]
  | some p =>
    by_cases h1 : Opt.digest ∈ os <;> by_cases h2 : Opt.eca ∈ os <;> cases h3 : lib.fips <;>
      by_cases h4 : os.all fits = true <;> simp [h1, h2, h4] <;> omega

/-- A library for the examples. -/
def exLib : Setter.Lib := ⟨false, false, fun _ => none, fun _ => none, fun _ => none⟩

example : (start exLib [.digest, .realm [114], .eca, .ecaPwd [120]]).isSome = true := by decide +kernel

/-- The scheme that the options ask for: a token, else Basic, else Digest; Basic without any. -/
def scheme (os : List Opt) : Server.AuthMode :=
  if (last tokenArg os).isSome then .token
  else if Opt.basic ∈ os then .basic
  else if Opt.digest ∈ os then .digest
  else .basic

/-- The application part of the configuration: the callback is registered without `-n`. -/
def appOf (g : Glob) (cb : Server.Cred → Bool) (a : Config.App) : Config.App :=
  { a with authCb := if g.disable then none else some cb }

/-- C129: what the handlers find in the configuration after these options. -/
theorem C129_options {lib : Setter.Lib} {os : List Opt} {g : Glob} {s : Setter.Srv}
    (h : start lib os = some (g, s)) (cb : Server.Cred → Bool) (a : Config.App) :
    let cfg := Config.cfgOf s (appOf g cb a)
    cfg.transport = .http ∧ cfg.authMode = scheme os ∧
      cfg.authCb = (if Opt.disable ∈ os then none else some cb) ∧
      cfg.requireHttpAuth = !decide (Opt.optional ∈ os) ∧
      cfg.enablePop = decide (Opt.pop ∈ os) ∧
      cfg.ecaEnabled = decide (Opt.eca ∈ os) ∧
      cfg.ecaCsrCheck = (decide (Opt.eca ∈ os) && decide (Opt.ecaCheck ∈ os)) ∧
      cfg.mfgs = none := by
  obtain ⟨rfl, rfl⟩ := started h
  have e1 : (after {} os).tokenOn = (last tokenArg os).isSome := by simp [after]
  have e2 : (after {} os).basic = decide (Opt.basic ∈ os) := rfl
  have e3 : (after {} os).digest = decide (Opt.digest ∈ os) := rfl
  have e4 : (after {} os).disable = decide (Opt.disable ∈ os) := rfl
  have e5 : (after {} os).optional = decide (Opt.optional ∈ os) := rfl
  have e6 : (after {} os).pop = decide (Opt.pop ∈ os) := rfl
  have e7 : (after {} os).eca = decide (Opt.eca ∈ os) := rfl
  have e8 : (after {} os).check = decide (Opt.ecaCheck ∈ os) := rfl
  refine ⟨rfl, ?_, ?_, ?_, ?_, ?_, ?_, rfl⟩
  · unfold Config.cfgOf made Config.modeOf scheme
    simp only [e1, e2, e3]
    cases (last tokenArg os).isSome <;> by_cases h2 : Opt.basic ∈ os <;>
      by_cases h3 : Opt.digest ∈ os <;> simp [h2, h3]
  · unfold Config.cfgOf appOf
    simp only [e4]
    by_cases h2 : Opt.disable ∈ os <;> simp [h2]
  · unfold Config.cfgOf made
    simp only [e5]
    by_cases h2 : Opt.optional ∈ os <;> simp [h2]
  · exact e6
  · exact e7
  · unfold Config.cfgOf made
    simp only [e7, e8]
    by_cases h2 : Opt.eca ∈ os <;> by_cases h3 : Opt.ecaCheck ∈ os <;> simp [h2, h3]

/-- C129: the token is that of the last `--token`, the realm that of the last `-r`. -/
theorem C129_values {lib : Setter.Lib} {os : List Opt} {g : Glob} {s : Setter.Srv}
    (h : start lib os = some (g, s)) :
    g.token = ((last tokenArg os).getD []).take 512 ∧ g.realm = (last realmArg os).getD [] ∧
      ecaPass g = (last pwdArg os).getD [99, 105, 115, 99, 111] ∧ g.eca = decide (Opt.eca ∈ os) ∧
      g.digest = decide (Opt.digest ∈ os) ∧ g.realm.length ≤ 32 ∧ (ecaPass g).length ≤ 255 := by
  have hs := (C129_starts lib os).1 (by rw [h]; rfl)
  obtain ⟨rfl, rfl⟩ := started h
  obtain ⟨h1, _, h3⟩ := hs
  have ep : ecaPass (after {} os) = (last pwdArg os).getD [99, 105, 115, 99, 111] := by
    unfold ecaPass after
    cases hl : last pwdArg os with
    | none => rfl
    | some p =>
      simp only [Option.isSome_some, Bool.or_true, if_true, Option.map_some, Option.getD_some]
      exact List.take_of_length_le (by have := (h3 p hl).2; omega)
  have er : (after {} os).realm = (last realmArg os).getD [] := rfl
  refine ⟨?_, er, ep, rfl, rfl, ?_, ?_⟩
  · unfold after
    cases last tokenArg os <;> rfl
  · rw [er]
    cases hl : last realmArg os with
    | none => simp
    | some r =>
      simp only [Option.getD_some]
      unfold last at hl
      obtain ⟨o, ho, hr⟩ := List.exists_of_findSome?_eq_some hl
      cases o <;> simp [realmArg] at hr
      subst hr
      exact h1 _ (by simpa using ho)
  · rw [ep]
    cases hl : last pwdArg os with
    | none => decide
    | some p => exact (h3 p hl).2

example : ∃ g s, start exLib [.token [97], .basic, .digest, .realm [120], .token [98]] = some (g, s) ∧
    g.token = [98] ∧ s.authMode = 3 :=
  ⟨{ tokenOn := true, basic := true, digest := true, realm := [120], token := [98] }, _, rfl, rfl, rfl⟩

/-- A token of more than 512 characters is cut: what the server expects is not what was
configured. -/
theorem C129_token_cut_false (lib : Setter.Lib) (t : List Nat) (ht : 512 < t.length) :
    ∃ g s, start lib [.token t] = some (g, s) ∧ g.token = t.take 512 ∧ g.token ≠ t := by
  have hs : (start lib [.token t]).isSome = true := by
    rw [C129_starts]
    refine ⟨by simp, by simp, ?_⟩
    intro p hp
    simp [last, pwdArg] at hp
  obtain ⟨⟨g, s⟩, h⟩ := Option.isSome_iff_exists.1 hs
  have hv := (C129_values h).1
  have e : g.token = t.take 512 := by rw [hv]; rfl
  refine ⟨g, s, h, e, ?_⟩
  rw [e]
  intro he
  have := congrArg List.length he
  simp at this
  omega

/-! ## Headers -/

/-- The texts that "user:password" stands for in a header are read up to 255 characters each. -/
def Pair (both user pwd : List Nat) : Prop :=
  ∃ u p, both = u ++ 58 :: p ∧ 58 ∉ u ∧ u ≠ [] ∧ u.take 255 = user ∧ p.take 255 = pwd

theorem split_pair (both : List Nat) (h : 58 ∈ both) :
    both = both.takeWhile (· ≠ 58) ++ 58 :: (both.dropWhile (· ≠ 58)).tail ∧
      58 ∉ both.takeWhile (· ≠ 58) := by
  induction both with
  | nil => cases h
  | cons c t ih =>
    by_cases hc : c = 58
    · subst hc; simp
    · have := ih (by simpa [Ne.symm hc] using h)
      simp only [List.takeWhile_cons, List.dropWhile_cons, hc, ne_eq, not_false_eq_true, decide_true,
        if_true, List.cons_append, List.cons.injEq, true_and, List.mem_cons, not_or]
      exact ⟨this.1, Ne.symm hc, this.2⟩

theorem takeWhile_pair (u p : List Nat) (h : 58 ∉ u) :
    (u ++ 58 :: p).takeWhile (· ≠ 58) = u ∧ (u ++ 58 :: p).dropWhile (· ≠ 58) = 58 :: p := by
  induction u with
  | nil => simp
  | cons c u ih =>
    have hc : c ≠ 58 := fun e => h (by simp [e])
    obtain ⟨a, b⟩ := ih (fun e => h (by simp [e]))
    simp [hc] at a b ⊢
    exact ⟨a, b⟩

/-- The user name and the password that the server expects with Basic. -/
def expected (g : Glob) : List Nat × List Nat :=
  if g.eca then ([47, 67, 78, 61, 49, 50, 55, 46, 48, 46, 48, 46, 49], ecaPass g) else ([101, 115, 116, 117, 115, 101, 114], [101, 115, 116, 112, 119, 100])

theorem basic_ok (H g) (ah : Ah) (hm : ah.mode = .basic) (u p : List Nat) (hu : ah.user = some u)
    (hp : ah.pwd = some p) : (httpAuth H g ah).2 = .ok (u == (expected g).1 && p == (expected g).2) := by
  unfold httpAuth expected
  cases hg : g.eca <;> simp only [hm, hu, hp, same, Bool.false_eq_true, if_false, if_true]
  · cases h : u == [101, 115, 116, 117, 115, 101, 114] <;> simp
  · cases h : u == [47, 67, 78, 61, 49, 50, 55, 46, 48, 46, 48, 46, 49] <;> simp

/-- C129 for Basic: a header passes exactly if it is a Basic header whose decoded text is the
user name, a colon and the password. -/
theorem C129_basic (H g odd) (h : List Nat) :
    login H g (parseAuthHeader odd .basic (some h)) = .ok true ↔
      AuthHdr.startsWith [66, 97, 115, 105, 99, 32] h = true ∧
      ∃ n b, Base64.decode odd ((h.drop 6).dropWhile HttpHdr.isSpace) 512 = .ret n b ∧
        n ≠ 0 ∧ n < 512 ∧ Pair (cstr b) (expected g).1 (expected g).2 := by
  constructor
  · intro hl
    cases hp : parseAuthHeader odd .basic (some h) with
    | ub => rw [hp] at hl; simp [login] at hl
    | missing => rw [hp] at hl; simp [login] at hl
    | bad => rw [hp] at hl; simp [login] at hl
    | good ah uid =>
      obtain ⟨hs, n, b, h1, h2, h3, h4⟩ := (good_basic odd h ah uid).1 hp
      obtain ⟨h5, h6, h7⟩ := splitBasic_good h4
      obtain ⟨s1, s2⟩ := split_pair _ h5
      rw [hp] at hl
      simp only [login] at hl
      rw [basic_ok H g ah (by rw [h7]) _ _ (by rw [h7]) (by rw [h7])] at hl
      simp only [Except.ok.injEq, Bool.and_eq_true, beq_iff_eq] at hl
      refine ⟨hs, n, b, h1, h2, h3, _, _, s1, s2, ?_, hl.1, hl.2⟩
      intro he
      rw [he] at s1
      rw [s1] at h6
      exact h6 rfl
  · rintro ⟨hs, n, b, h1, h2, h3, u, p, e, hu, hne, hu2, hp2⟩
    obtain ⟨t1, t2⟩ := takeWhile_pair u p hu
    have hj : AuthHdr.judge (AuthHdr.splitBasic (cstr b) n) =
        .good { mode := .basic, user := some (u.take 255), pwd := some (p.take 255) }
          (some (u.take 255)) := by
      rw [e]
      unfold AuthHdr.splitBasic
      rw [if_neg (by simp), if_neg ?_, t1, t2]
      · simp [AuthHdr.judge, AuthHdr.maxUidPwd]
      · cases u with
        | nil => exact absurd rfl hne
        | cons c u =>
          simp
          exact fun e => hu (by simp [e])
    have hp := (good_basic odd h _ _).2 ⟨hs, n, b, h1, h2, h3, hj⟩
    rw [hp]
    simp only [login]
    rw [basic_ok H g _ rfl _ _ rfl rfl, hu2, hp2]
    simp

/-- C129: without enhanced certificate authentication that is one text only. -/
theorem C129_basic_text (g : Glob) (hg : g.eca = false) (both : List Nat) :
    Pair both (expected g).1 (expected g).2 ↔ both = [101, 115, 116, 117, 115, 101, 114, 58, 101, 115, 116, 112, 119, 100] := by
  have short : ∀ (x t : List Nat), t.length < 255 → (x.take 255 = t ↔ x = t) := by
    intro x t ht
    constructor
    · intro h
      have h2 := congrArg List.length h
      simp at h2
      rw [List.take_of_length_le (by omega)] at h
      exact h
    · intro h
      rw [h]
      exact List.take_of_length_le (by omega)
  unfold Pair expected
  simp only [hg, Bool.false_eq_true, if_false]
  constructor
  · rintro ⟨u, p, h1, _, _, h2, h3⟩
    rw [short _ _ (by decide)] at h2 h3
    rw [h1, h2, h3]
    rfl
  · intro h
    exact ⟨[101, 115, 116, 117, 115, 101, 114], [101, 115, 116, 112, 119, 100], h, by decide, by decide, rfl, rfl⟩

example (H odd) : login H {} (parseAuthHeader odd .basic (some [66, 97, 115, 105, 99, 32, 90, 88, 78, 48, 100, 88, 78, 108, 99, 106, 112, 108, 99, 51, 82, 119, 100, 50, 81, 61])) = .ok true := by
  have : parseAuthHeader odd .basic (some [66, 97, 115, 105, 99, 32, 90, 88, 78, 48, 100, 88, 78, 108, 99, 106, 112, 108, 99, 51, 82, 119, 100, 50, 81, 61]) =
      .good { mode := .basic, user := some [101, 115, 116, 117, 115, 101, 114], pwd := some [101, 115, 116, 112, 119, 100] } (some [101, 115, 116, 117, 115, 101, 114]) := by
    rfl
  rw [this]
  rfl

/-- C129 for tokens: a header passes exactly if it is a Bearer header whose decoded text, up to
512 characters, is the token of the server. -/
theorem C129_token (H g odd) (h : List Nat) :
    login H g (parseAuthHeader odd .token (some h)) = .ok true ↔
      AuthHdr.startsWith [66, 101, 97, 114, 101, 114, 32] h = true ∧
      ∃ n b, Base64.decode odd ((h.drop 6).dropWhile HttpHdr.isSpace) 1024 = .ret n b ∧
        n ≠ 0 ∧ n < 1024 ∧ (cstr b).take 512 = g.token := by
  constructor
  · intro hl
    cases hp : parseAuthHeader odd .token (some h) with
    | ub => rw [hp] at hl; simp [login] at hl
    | missing => rw [hp] at hl; simp [login] at hl
    | bad => rw [hp] at hl; simp [login] at hl
    | good ah uid =>
      obtain ⟨hs, _, n, b, h1, h2, h3, h4⟩ := (good_token odd h ah uid).1 hp
      rw [hp, h4] at hl
      simp [login, httpAuth, same] at hl
      exact ⟨hs, n, b, h1, h2, h3, hl⟩
  · rintro ⟨hs, n, b, h1, h2, h3, h4⟩
    rw [(good_token odd h _ _).2 ⟨hs, rfl, n, b, h1, h2, h3, rfl⟩]
    simp [login, httpAuth, same, h4]

example (H odd) : login H { token := [116, 111, 107] } (parseAuthHeader odd .token (some [66, 101, 97, 114, 101, 114, 32, 100, 71, 57, 114])) = .ok true := by
  have : parseAuthHeader odd .token (some [66, 101, 97, 114, 101, 114, 32, 100, 71, 57, 114]) =
      .good { mode := .token, token := some [116, 111, 107] } none := by rfl
  rw [this]
  rfl

/-- The response of RFC 2617 for the user "estuser" and the password "estpwd". -/
def response (H : List Nat → List Nat) (realm nonce nc cnonce uri : List Nat) : List Nat :=
  AuthHdr.hex (H (AuthHdr.hex (H ([101, 115, 116, 117, 115, 101, 114, 58] ++ realm ++ [58, 101, 115, 116, 112, 119, 100])) ++ 58 :: (nonce ++ 58 :: (nc ++ 58 ::
    (cnonce ++ 58 :: ([97, 117, 116, 104] ++ 58 :: AuthHdr.hex (H ([80, 79, 83, 84, 58] ++ uri))))))))

theorem ha1_hex (H) (hH : Hash16 H) (g : Glob) (hd : g.digest = true) :
    ha1 H g = AuthHdr.hex (H ([101, 115, 116, 117, 115, 101, 114, 58] ++ g.realm ++ [58, 101, 115, 116, 112, 119, 100])) := by
  unfold ha1
  rw [if_pos hd, hex2_hex _ (hH _).1]
  simp

theorem digest_value (H) (hH : Hash16 H) (g : Glob) (hd : g.digest = true) {ah : Ah}
    (hf : Fields ah) (uri nonce nc cnonce : List Nat) (h1 : ah.uri = some uri)
    (h2 : ah.nonce = some nonce) (h3 : ah.nc = some nc) (h4 : ah.cnonce = some cnonce) :
    AuthHdr.serverDigest H ah (ha1 H g) = some (response H g.realm nonce nc cnonce uri) ∧
      (response H g.realm nonce nc cnonce uri).length = 32 := by
  have hl : ∀ x, (AuthHdr.hex (H x)).length = 32 := fun x => by
    rw [(AuthHdr.hex_text _ (hH x).1).2, (hH x).2]
  refine ⟨?_, hl _⟩
  unfold AuthHdr.serverDigest AuthHdr.respond response
  rw [h1, h2, h3, h4, ha1_hex H hH g hd]
  simp only [Option.some.injEq]
  rw [List.take_of_length_le (Nat.le_of_eq (hl _)), List.take_of_length_le (hf.nonce _ h2).2,
    List.take_of_length_le (hf.nc _ h3).2, List.take_of_length_le (hf.cnonce _ h4).2,
    List.take_of_length_le (hf.uri _ h1).2]
  simp

/-- C129 for Digest: a header that the parser accepts passes exactly if its user is "estuser" and
its response begins with the value of RFC 2617 for the password "estpwd" and the other fields of
the header. -/
theorem C129_digest (H) (hH : Hash16 H) (g : Glob) (hd : g.digest = true) (odd) (h : List Nat)
    (hz : 0 ∉ h) (ah : Ah) (uid) (hg : parseAuthHeader odd .digest (some h) = .good ah uid) :
    login H g (parseAuthHeader odd .digest (some h)) = .ok true ↔
      ∃ uri nonce nc cnonce r, ah.uri = some uri ∧ ah.nonce = some nonce ∧ ah.nc = some nc ∧
        ah.cnonce = some cnonce ∧ ah.response = some r ∧ ah.user = some [101, 115, 116, 117, 115, 101, 114] ∧
        r.take 32 = response H g.realm nonce nc cnonce uri := by
  obtain ⟨hf, hu, f1, f2, f3, f4⟩ := good_digest_fields hz hg
  obtain ⟨u, hu⟩ := Option.isSome_iff_exists.1 hu
  obtain ⟨uri, f1⟩ := Option.isSome_iff_exists.1 f1
  obtain ⟨nonce, f2⟩ := Option.isSome_iff_exists.1 f2
  obtain ⟨nc, f3⟩ := Option.isSome_iff_exists.1 f3
  obtain ⟨cnonce, f4⟩ := Option.isSome_iff_exists.1 f4
  obtain ⟨d1, d2⟩ := digest_value H hH g hd hf uri nonce nc cnonce f1 f2 f3 f4
  rw [hg]
  unfold login httpAuth
  simp only [hf.mode, hu, same, d1]
  rw [List.take_of_length_le (Nat.le_of_eq d2)]
  by_cases hue : u = [101, 115, 116, 117, 115, 101, 114]
  · subst hue
    simp only [beq_self_eq_true]
    cases hr : ah.response with
    | none => simp
    | some r =>
      simp only [Except.ok.injEq, beq_iff_eq, Option.some.injEq]
      constructor
      · intro e
        exact ⟨uri, nonce, nc, cnonce, r, f1, f2, f3, f4, rfl, trivial, e⟩
      · rintro ⟨uri', nonce', nc', cnonce', r', g1, g2, g3, g4, rfl, _, e⟩
        rw [f1] at g1; rw [f2] at g2; rw [f3] at g3; rw [f4] at g4
        cases g1; cases g2; cases g3; cases g4
        exact e
  · have hb : (u == [101, 115, 116, 117, 115, 101, 114]) = false := by simpa using hue
    simp [hb]
    intro _ _ _ _ _ _ _ _ _ _ he
    exact absurd he hue

/-- C129: nothing invalid is accessed by the check of a Basic or a Bearer header (if the parser
got through), and by that of a Digest header exactly if it has a response or another user. -/
theorem C129_safe_partial (H) (g : Glob) (odd) (m : Mode) (h : List Nat) (hz : 0 ∉ h) (ah : Ah) (uid)
    (hg : parseAuthHeader odd m (some h) = .good ah uid) :
    ((m = .basic ∨ m = .token) → ∃ b, login H g (.good ah uid) = .ok b) ∧
    (m = .digest → ((∃ b, login H g (.good ah uid) = .ok b) ↔
      ah.response.isSome = true ∨ ah.user ≠ some [101, 115, 116, 117, 115, 101, 114])) := by
  refine ⟨?_, ?_⟩
  · rintro (rfl | rfl)
    · obtain ⟨_, n, b, _, _, _, h4⟩ := (good_basic odd h ah uid).1 hg
      obtain ⟨_, _, h7⟩ := splitBasic_good h4
      exact ⟨_, basic_ok H g ah (by rw [h7]) _ _ (by rw [h7]) (by rw [h7])⟩
    · obtain ⟨_, _, n, b, _, _, _, h4⟩ := (good_token odd h ah uid).1 hg
      rw [h4]
      exact ⟨_, rfl⟩
  · rintro rfl
    obtain ⟨hf, hu, f1, f2, f3, f4⟩ := good_digest_fields hz hg
    obtain ⟨u, hu⟩ := Option.isSome_iff_exists.1 hu
    obtain ⟨uri, f1⟩ := Option.isSome_iff_exists.1 f1
    obtain ⟨nonce, f2⟩ := Option.isSome_iff_exists.1 f2
    obtain ⟨nc, f3⟩ := Option.isSome_iff_exists.1 f3
    obtain ⟨cnonce, f4⟩ := Option.isSome_iff_exists.1 f4
    have hd : ∃ d, AuthHdr.serverDigest H ah (ha1 H g) = some d := by
      unfold AuthHdr.serverDigest
      rw [f1, f2, f3, f4]
      exact ⟨_, rfl⟩
    obtain ⟨d, hd⟩ := hd
    unfold login httpAuth
    simp only [hf.mode, hu, same, hd]
    by_cases hue : u = [101, 115, 116, 117, 115, 101, 114]
    · subst hue
      simp only [beq_self_eq_true]
      cases ah.response <;> simp
    · have hb : (u == [101, 115, 116, 117, 115, 101, 114]) = false := by simpa using hue
      simp [hb, hue]

/-- The header of the next theorem. -/
def noResponse : List Nat := [68, 105, 103, 101, 115, 116, 32, 117, 115, 101, 114, 110, 97, 109, 101, 61, 34, 101, 115, 116, 117, 115, 101, 114, 34, 44, 32, 117, 114, 105, 61, 34, 47, 34, 44, 32, 110, 111, 110, 99, 101, 61, 34, 49, 34, 44, 32, 110, 99, 61, 49, 44, 32, 99, 110, 111, 110, 99, 101, 61, 34, 50, 34]

/-- A Digest header of the known user without a response makes the server read through NULL,
whatever the password: the parser does not demand the field and the callback compares it. -/
theorem C129_no_response_false (H) (g : Glob) (odd) :
    login H g (parseAuthHeader odd .digest (some noResponse)) = .error .null := by
  have : parseAuthHeader odd .digest (some noResponse) =
      .good { mode := .digest, user := some [101, 115, 116, 117, 115, 101, 114], uri := some [47], nonce := some [49],
              nc := some [49], cnonce := some [50] } (some [101, 115, 116, 117, 115, 101, 114]) :=
    (good_digest odd _ _ _).2 ⟨by decide +kernel, by decide +kernel, by decide +kernel⟩
  rw [this]
  rfl

/-- The nonce of the challenge is not looked at again: a header with any nonce passes, also one
that the server never sent, and any number of times. -/
theorem C129_replay_false (H) (hH : Hash16 H) (g : Glob) (hd : g.digest = true) (odd)
    (hr : AuthHdr.Quotable g.realm) (hrl : g.realm.length ≤ 32) (nonce cnonce uri : List Nat)
    (hn : AuthHdr.Quotable nonce) (hc : AuthHdr.Quotable cnonce) (hu : AuthHdr.Quotable uri)
    (ln : nonce.length ≤ 64) (lc : cnonce.length ≤ 64) (lu : uri.length ≤ 96) :
    login H g (parseAuthHeader odd .digest
      (some (AuthHdr.digestValueText H [101, 115, 116, 117, 115, 101, 114] g.realm [101, 115, 116, 112, 119, 100] nonce cnonce uri))) = .ok true := by
  rw [AuthHdr.C34_header_round_trip odd H hH [101, 115, 116, 117, 115, 101, 114] g.realm [101, 115, 116, 112, 119, 100] nonce cnonce uri
    (by unfold AuthHdr.Quotable; decide) hr hn hu hc ln lc (by simp; omega)]
  have hl : ∀ x, (AuthHdr.hex (H x)).length = 32 := fun x => by
    rw [(AuthHdr.hex_text _ (hH x).1).2, (hH x).2]
  simp only [login, httpAuth, AuthHdr.serverDigest, same, AuthHdr.clientDigest]
  rw [ha1_hex H hH g hd, List.take_of_length_le (Nat.le_of_eq (hl _))]
  rw [List.take_of_length_le (l := uri) (by omega)]
  have : AuthHdr.ha1 H [101, 115, 116, 117, 115, 101, 114] g.realm [101, 115, 116, 112, 119, 100] =
      AuthHdr.hex (H ([101, 115, 116, 117, 115, 101, 114, 58] ++ g.realm ++ [58, 101, 115, 116, 112, 119, 100])) := by
    unfold AuthHdr.ha1
    rw [List.take_of_length_le (l := g.realm) (by omega)]
    simp
  rw [this]
  simp

/-- A header with more text behind the right response. -/
def longResponse : List Nat :=
  [68, 105, 103, 101, 115, 116, 32, 117, 115, 101, 114, 110, 97, 109, 101, 61, 34, 101, 115, 116, 117, 115, 101, 114, 34, 44, 32, 117, 114, 105, 61, 34, 47, 34, 44, 32, 110, 111, 110, 99, 101, 61, 34, 49, 34, 44, 32, 110, 99, 61, 49, 44, 32, 99, 110, 111, 110, 99, 101, 61, 34, 50, 34, 44, 32, 114, 101, 115, 112, 111, 110, 115, 101, 61, 34] ++
    response AuthHdr.exampleHash [114] [49] [49] [50] [47] ++ [109, 111, 114, 101, 34]

/-- Only the first 32 characters of the response are compared. -/
theorem C129_long_response_false (odd) :
    ∃ ah uid r, parseAuthHeader odd .digest (some longResponse) = .good ah uid ∧
      ah.response = some r ∧ r ≠ response AuthHdr.exampleHash [114] [49] [49] [50] [47] ∧
      login AuthHdr.exampleHash { digest := true, realm := [114] } (.good ah uid) = .ok true := by
  have hg : parseAuthHeader odd .digest (some longResponse) =
      .good { mode := .digest, user := some [101, 115, 116, 117, 115, 101, 114], uri := some [47], nonce := some [49],
              nc := some [49], cnonce := some [50],
              response := some (response AuthHdr.exampleHash [114] [49] [49] [50] [47] ++ [109, 111, 114, 101]) }
        (some [101, 115, 116, 117, 115, 101, 114]) :=
    (good_digest odd _ _ _).2 ⟨by decide +kernel, by decide +kernel, by decide +kernel⟩
  refine ⟨_, _, _, hg, rfl, by decide +kernel, ?_⟩
  rw [← hg]
  exact (C129_digest _ AuthHdr.exampleHash_ok { digest := true, realm := [114] } rfl odd _
    (by decide +kernel) _ _ hg).2 ⟨_, _, _, _, _, rfl, rfl, rfl, rfl, rfl, rfl, by decide +kernel⟩

/-- With enhanced certificate authentication the user name is that of a certificate and the
password is fixed: a client that sends both in a Basic header passes without any certificate,
and the user "estuser" does not pass any more. -/
theorem C129_eca_header_false (H) (g : Glob) (hg : g.eca = true) (hp : g.pwdSet = false) (odd) :
    login H g (parseAuthHeader odd .basic (some [66, 97, 115, 105, 99, 32, 76, 48, 78, 79, 80, 84, 69, 121, 78, 121, 52, 119, 76, 106, 65, 117, 77, 84, 112, 106, 97, 88, 78, 106, 98, 119, 61, 61])) = .ok true ∧
    login H g (parseAuthHeader odd .basic (some [66, 97, 115, 105, 99, 32, 90, 88, 78, 48, 100, 88, 78, 108, 99, 106, 112, 108, 99, 51, 82, 119, 100, 50, 81, 61])) = .ok false := by
  have h1 : parseAuthHeader odd .basic (some [66, 97, 115, 105, 99, 32, 76, 48, 78, 79, 80, 84, 69, 121, 78, 121, 52, 119, 76, 106, 65, 117, 77, 84, 112, 106, 97, 88, 78, 106, 98, 119, 61, 61]) =
      .good { mode := .basic, user := some [47, 67, 78, 61, 49, 50, 55, 46, 48, 46, 48, 46, 49], pwd := some [99, 105, 115, 99, 111] }
        (some [47, 67, 78, 61, 49, 50, 55, 46, 48, 46, 48, 46, 49]) := by rfl
  have h2 : parseAuthHeader odd .basic (some [66, 97, 115, 105, 99, 32, 90, 88, 78, 48, 100, 88, 78, 108, 99, 106, 112, 108, 99, 51, 82, 119, 100, 50, 81, 61]) =
      .good { mode := .basic, user := some [101, 115, 116, 117, 115, 101, 114], pwd := some [101, 115, 116, 112, 119, 100] } (some [101, 115, 116, 117, 115, 101, 114]) := by
    rfl
  rw [h1, h2]
  simp only [login]
  rw [basic_ok H g _ rfl _ _ rfl rfl, basic_ok H g _ rfl _ _ rfl rfl]
  simp only [expected, hg, if_true, ecaPass, hp, Bool.false_eq_true, if_false]
  exact ⟨rfl, rfl⟩

/-- What the server prints as the token it received is the secret one that is configured, and the other
way round. -/
theorem C129_token_label_false (H) (g : Glob) (ah : Ah) (hm : ah.mode = .token) :
    (httpAuth H g ah).1 = [⟨[67, 111, 110, 102, 105, 103, 117, 114, 101, 100, 32, 97, 99, 99, 101, 115, 115, 32, 116, 111, 107, 101, 110, 32, 61, 32], ah.token⟩,
      ⟨[67, 108, 105, 101, 110, 116, 32, 97, 99, 99, 101, 115, 115, 32, 116, 111, 107, 101, 110, 32, 114, 101, 99, 101, 105, 118, 101, 100, 32, 61, 32], some g.token⟩] := by
  unfold httpAuth
  simp [hm]

/-- A structure without a user name, or without a token, leads to a comparison with NULL.  The parser
makes no such structure (`C129_safe_partial`). -/
theorem C129_null (H) (g : Glob) (ah : Ah) :
    ((ah.mode = .basic ∨ ah.mode = .digest) → ah.user = none → (httpAuth H g ah).2 = .error .null) ∧
    (ah.mode = .token → ah.token = none → (httpAuth H g ah).2 = .error .null) := by
  refine ⟨?_, ?_⟩
  · rintro (hm | hm) hu <;> simp [httpAuth, hm, hu, same]
  · intro hm hu; simp [httpAuth, hm, hu, same]

example : (httpAuth id { } { mode := .token }).2 = .error .null := rfl

/-! ## With the handlers of libest -/

/-- The callback, for the structure that the handlers give it. -/
def sampleCb (H : List Nat → List Nat) (g : Glob) (cr : Server.Cred) : Bool :=
  match (httpAuth H g (Cred.read cr)).2 with
  | .ok b => b
  | .error _ => false

theorem read_credOf (ah : Ah) (he : Cred.Ends ah) : Cred.read (Wire.credOf ah) =
    { ah with user := some (ah.user.getD []), pwd := some (ah.pwd.getD []) } := by
  have hx : ∀ f ∈ [ah.uri, ah.nonce, ah.nc, ah.cnonce, ah.qop, ah.response, ah.token],
      ∀ r, Cred.getField (Wire.field f ++ r) = (f, r) := fun f hf r => Cred.getField_field f r (he f hf)
  have hlast : Cred.getField (Wire.field ah.token) = (ah.token, []) := by
    have := hx ah.token (by simp) []
    simpa using this
  have hm : Wire.toMode (Wire.ofMode ah.mode) = ah.mode := by cases ah.mode <;> rfl
  simp only [Cred.read, Wire.credOf]
  simp only [hx ah.uri (by simp), hx ah.nonce (by simp), hx ah.nc (by simp), hx ah.cnonce (by simp),
    hx ah.qop (by simp), hx ah.response (by simp), hlast, hm]

theorem good_cb {H g odd m} {h : List Nat} {ah : Ah} {uid} (hz : 0 ∉ h)
    (hm : m = .basic ∨ m = .digest ∨ m = .token) (hg : parseAuthHeader odd m (some h) = .good ah uid) :
    sampleCb H g (Wire.credOf ah) = true ↔ (httpAuth H g ah).2 = .ok true := by
  have key : Cred.Ends ah → ((httpAuth H g { ah with
      user := some (ah.user.getD [])
      pwd := some (ah.pwd.getD []) }).2 = (httpAuth H g ah).2) →
      (sampleCb H g (Wire.credOf ah) = true ↔ (httpAuth H g ah).2 = .ok true) := by
    intro he hs
    unfold sampleCb
    rw [read_credOf ah he, hs]
    cases (httpAuth H g ah).2 <;> simp
  rcases hm with rfl | rfl | rfl
  · obtain ⟨_, n, b, _, _, _, h4⟩ := (good_basic odd h ah uid).1 hg
    obtain ⟨_, _, h7⟩ := splitBasic_good h4
    refine key ?_ (by rw [h7]; rfl)
    intro f hf v hv
    rw [h7] at hf
    simp at hf
    rw [hf] at hv
    cases hv
  · obtain ⟨hf, hu, _⟩ := good_digest_fields hz hg
    obtain ⟨u, hu⟩ := Option.isSome_iff_exists.1 hu
    refine key ?_ ?_
    · intro f hf' v hv
      simp only [List.mem_cons, List.not_mem_nil, or_false] at hf'
      rcases hf' with e | e | e | e | e | e | e <;> rw [e] at hv
      · exact (hf.uri _ hv).1
      · exact (hf.nonce _ hv).1
      · exact (hf.nc _ hv).1
      · exact (hf.cnonce _ hv).1
      · exact (hf.qop _ hv).1
      · exact (hf.response _ hv).1
      · rw [hf.token] at hv; cases hv
    · unfold httpAuth
      simp only [hf.mode, hu, Option.getD_some]
      rfl
  · obtain ⟨_, _, n, b, _, _, _, h4⟩ := (good_token odd h ah uid).1 hg
    refine key ?_ (by rw [h4]; rfl)
    intro f hf v hv
    rw [h4] at hf
    simp at hf
    rcases hf with hf | hf
    · rw [hf] at hv; cases hv
    · rw [hf] at hv; cases hv
      exact fun h0 => cstr_no_zero b (List.mem_of_mem_take h0)

/-- The mode of the parser for a scheme. -/
theorem scheme_mode (os : List Opt) : Wire.toMode (scheme os) = .basic ∨
    Wire.toMode (scheme os) = .digest ∨ Wire.toMode (scheme os) = .token := by
  unfold scheme
  repeat' split
  all_goals simp [Wire.toMode]

theorem cb_login {H g odd m} {field : Option (List Nat)} {hdr : Server.HdrRes × Server.Cred}
    (hz : ∀ h, field = some h → 0 ∉ h) (hm : m = .basic ∨ m = .digest ∨ m = .token)
    (hh : Wire.hdrOf (parseAuthHeader odd m field) = some hdr) :
    (hdr.1 = .good ∧ sampleCb H g hdr.2 = true ↔ login H g (parseAuthHeader odd m field) = .ok true) ∧
      (hdr.1 = .good ∨ hdr.1 = .missing ∨ hdr.1 = .bad) := by
  cases hp : parseAuthHeader odd m field with
  | ub => rw [hp] at hh; cases hh
  | missing => rw [hp] at hh; cases hh; simp [login]
  | bad => rw [hp] at hh; cases hh; simp [login]
  | good ah uid =>
    rw [hp] at hh
    cases hh
    refine ⟨?_, .inl rfl⟩
    cases field with
    | none => simp [parseAuthHeader] at hp
    | some h =>
      simp only [login, true_and]
      exact good_cb (hz h rfl) hm hp

/-- C129: a server with the callback (no `-n`) that demands HTTP authentication (no `-o`) lets a
client enrol only if the Authorization header passes the check, or if enhanced certificate
authentication is on and the client's certificate is verified and says that its common name is
"127.0.0.1".  What is missing: re-enrolment and key generation, where C19 has a hole for malformed
headers. -/
theorem C129_let_in_partial {H lib os g s} (h : start lib os = some (g, s))
    (hn : Opt.disable ∉ os) (ho : Opt.optional ∉ os) (a : Config.App) (odd)
    (field : Option (List Nat)) (hz : ∀ v, field = some v → 0 ∉ v) (tls : Server.Tls)
    (hdr : Server.HdrRes × Server.Cred) (parse) (buf : List Nat)
    (hh : Wire.hdrOf (parseAuthHeader odd (Wire.toMode (scheme os)) field) = some hdr)
    (o : Server.AuthOut)
    (hr : Server.enrollAuth (Config.cfgOf s (appOf g (sampleCb H g) a)) tls hdr parse .enroll buf = some o)
    (ha : Server.Authorised o.st) :
    login H g (parseAuthHeader odd (Wire.toMode (scheme os)) field) = .ok true ∨
      (Opt.eca ∈ os ∧ Server.CertVerified tls ∧ tls.peerField 13 = some [47, 67, 78, 61, 49, 50, 55, 46, 48, 46, 48, 46, 49]) := by
  obtain ⟨c1, c2, c3, c4, c5, c6, c7, c8⟩ := C129_options h (sampleCb H g) a
  obtain ⟨v1, v2, v3, v4, v5, v6, v7⟩ := C129_values h
  obtain ⟨l1, l2⟩ := cb_login (H := H) (g := g) hz (scheme_mode os) hh
  have hnid : Opt.eca ∈ os → (Config.cfgOf s (appOf g (sampleCb H g) a)).localNid = 13 := by
    intro he
    have hm := (started h).2
    subst hm
    unfold Config.cfgOf made
    simp [v4, he]
  generalize hcfg : Config.cfgOf s (appOf g (sampleCb H g) a) = cfg at *
  rw [if_neg hn] at c3
  rw [decide_eq_false ho] at c4
  unfold Server.enrollAuth at hr
  cases hct : Server.checkTlsCert tls with
  | none =>
    simp only [hct] at hr
    cases hr
    rcases ha with ha | ha | ha <;> cases ha
  | some st0 =>
    simp only [hct, c1, c3, c4, Bool.not_false, or_true, if_true] at hr
    by_cases he : (cfg.ecaEnabled && (if st0 ≠ .certAuth ∧ tls.srpUser then Server.AuthState.srpAuth
        else st0) == .certAuth) = true
    · right
      simp only [he, if_true] at hr
      rw [Bool.and_eq_true, c6, decide_eq_true_iff] at he
      have hst : st0 = .certAuth := by
        have := he.2
        by_cases hs : st0 ≠ .certAuth ∧ tls.srpUser = true
        · rw [if_pos hs] at this; cases this
        · rw [if_neg hs] at this; exact eq_of_beq this
      have hcv : Server.CertVerified tls := by
        unfold Server.checkTlsCert at hct
        unfold Server.CertVerified
        split at hct
        · exact .inl (by assumption)
        · exact .inr (by assumption)
        · cases hct
        · cases hct; cases hst
      refine ⟨he.1, hcv, ?_⟩
      subst hst
      have hgood : (Server.handleEca cfg tls parse buf cfg.ecaCsrCheck).1 = .good →
          ∃ f, tls.peerField 13 = some f ∧
            (Server.handleEca cfg tls parse buf cfg.ecaCsrCheck).2.1 =
              ⟨.basic, Server.cap f, Server.cap cfg.ecaPwd, []⟩ := by
        unfold Server.handleEca
        simp only [c8, Server.getMfg, hnid he.1, Server.buildEcaHeader]
        repeat' split
        all_goals simp_all
      split at hr
      · rename_i hpr
        obtain ⟨f, hf, hcred⟩ := hgood hpr
        rw [hf]
        cases hr
        simp only [Server.Authorised] at ha
        rw [hcred] at ha
        by_cases hcb : sampleCb H g ⟨.basic, Server.cap f, Server.cap cfg.ecaPwd, []⟩ = true
        · have hge : g.eca = true := by rw [v4]; simpa using he.1
          unfold sampleCb at hcb
          have hb := basic_ok H g (Cred.read ⟨.basic, Server.cap f, Server.cap cfg.ecaPwd, []⟩) rfl
            (Server.cap f) (Server.cap cfg.ecaPwd) rfl rfl
          rw [hb] at hcb
          simp only [expected, hge, if_true, Bool.and_eq_true, beq_iff_eq] at hcb
          have h1 := hcb.1
          unfold Server.cap at h1
          have h2 := congrArg List.length h1
          simp at h2
          rw [List.take_of_length_le (by omega)] at h1
          rw [h1]
        · rw [if_neg hcb] at ha
          rcases ha with ha | ha | ha <;> cases ha
      all_goals
        try simp only [ne_eq, not_true_eq_false, false_and, if_false] at hr
        cases hr
        rcases ha with ha | ha | ha <;> cases ha
    · left
      have he' : (cfg.ecaEnabled && (if st0 ≠ .certAuth ∧ tls.srpUser then Server.AuthState.srpAuth
        else st0) == .certAuth) = false := by simpa using he
      simp only [he', Bool.false_eq_true, if_false] at hr
      rcases l2 with l2 | l2 | l2
      · rw [l2] at hr
        simp only at hr
        cases hr
        simp only [Server.Authorised] at ha
        by_cases hcb : sampleCb H g hdr.2 = true
        · exact l1.1 ⟨l2, hcb⟩
        · rw [if_neg hcb] at ha
          rcases ha with ha | ha | ha <;> cases ha
      · rw [l2] at hr
        simp only at hr
        cases hr
        rcases ha with ha | ha | ha <;> cases ha
      · rw [l2] at hr
        simp only [ne_eq, not_true_eq_false, false_and, if_false] at hr
        cases hr
        rcases ha with ha | ha | ha <;> cases ha

/-- C129: conversely, a client without certificate whose Authorization header passes the check is
let in, for every kind of request. -/
theorem C129_known_let_in {H lib os g s} (h : start lib os = some (g, s))
    (hn : Opt.disable ∉ os) (a : Config.App) (odd) (field : Option (List Nat))
    (hz : ∀ v, field = some v → 0 ∉ v) (tls : Server.Tls) (hdr : Server.HdrRes × Server.Cred) (parse)
    (ty : Server.ReqType) (buf : List Nat)
    (hh : Wire.hdrOf (parseAuthHeader odd (Wire.toMode (scheme os)) field) = some hdr)
    (ht : tls.peer = none ∧ tls.srpUser = false)
    (hl : login H g (parseAuthHeader odd (Wire.toMode (scheme os)) field) = .ok true) :
    ∃ o, Server.enrollAuth (Config.cfgOf s (appOf g (sampleCb H g) a)) tls hdr parse ty buf = some o ∧
      o.st = .httpAuth := by
  obtain ⟨c1, c2, c3, c4, c5, c6, c7, c8⟩ := C129_options h (sampleCb H g) a
  obtain ⟨l1, _⟩ := cb_login (H := H) (g := g) hz (scheme_mode os) hh
  obtain ⟨g1, g2⟩ := l1.2 hl
  rw [if_neg hn] at c3
  unfold Server.enrollAuth
  simp only [Server.checkTlsCert, ht.1, ht.2, c1, c3]
  simp [g1, g2]

/-- A server with `-r estrealm`, and the right header. -/
example (H) (a : Config.App) (odd : Bool → List Nat → List Nat) (parse) (tls : Server.Tls) (ht : tls.peer = none ∧ tls.srpUser = false) :
    ∃ g s o, start exLib [.realm [101, 115, 116, 114, 101, 97, 108, 109]] = some (g, s) ∧
      Server.enrollAuth (Config.cfgOf s (appOf g (sampleCb H g) a)) tls
        (.good, Wire.credOf { mode := .basic, user := some [101, 115, 116, 117, 115, 101, 114], pwd := some [101, 115, 116, 112, 119, 100] }) parse
        .enroll [] = some o ∧ o.st = .httpAuth := by
  have hp : parseAuthHeader odd .basic (some [66, 97, 115, 105, 99, 32, 90, 88, 78, 48, 100, 88, 78, 108, 99, 106, 112, 108, 99, 51, 82, 119, 100, 50, 81, 61]) =
      .good { mode := .basic, user := some [101, 115, 116, 117, 115, 101, 114], pwd := some [101, 115, 116, 112, 119, 100] } (some [101, 115, 116, 117, 115, 101, 114]) := by
    rfl
  have hs : start exLib [.realm [101, 115, 116, 114, 101, 97, 108, 109]] = some (({ realm := [101, 115, 116, 114, 101, 97, 108, 109] } : Glob), made { realm := [101, 115, 116, 114, 101, 97, 108, 109] }) := by
    decide +kernel
  obtain ⟨o, h1, h2⟩ := C129_known_let_in (H := H) hs (by simp) a odd
    (some [66, 97, 115, 105, 99, 32, 90, 88, 78, 48, 100, 88, 78, 108, 99, 106, 112, 108, 99, 51, 82, 119, 100, 50, 81, 61]) (by decide) tls
    (.good, Wire.credOf { mode := .basic, user := some [101, 115, 116, 117, 115, 101, 114], pwd := some [101, 115, 116, 112, 119, 100] }) parse
    .enroll [] (by rw [show Wire.toMode (scheme [Opt.realm [101, 115, 116, 114, 101, 97, 108, 109]]) = .basic from rfl, hp]; rfl) ht
    (by rw [show Wire.toMode (scheme [Opt.realm [101, 115, 116, 114, 101, 97, 108, 109]]) = .basic from rfl, hp]; rfl)
  exact ⟨_, _, o, hs, h1, h2⟩

/-! ## From client to server -/

/-- The users of the sample server. -/
def users (u : List Nat) : Option (List Nat) := if u = [101, 115, 116, 117, 115, 101, 114] then some [101, 115, 116, 112, 119, 100] else none

theorem sample_checks (H) (hH : Hash16 H) (g : Glob) (m : Mode) (he : g.eca = false)
    (hd : m = .digest → g.digest = true) (hr : g.realm.length ≤ 32) :
    Cred.Checks m H g.realm users (fun t => t == g.token) (sampleCb H g) := by
  intro ah hm hE htok hresp
  unfold sampleCb
  rw [read_credOf ah hE]
  subst hm
  unfold Cred.check
  cases hmode : ah.mode with
  | none => simp [httpAuth]
  | fail => simp [httpAuth]
  | token =>
    cases ht : ah.token with
    | some t => simp [httpAuth, same]
    | none => exact absurd ht (htok hmode)
  | basic =>
    rw [basic_ok H g { ah with
      mode := .basic
      user := some (ah.user.getD [])
      pwd := some (ah.pwd.getD []) } rfl _ _ rfl rfl]
    simp only [expected, he, Bool.false_eq_true, if_false, users]
    by_cases hu : ah.user.getD [] = [101, 115, 116, 117, 115, 101, 114]
    · simp only [hu, beq_self_eq_true, Bool.true_and, if_true]
      rw [Bool.eq_iff_iff]
      simp
      exact eq_comm
    · simp [hu]
  | digest =>
    have hd := hd hmode
    simp only [httpAuth, same, users]
    by_cases hu : ah.user.getD [] = [101, 115, 116, 117, 115, 101, 114]
    · simp only [hu, beq_self_eq_true, if_true]
      have ha : AuthHdr.ha1 H [101, 115, 116, 117, 115, 101, 114] g.realm [101, 115, 116, 112, 119, 100] = ha1 H g := by
        rw [ha1_hex H hH g hd]
        unfold AuthHdr.ha1
        rw [List.take_of_length_le (l := g.realm) (by omega)]
        simp
      rw [ha]
      have hs : AuthHdr.serverDigest H { ah with
          mode := .digest
          user := some [101, 115, 116, 117, 115, 101, 114]
          pwd := some (ah.pwd.getD []) } (ha1 H g) = AuthHdr.serverDigest H ah (ha1 H g) := rfl
      rw [hs]
      have hl : ∀ d, AuthHdr.serverDigest H ah (ha1 H g) = some d → d.length = 32 := by
        intro d hdd
        unfold AuthHdr.serverDigest at hdd
        split at hdd
        · cases hdd
          unfold AuthHdr.respond
          rw [(AuthHdr.hex_text _ (hH _).1).2, (hH _).2]
        · cases hdd
      cases hsd : AuthHdr.serverDigest H ah (ha1 H g) with
      | none => cases ah.response <;> simp
      | some d =>
        have hl := hl d hsd
        cases hr' : ah.response with
        | none => simp
        | some r =>
          have hrl := hresp r hr'
          simp only [Option.isSome_some, Bool.true_and]
          rw [List.take_of_length_le (Nat.le_of_eq hl), List.take_of_length_le (Nat.le_of_eq hrl),
            Bool.eq_iff_iff]
          simp
          exact eq_comm
    · have hb : (ah.user.getD [] == [101, 115, 116, 117, 115, 101, 114]) = false := by simpa using hu
      simp [hb, hu]

/-- C129 from client to server, with Basic: a client without certificate that is challenged by the
sample server enrols if its application gives "estuser" and "estpwd", and is refused with any other
pair.  The hypotheses are those of C107: both requests reach the server, the CSR is in order. -/
theorem C129_client_basic_partial {lib toks cfg base key c u u2 csr csr2 s s2 ca v}
    (H) (hH : Hash16 H) (g : Glob) (he : g.eca = false) (hr : g.realm.length ≤ 32)
    (h : Cred.Asked lib toks cfg base key c u u2 csr csr2 s s2 ca (sampleCb H g) .basic v)
    (hrealm : s.realm = g.realm) (cs : List Cred.Call) (t : Challenge.Toks) (e : Cred.Env)
    (uri : List Nat) (hok : (Cred.run {} cs).1 = true)
    (hhdr : Cred.addAuthHdr H (Cred.run {} cs).2 t e uri .basic = some (u2.auth .basic))
    (user pwd : List Nat) (hint : Cred.intended cs .basic = (user, pwd)) (hu : AuthHdr.Chars user)
    (hp : AuthHdr.Chars pwd) (hul : user.length ≤ 255) (hpl : pwd.length ≤ 255) (hcolon : 58 ∉ user)
    (hune : user ≠ []) (hrc : (ca ⟨lib.text csr2, user, false, cfg.seg⟩).rc = .none)
    (hne : (ca ⟨lib.text csr2, user, false, cfg.seg⟩).cert ≠ []) :
    (user = [101, 115, 116, 117, 115, 101, 114] ∧ pwd = [101, 115, 116, 112, 119, 100] →
      Cred.Succeeds lib cfg base key c u u2 (ca ⟨lib.text csr2, user, false, cfg.seg⟩).cert) ∧
    (¬ (user = [101, 115, 116, 117, 115, 101, 114] ∧ pwd = [101, 115, 116, 112, 119, 100]) → Cred.Refused lib cfg base key c u u2) := by
  have hc := sample_checks H hH g .basic he (by simp) hr
  rw [← hrealm] at hc
  obtain ⟨g1, g2⟩ := Cred.C107_basic_client_partial h H users _ hc cs t e uri hok hhdr user pwd hint
    hu hp hul hpl hcolon hune hrc hne
  have key : users user = some pwd ↔ user = [101, 115, 116, 117, 115, 101, 114] ∧ pwd = [101, 115, 116, 112, 119, 100] := by
    unfold users
    by_cases hx : user = [101, 115, 116, 117, 115, 101, 114] <;> simp [hx, eq_comm]
  exact ⟨fun h => g1 (key.2 h), fun h => g2 (fun hx => h (key.1 hx))⟩

/-- C129 from client to server, with a token of up to 512 characters. -/
theorem C129_client_token_partial {lib toks cfg base key c u u2 csr csr2 s s2 ca v}
    (H) (hH : Hash16 H) (g : Glob) (he : g.eca = false) (hr : g.realm.length ≤ 32)
    (h : Cred.Asked lib toks cfg base key c u u2 csr csr2 s s2 ca (sampleCb H g) .token v)
    (hrealm : s.realm = g.realm) (cs : List Cred.Call) (t : Challenge.Toks) (e : Cred.Env)
    (uri : List Nat) (hok : (Cred.run {} cs).1 = true)
    (hhdr : Cred.addAuthHdr H (Cred.run {} cs).2 t e uri .token = some (u2.auth .token))
    (tok : List Nat) (hint : (Cred.answer cs .token).token = some tok) (ht : AuthHdr.Chars tok)
    (hl : tok.length ≤ 512) (htne : tok ≠ [])
    (hrc : (ca ⟨lib.text csr2, [], false, cfg.seg⟩).rc = .none)
    (hne : (ca ⟨lib.text csr2, [], false, cfg.seg⟩).cert ≠ []) :
    (tok = g.token →
      Cred.Succeeds lib cfg base key c u u2 (ca ⟨lib.text csr2, [], false, cfg.seg⟩).cert) ∧
    (tok ≠ g.token → Cred.Refused lib cfg base key c u u2) := by
  have hc := sample_checks H hH g .token he (by simp) hr
  rw [← hrealm] at hc
  obtain ⟨g1, g2⟩ := Cred.C107_token_client_partial h H users _ hc cs t e uri hok hhdr tok hint
    ht hl htne hrc hne
  exact ⟨fun h => g1 (by simpa using h), fun h => g2 (by simpa using h)⟩

/-- C129 from client to server, with Digest, up to two texts with the same MD5 value. -/
theorem C129_client_digest_partial {lib toks cfg base key c u u2 csr csr2 s s2 ca v}
    (H) (hH : Hash16 H) (g : Glob) (hd : g.digest = true) (he : g.eca = false) (hr : g.realm.length ≤ 32)
    (h : Cred.Asked lib toks cfg base key c u u2 csr csr2 s s2 ca (sampleCb H g) .digest v)
    (hrealm : s.realm = g.realm) (cs : List Cred.Call) (t : Challenge.Toks)
    (r : List Nat) (hrand : Base64.Bytes r ∧ r.length = 8) (hok : (Cred.run {} cs).1 = true)
    (hlearn : ∃ raw, u.reply = .bytes raw ∧ Cred.learn c.mode toks raw = some t)
    (hhdr : Cred.addAuthHdr H (Cred.run {} cs).2 t ⟨some r, true⟩ (Cred.digestUri .simpleEnroll) .digest =
      some (u2.auth .digest)) (user pwd : List Nat)
    (hint : Cred.intended cs .digest = (user, pwd)) (hu : AuthHdr.Quotable user)
    (hl : user.length + s.realm.length + (ClientResp.decimal s.time).length ≤ 218)
    (hpl : pwd.length ≤ 255)
    (hrc : (ca ⟨lib.text csr2, user, false, cfg.seg⟩).rc = .none)
    (hne : (ca ⟨lib.text csr2, user, false, cfg.seg⟩).cert ≠ []) :
    (user = [101, 115, 116, 117, 115, 101, 114] ∧ pwd = [101, 115, 116, 112, 119, 100] →
      Cred.Succeeds lib cfg base key c u u2 (ca ⟨lib.text csr2, user, false, cfg.seg⟩).cert) ∧
    (¬ (user = [101, 115, 116, 117, 115, 101, 114] ∧ pwd = [101, 115, 116, 112, 119, 100]) →
      Cred.Refused lib cfg base key c u u2 ∨ Cred.Collision H) := by
  have hc := sample_checks H hH g .digest he (fun _ => hd) hr
  rw [← hrealm] at hc
  obtain ⟨g1, g2⟩ := Cred.C107_digest_client_partial h H users _ hH hc cs t r hrand hok hlearn hhdr
    user pwd hint hu hl hpl (by
      intro p hp
      unfold users at hp
      split at hp
      · cases hp; decide
      · cases hp) hrc hne
  have key : users user = some pwd ↔ user = [101, 115, 116, 117, 115, 101, 114] ∧ pwd = [101, 115, 116, 112, 119, 100] := by
    unfold users
    by_cases hx : user = [101, 115, 116, 117, 115, 101, 114] <;> simp [hx, eq_comm]
  exact ⟨fun h => g1 (key.2 h), fun h => g2 (fun hx => h (key.1 hx))⟩

/-! ### Examples -/

/-- The variables of a sample server that takes a token. -/
def exGlob : Glob := { realm := [101, 115, 116, 114, 101, 97, 108, 109], digest := true, token := [116, 111, 107] }

/-- A site with the sample server. -/
def exSrv (m : Server.AuthMode) : Wire.Site :=
  { Wire.exSite2 with
    srv := { Wire.exSite2.srv with
      cfg := { Wire.exSite2.srv.cfg with
        authMode := m
        authCb := some (sampleCb AuthHdr.exampleHash exGlob) } } }

/-- A connection to it. -/
def exUp (m : Server.AuthMode) (a : ClientReq.Auth) (v : List Nat) : Flow.Up where
  uid := some [100, 87, 108, 107]
  auth := fun _ => .value v
  reply := Wire.reply (exSrv m) Wire.exSched (ClientReq.enrollRequest Wire.exCfg .simpleEnroll a [77, 73, 73, 61])

theorem exUp_reply (m : Server.AuthMode) (a : ClientReq.Auth) (v : List Nat) (csr : Flow.Csr) :
    (exUp m a v).reply = Wire.reply (exSrv m) Wire.exSched
      (ClientReq.enrollRequest Wire.exCfg .simpleEnroll a (Wire.exLib.text csr)) := by
  rw [show Wire.exLib.text csr = [77, 73, 73, 61] from rfl]
  rfl

theorem exAsked (m : Server.AuthMode) (v : List Nat) (hm : Challenge.Asks (Wire.toMode m))
    (hv : ClientReq.HeaderText v)
    (hl : (ClientReq.requestText Wire.exCfg .simpleEnroll 4 (some v)).length ≤ 1026) :
    Cred.Asked Wire.exLib Wire.exToks Wire.exCfg 1 7 Flow.exInit (exUp m .none v) (exUp m (.value v) v)
      (Flow.sign ⟨1, [], none⟩ 7) (Flow.sign ⟨1, [], none⟩ 7) (exSrv m) (exSrv m) Wire.exCa
      (sampleCb AuthHdr.exampleHash exGlob) (Wire.toMode m) v := by
  have hS : Wire.Sound (exSrv m) := by
    refine ⟨rfl, hm, ?_, by cases m <;> decide, by cases m <;> decide, by cases m <;> decide, ?_⟩
    · unfold Challenge.RealmText; cases m <;> decide
    · intro ca rq hca
      rcases hca with h | h
      · injection h with h
        subst h
        unfold Wire.exCa
        dsimp only
        split <;> cases m <;> decide
      · injection h with h
        subst h
        exact ⟨by simp, by simp, by simp, by simp⟩
  have hR : Wire.Routes (exSrv m) Wire.exCfg .simpleEnroll := Wire.exRoutes _ rfl
  exact {
    tokens := rfl
    ready := rfl
    fresh := rfl
    gen1 := ⟨_, rfl, rfl⟩
    gen2 := ⟨_, rfl, rfl⟩
    send1 := Wire.exSendable none (.inl rfl)
    send2 := by
      have h := Wire.exSendable none (.inl rfl)
      exact ⟨h.ua, h.host, h.hostSet, h.seg, fun w hw => by injection hw with hw; rw [← hw]; exact hv, hl, h.small⟩
    sound1 := hS
    sound2 := hS
    route1 := hR
    route2 := hR
    same := rfl
    link1 := ⟨Wire.exSched, exUp_reply _ _ _ _, Wire.exArrives _ (by decide)⟩
    link2 := ⟨Wire.exSched, exUp_reply _ _ _ _, Wire.exArrives _ (by decide)⟩
    noCert1 := ⟨rfl, rfl⟩
    noCert2 := ⟨rfl, rfl⟩
    mode := rfl
    notFips := by rintro ⟨_, h⟩; cases h
    app := rfl
    sent := rfl
    ca := rfl
    inOrder := ⟨⟨_, rfl, rfl, by decide, .inr rfl⟩, fun h => by cases h⟩ }

/-- A client of the sample server, with Basic: the known user and another one. -/
example : Cred.Succeeds Wire.exLib Wire.exCfg 1 7 Flow.exInit (exUp .basic .none [66, 97, 115, 105, 99, 32, 90, 88, 78, 48, 100, 88, 78, 108, 99, 106, 112, 108, 99, 51, 82, 119, 100, 50, 81, 61])
    (exUp .basic (.value [66, 97, 115, 105, 99, 32, 90, 88, 78, 48, 100, 88, 78, 108, 99, 106, 112, 108, 99, 51, 82, 119, 100, 50, 81, 61]) [66, 97, 115, 105, 99, 32, 90, 88, 78, 48, 100, 88, 78, 108, 99, 106, 112, 108, 99, 51, 82, 119, 100, 50, 81, 61])
    (Wire.exCa ⟨[77, 73, 73, 61], [101, 115, 116, 117, 115, 101, 114], false, none⟩).cert :=
  (C129_client_basic_partial AuthHdr.exampleHash AuthHdr.exampleHash_ok exGlob rfl (by decide)
    (exAsked .basic [66, 97, 115, 105, 99, 32, 90, 88, 78, 48, 100, 88, 78, 108, 99, 106, 112, 108, 99, 51, 82, 119, 100, 50, 81, 61] (.inl rfl) ⟨by decide, by decide⟩ (by decide +kernel)) rfl
    [.setAuth (some [101, 115, 116, 117, 115, 101, 114]) (some [101, 115, 116, 112, 119, 100])] Wire.exToks ⟨none, true⟩ [] rfl
    (by decide +kernel) [101, 115, 116, 117, 115, 101, 114] [101, 115, 116, 112, 119, 100] rfl (by unfold AuthHdr.Chars; decide)
    (by unfold AuthHdr.Chars; decide) (by decide) (by decide) (by decide) (by decide)
    (by decide +kernel) (by decide +kernel)).1 ⟨rfl, rfl⟩

example : Cred.Refused Wire.exLib Wire.exCfg 1 7 Flow.exInit (exUp .basic .none [66, 97, 115, 105, 99, 32, 100, 84, 112, 119])
    (exUp .basic (.value [66, 97, 115, 105, 99, 32, 100, 84, 112, 119]) [66, 97, 115, 105, 99, 32, 100, 84, 112, 119]) :=
  (C129_client_basic_partial AuthHdr.exampleHash AuthHdr.exampleHash_ok exGlob rfl (by decide)
    (exAsked .basic [66, 97, 115, 105, 99, 32, 100, 84, 112, 119] (.inl rfl) ⟨by decide, by decide⟩ (by decide +kernel)) rfl
    [.setAuth (some [117]) (some [112])] Wire.exToks ⟨none, true⟩ [] rfl
    (by decide +kernel) [117] [112] rfl (by unfold AuthHdr.Chars; decide)
    (by unfold AuthHdr.Chars; decide) (by decide) (by decide) (by decide) (by decide)
    (by decide +kernel) (by decide +kernel)).2 (by decide)

/-- The same with the token. -/
example : Cred.Succeeds Wire.exLib Wire.exCfg 1 7 Flow.exInit (exUp .token .none [66, 101, 97, 114, 101, 114, 32, 100, 71, 57, 114])
    (exUp .token (.value [66, 101, 97, 114, 101, 114, 32, 100, 71, 57, 114]) [66, 101, 97, 114, 101, 114, 32, 100, 71, 57, 114]) (Wire.exCa ⟨[77, 73, 73, 61], [], false, none⟩).cert :=
  (C129_client_token_partial AuthHdr.exampleHash AuthHdr.exampleHash_ok exGlob rfl (by decide)
    (exAsked .token [66, 101, 97, 114, 101, 114, 32, 100, 71, 57, 114] (.inr (.inr rfl)) ⟨by decide, by decide⟩ (by decide +kernel)) rfl
    [.setCb (some Cred.exCb)] Wire.exToks ⟨none, true⟩ [] rfl
    (by decide +kernel) [116, 111, 107] rfl (by unfold AuthHdr.Chars; decide) (by decide) (by decide)
    (by decide +kernel) (by decide +kernel)).1 rfl

/-! ## SRP, names and CSR attributes -/

/-- C129: with SRP the handshake goes on exactly for a user that is in the file. -/
theorem C129_srp (name : Option (List Nat)) (known : List Nat → Bool) (set : Bool) :
    (srpAuth name known set).1 = 0 ↔ ∃ u, name = some u ∧ known u = true ∧ set = true := by
  unfold srpAuth
  cases name with
  | none => simp
  | some u => cases hk : known u <;> cases set <;> simp [hk]

example : (srpAuth (some [115, 114, 112, 95, 117, 115, 101, 114]) (fun u => u == [115, 114, 112, 95, 117, 115, 101, 114]) true).1 = 0 := by decide

/-- The record of the user stays allocated when its parameters cannot be set. -/
theorem C129_srp_leak_false (u : List Nat) (known : List Nat → Bool) (h : known u = true) :
    (srpAuth (some u) known false).2.2 = 1 := by
  simp [srpAuth, h]

/-- C129: the subject that is printed is that of the certificate, if its text has 1 to 63
characters.  What is missing: the others. -/
theorem C129_subject_partial (text rest : List Nat) (h0 : text ≠ []) (hz : 0 ∉ text)
    (hl : text.length < 64) (hr : 0 ∈ rest ∨ 64 ≤ (text ++ rest).length) :
    subName text rest = .ok text := by
  unfold subName
  simp only
  rw [if_neg h0]
  have hs : (text ++ rest).takeWhile (· ≠ 0) = text ++ rest.takeWhile (· ≠ 0) :=
    List.takeWhile_append_of_pos (by
      intro c hc
      simp
      exact fun e => hz (e ▸ hc))
  have hlt : 0 ∈ rest → (rest.takeWhile (· ≠ 0)).length < rest.length := by
    intro h
    have hle := (List.takeWhile_sublist (p := (· ≠ 0)) (l := rest)).length_le
    rcases Nat.lt_or_ge (rest.takeWhile (· ≠ 0)).length rest.length with h1 | h1
    · exact h1
    · have he := (List.takeWhile_sublist (p := (· ≠ 0)) (l := rest)).eq_of_length (by omega)
      rw [← he] at h
      have := List.all_takeWhile (p := (· ≠ 0)) (l := rest)
      rw [List.all_eq_true] at this
      have := this 0 h
      simp at this
  rw [if_neg ?_, if_pos hl, hs]
  · congr 1
    have key : ∀ (t x : List Nat), 0 ∉ t → t.length < (t ++ x).length →
        ((t ++ x).set t.length 0).takeWhile (· ≠ 0) = t := by
      intro t
      induction t with
      | nil =>
        intro x _ hx
        cases x with
        | nil => simp at hx
        | cons c x => simp
      | cons c t ih =>
        intro x hc hx
        have hc0 : c ≠ 0 := fun e => hc (by simp [e])
        have := ih x (fun e => hc (by simp [e])) (by simpa using hx)
        simp only [List.cons_append, List.length_cons, List.set_cons_succ]
        rw [List.takeWhile_cons, if_pos (by simpa using hc0), this]
    have hsp : (text ++ rest.takeWhile (· ≠ 0)).take 64 =
        text ++ (rest.takeWhile (· ≠ 0)).take (64 - text.length) := by
      rw [List.take_append, List.take_of_length_le (l := text) (by omega)]
    rw [hsp, List.append_assoc]
    refine key _ _ hz ?_
    simp
    omega
  · rw [hs]
    rintro ⟨e1, e2⟩
    rcases hr with hr | hr
    · have := hlt hr
      rw [List.length_append, List.length_append] at e1
      omega
    · omega

example : subName [67, 78, 61, 49, 50, 55, 46, 48, 46, 48, 46, 49] (List.replicate 20 0) = .ok [67, 78, 61, 49, 50, 55, 46, 48, 46, 48, 46, 49] :=
  C129_subject_partial _ _ (by decide) (by decide) (by decide) (by decide)

/-- A subject whose text has 64 characters or more makes the server write behind its array. -/
theorem C129_subject_false (text rest : List Nat) (hl : 64 ≤ text.length) :
    subName text rest = .error .write := by
  unfold subName
  simp only
  rw [if_neg (by intro e; rw [e] at hl; simp at hl), if_neg (by simp; omega), if_neg (by omega)]

/-- An empty subject is copied from NULL. -/
theorem C129_no_subject_false (rest : List Nat) : subName [] rest = .error .null := by
  simp [subName]

/-- C129: the CSR attributes are those of the environment, with their length. -/
theorem C129_csrattrs_env (t : List Nat) : (csrAttrs (some t)).1 = t.length ∧
    (csrAttrs (some t)).2.take t.length = t.map some := by
  refine ⟨rfl, ?_⟩
  unfold csrAttrs
  simp only
  rw [List.take_append]
  simp
  exact List.take_of_length_le (by simp)

example : (csrAttrs (some [77, 65, 65, 61])).1 = 4 := rfl

/-- Nobody writes a NUL behind them, and libest reads them as a string when it decodes them. -/
theorem C129_csrattrs_end_false (t : List Nat) : (csrAttrs (some t)).2[t.length]? = some none := by
  unfold csrAttrs
  simp

/-- Without the variable the length counts the NUL character, and the attributes do not contain
the challengePassword that the comment promises. -/
theorem C129_csrattrs_default_false (odd) : (csrAttrs none).1 = testCsr.length + 1 ∧
    (csrAttrs none).2[testCsr.length]? = some (some 0) ∧
    Asn1.parseAttributes odd testCsr = .ret .none false := by
  refine ⟨rfl, by decide +kernel, ?_⟩
  rfl

end Verif.SrvAuth
