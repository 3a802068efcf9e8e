import Verif.CredProps

/-!
# More about a client's credentials (C107)
-/
namespace Verif.Cred
open Verif.ClientResp (Mode)
open Verif.Challenge (Toks)

/-- C107: once the server has asked for credentials, no request is sent without some: if they
cannot be made, there is no request. -/
theorem C107_never_without (H : List Nat → List Nat) (s : Store) (t : Toks) (e : Env) (uri : List Nat)
    (m : Mode) (hm : m = .basic ∨ m = .digest ∨ m = .token) (a : ClientReq.Auth)
    (ha : addAuthHdr H s t e uri m = some a) (cfg : ClientReq.Cfg) (op : EstUri.Op) (csr : List Nat) :
    (∃ v, a = .value v ∧ v ≠ []) ∨ ClientReq.enrollRequest cfg op a csr = .cannotBuild := by
  have hf : ClientReq.enrollRequest cfg op .failed csr = .cannotBuild := by
    unfold ClientReq.enrollRequest ClientReq.sendPost ClientReq.buildPost
    simp [ClientReq.addAuth]
  rcases hm with rfl | rfl | rfl
  · simp only [addAuthHdr, Option.map_eq_some_iff] at ha
    obtain ⟨v, hv, rfl⟩ := ha
    refine .inl ⟨v, rfl, ?_⟩
    unfold AuthHdr.basicValue at hv
    simp only [Option.map_eq_some_iff] at hv
    obtain ⟨w, _, rfl⟩ := hv
    simp
  · simp only [addAuthHdr] at ha
    split at ha
    · cases ha; exact .inr hf
    · split at ha
      · cases ha; exact .inr hf
      · split at ha
        · cases ha
        · cases ha
          refine .inl ⟨_, rfl, ?_⟩
          simp [AuthHdr.digestValueText]
  · simp only [addAuthHdr, Option.map_eq_some_iff] at ha
    obtain ⟨v, hv, rfl⟩ := ha
    refine .inl ⟨v, rfl, ?_⟩
    unfold AuthHdr.tokenValue at hv
    simp only [Option.map_eq_some_iff] at hv
    obtain ⟨w, _, rfl⟩ := hv
    simp

/-- C107: if there are no random numbers or the digest cannot be made, the request is not sent. -/
theorem C107_no_digest_no_request (H : List Nat → List Nat) (s : Store) (t : Toks) (e : Env)
    (uri : List Nat) (he : e.rnd = none ∨ e.digestOk = false) (cfg : ClientReq.Cfg) (op : EstUri.Op)
    (csr : List Nat) :
    ∃ a, addAuthHdr H s t e uri .digest = some a ∧
      ClientReq.enrollRequest cfg op a csr = .cannotBuild := by
  refine ⟨.failed, ?_, ?_⟩
  · cases hr : e.rnd with
    | none => simp [addAuthHdr, hr]
    | some r =>
      have : e.digestOk = false := by
        rcases he with h | h
        · rw [hr] at h; cases h
        · exact h
      simp [addAuthHdr, hr, this]
  · unfold ClientReq.enrollRequest ClientReq.sendPost ClientReq.buildPost
    simp [ClientReq.addAuth]

/-- C107: a challenge is only learned from the answer to a request without credentials. -/
theorem C107_learns_once (m : Mode) (hm : m = .basic ∨ m = .digest ∨ m = .token) (s : Toks)
    (raw : List Nat) : learn m s raw = some s := by
  unfold learn
  simp only
  split
  · rfl
  · rcases hm with rfl | rfl | rfl <;> simp

theorem tokens_invalid (len k : Nat) : ∀ (t : List Nat) (s u : Toks),
    Challenge.tokens len k t s = .invalid u → u.nonce = [] := by
  induction k with
  | zero => intro t s u h; cases h
  | succ k ih =>
    intro t s u h
    have hv : ∀ f st, Challenge.valued f s st (Challenge.tokens len k) = .invalid u → u.nonce = [] := by
      intro f st hq
      unfold Challenge.valued at hq
      split at hq
      · cases hq
      · cases hq; rfl
      · exact ih _ _ _ hq
    unfold Challenge.tokens at h
    split at h
    · cases h
    · cases h
    · simp only at h
      split at h
      · exact hv _ _ h
      · split at h
        · exact hv _ _ h
        · split at h
          · exact hv _ _ h
          · split at h
            · split at h
              · cases h
              · exact ih _ _ _ h
              · split at h
                · exact ih _ _ _ h
                · cases h; rfl
            · split at h
              · exact hv _ _ h
              · split at h
                · exact hv _ _ h
                · exact ih _ _ _ h

/-- The first challenge in an answer. -/
def firstChallenge (raw : List Nat) : Option (List Nat) :=
  ((ClientResp.clientHeaders (raw.takeWhile (· != 0))).1.find?
    (fun h => ([87, 87, 87, 45, 65, 117, 116, 104, 101, 110, 116, 105, 99, 97, 116, 101]).isPrefixOf h.name)).map (·.value)

/-- C107: of a challenge that is refused, no nonce stays behind. -/
theorem C107_refused_challenge (m : Mode) (hm : m = .none ∨ m = .fail) (s t : Toks) (raw v : List Nat)
    (hst : ClientResp.statusCode (raw.takeWhile (· != 0)) = some 401) (hv : firstChallenge raw = some v)
    (hs : [66, 97, 115, 105, 99] <+: v ∨ [68, 105, 103, 101, 115, 116] <+: v ∨ [66, 101, 97, 114, 101, 114] <+: v) (hbad : Challenge.tokensOk s v = false)
    (h : learn m s raw = some t) : t.nonce = [] := by
  unfold firstChallenge at hv
  simp only [Option.map_eq_some_iff] at hv
  obtain ⟨hd, h1, rfl⟩ := hv
  have hm' : ¬ (m = .digest ∨ m = .basic ∨ m = .token) := by rcases hm with rfl | rfl <;> simp
  have hs' : (([66, 97, 115, 105, 99]).isPrefixOf hd.value || ([68, 105, 103, 101, 115, 116]).isPrefixOf hd.value ||
      ([66, 101, 97, 114, 101, 114]).isPrefixOf hd.value) = true := by
    simp only [Bool.or_eq_true, List.isPrefixOf_iff_prefix]
    exact or_assoc.2 hs
  unfold learn at h
  simp only [hst, ne_eq, not_true_eq_false, if_false, if_neg hm', h1, hs', if_true] at h
  unfold Challenge.tokensOk at hbad
  split at h
  · cases h
  · next u hp =>
    cases h
    unfold Challenge.parseTokens at hp
    simp only at hp
    split at hp
    · cases hp
    · cases hp
    · exact tokens_invalid _ _ _ _ _ hp
  · next u hp => rw [hp] at hbad; cases hbad

/-! ### Examples -/

example : ∃ a, addAuthHdr AuthHdr.exampleHash {} ⟨[114], [49], [], []⟩ ⟨none, true⟩ [47] .digest = some a ∧
    ClientReq.enrollRequest exCfg .simpleEnroll a [1, 2] = .cannotBuild :=
  C107_no_digest_no_request _ _ _ _ _ (.inl rfl) _ _ _

/-- A challenge with a hash other than MD5. -/
def badChallenge : List Nat :=
  [72, 84, 84, 80, 47, 49, 46, 49, 32, 52, 48, 49, 32, 85, 110, 97, 117, 116, 104, 111, 114, 105, 122, 101, 100, 13, 10, 67, 111, 110, 116, 101, 110, 116, 45, 76, 101, 110, 103, 116, 104, 58, 32, 48, 13, 10, 87, 87, 87, 45, 65, 117, 116, 104, 101, 110, 116, 105, 99, 97, 116, 101, 58, 32, 68, 105, 103, 101, 115, 116, 32, 114, 101, 97, 108, 109, 61, 34, 110, 101, 119, 34, 44, 32, 110, 111, 110, 99, 101, 61, 34, 50, 34, 44, 32, 97, 108, 103, 111, 114, 105, 116, 104, 109, 61, 83, 72, 65, 45, 50, 53, 54, 13, 10, 13, 10]

/-- It is refused, and the nonce of an earlier challenge is gone; its realm stays. -/
example : ClientResp.statusCode (badChallenge.takeWhile (· != 0)) = some 401 ∧
    (firstChallenge badChallenge).map (Challenge.tokensOk ⟨[111, 108, 100], [49], [], []⟩) = some false ∧
    learn .none ⟨[111, 108, 100], [49], [], []⟩ badChallenge = some ⟨[110, 101, 119], [], [], []⟩ ∧
    learn .digest ⟨[111, 108, 100], [49], [], []⟩ badChallenge = some ⟨[111, 108, 100], [49], [], []⟩ := by
  decide +kernel

end Verif.Cred
