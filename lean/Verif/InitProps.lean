import Verif.InitLemmas

/-!
# Properties of creating a context (C110)

Which arguments `est_server_init`, `est_proxy_init` and `est_client_init` accept, what a new
context holds, and what is left when they refuse.
-/
namespace Verif.Init
open Verif.ClientMem (Mem Heap alloc allocIf free use Spec AllOk spec_pure spec_lose spec_perm
  spec_post spec_call spec_alloc spec_free spec_free_none spec_free_opt spec_last spec_frame)
open Verif.Setter (strcpyS zeros cstr)

/-! ## Specification -/

/-- The part of a text that is looked at: 2000000 characters. -/
def seen (t : List Nat) : List Nat := t.take 2000000

/-- Arguments from which a server can be made. -/
structure Usable (lib : Lib) (a : Args) : Prop where
  /-- There are trust anchors, their length is given right, and one of them is a certificate. -/
  chain : ∃ t, a.chain = some t ∧ a.chainLen = (seen t).length ∧
    ∃ items, lib.pem (seen t) = some items ∧ ∃ i ∈ items, i.cert ≠ none
  /-- If the answer to `cacerts` is given, its length is right and it can be rendered. -/
  resp : ∀ r, a.resp = some r → a.respLen = (seen r).length ∧ lib.asn1 = true ∧
    ∃ items, lib.pem (seen r) = some items ∧
      ∃ t, lib.p7 (items.filterMap Item.cert) = some t ∧ t ≠ []
  format : a.pem = true
  cert : a.cert = true
  key : a.key = true
  realm : ∃ r, a.realm = some r

/-- A user name and password that a proxy takes: both or none, up to 255 characters. -/
def GoodLogin (uid pwd : Option (List Nat)) : Prop :=
  (uid = none ∧ pwd = none) ∨ ∃ u p, uid = some u ∧ pwd = some p ∧ u.length ≤ 255 ∧ p.length ≤ 255

/-- What a context holds of its arguments: the trusted certificates and CRLs in their order, the
answer to `cacerts`, the realm up to 255 characters; HTTP authentication is required and uses the
Basic scheme, proof of possession is checked, and the default times are in force; with CoAP there
is a table of requests, for 32 sessions. -/
structure Holds (lib : Lib) (a : Args) (c : Ctx) : Prop where
  store : ∀ t, a.chain = some t → ∀ items, lib.pem (seen t) = some items →
    ∃ p, c.store = some (p, items.filterMap Item.cert, items.filterMap Item.crl)
  noAnswer : a.resp = none → c.ca = none
  answer : ∀ r, a.resp = some r → ∀ items, lib.pem (seen r) = some items →
    ∃ p t, c.ca = some (p, t) ∧ lib.p7 (items.filterMap Item.cert) = some t
  realm : ∀ r, a.realm = some r → 0 ∉ r → cstr c.realm = r.take 255
  defaults : c.authMode = 1 ∧ c.required = 1 ∧ c.pop = true ∧ c.retry = 3600 ∧ c.readTimeout = 10
  coap : lib.coap = true → c.reqs ≠ none ∧ c.sessMax = 32

/-- What the context of a proxy holds besides: a copy of the trust anchors for its connections to
the upstream server, and its own user name and password. -/
structure HoldsProxy (a : Args) (c : Ctx) : Prop where
  mode : c.proxy = true
  raw : ∀ t, a.chain = some t → ∃ p, c.raw = some (p, seen t)
  login : ∀ u p, a.uid = some u → a.pwd = some p → 0 ∉ u → 0 ∉ p → cstr c.userid = u ∧ cstr c.password = p
  noLogin : a.uid = none → cstr c.userid = [] ∧ cstr c.password = []

/-- The trusted certificates have subjects of at most 254 characters. -/
def ShortSubjects (lib : Lib) (a : Args) : Prop :=
  ∀ t, a.chain = some t → ∀ items, lib.pem (seen t) = some items → ∀ i ∈ items, ∀ c,
    i.cert = some c → (lib.subject c).length < 255

/-- The tests before the first allocation of `est_server_init` and `est_proxy_init`. -/
structure Tested (a : Args) : Prop where
  chain : ∃ t, a.chain = some t ∧ a.chainLen = (seen t).length
  resp : ∀ r, a.resp = some r → a.respLen = (seen r).length
  format : a.pem = true
  cert : a.cert = true
  key : a.key = true
  realm : ∃ r, a.realm = some r

/-! ## Proofs -/

theorem lenOf_seen (t : List Nat) : lenOf t = (seen t).length := by
  unfold lenOf seen
  rw [List.length_take, Nat.min_comm]

theorem short_of {lib : Lib} {a : Args} (h : ShortSubjects lib a) {t : List Nat}
    (ht : a.chain = some t) : Short lib (certsIn lib (seen t)) := by
  intro c hc
  unfold certsIn at hc
  cases hp : lib.pem (seen t) with
  | none => rw [hp] at hc; simp at hc
  | some items =>
    rw [hp] at hc
    obtain ⟨i, hi, hic⟩ := List.mem_filterMap.1 hc
    exact h t ht items hp i hi c hic

theorem certs_iff (lib : Lib) (t : List Nat) :
    certsIn lib t ≠ [] ↔ ∃ items, lib.pem t = some items ∧ ∃ i ∈ items, i.cert ≠ none := by
  unfold certsIn
  cases hp : lib.pem t with
  | none => simp
  | some items =>
    constructor
    · intro h
      refine ⟨items, rfl, ?_⟩
      cases hc : items.filterMap Item.cert with
      | nil => exact absurd hc h
      | cons c cs =>
        obtain ⟨i, hi, hic⟩ := List.mem_filterMap.1 (hc ▸ List.mem_cons_self .. : c ∈ items.filterMap Item.cert)
        exact ⟨i, hi, by rw [hic]; simp⟩
    · rintro ⟨items', e, i, hi, hic⟩ hn
      rw [← Option.some.inj e] at hi
      obtain ⟨c, hc⟩ := Option.ne_none_iff_exists'.1 hic
      have : c ∈ items.filterMap Item.cert := List.mem_filterMap.2 ⟨i, hi, hc⟩
      have hn' : items.filterMap Item.cert = [] := hn
      rw [hn'] at this
      cases this

theorem renders_iff (lib : Lib) (r : List Nat) :
    (∃ t, Renders lib r t ∧ t ≠ []) ↔ lib.asn1 = true ∧ ∃ items, lib.pem r = some items ∧
      ∃ t, lib.p7 (items.filterMap Item.cert) = some t ∧ t ≠ [] := by
  unfold Renders certsIn
  cases hp : lib.pem r with
  | none => simp
  | some items => simp [and_assoc]

theorem cstr_copy (s : List Nat) (h : 0 ∉ s) : cstr (strcpyS zeros 255 s) = s.take 255 := by
  have e : strcpyS zeros 255 s = s.take 255 ++ List.replicate (256 - (s.take 255).length) 0 := by
    unfold strcpyS zeros
    rw [List.append_assoc, List.drop_replicate, List.replicate_append_replicate]
    congr 2
    rw [List.length_take]
    omega
  have h' : ∀ x ∈ s.take 255, (decide (x ≠ 0)) = true := by
    intro x hx
    have : x ≠ 0 := fun e => h (e ▸ List.mem_of_mem_take hx)
    simpa using this
  have hr : (List.replicate (256 - (s.take 255).length) 0).takeWhile (fun x : Nat => decide (x ≠ 0)) = [] := by
    cases hk : 256 - (s.take 255).length with
    | zero => rfl
    | succ k => rfl
  unfold cstr
  rw [e, List.takeWhile_append_of_pos h', hr, List.append_nil]

theorem wrongLen_iff (a : Args) :
    wrongLen a.resp a.respLen = false ↔ ∀ r, a.resp = some r → a.respLen = (seen r).length := by
  unfold wrongLen
  cases a.resp with
  | none => simp
  | some r =>
    simp only [decide_eq_false_iff_not, Option.some.injEq, forall_eq', lenOf_seen]
    exact ⟨fun h => (Decidable.not_not.1 h).symm, fun h => by rw [h]; simp⟩

theorem serverInit_eq (lib : Lib) (a : Args) :
    (¬ Tested a ∧ serverInit lib a = pure none) ∨
      ∃ t realm, Tested a ∧ a.chain = some t ∧ a.realm = some realm ∧
        serverInit lib a = serverBody lib a.resp t realm := by
  unfold serverInit
  cases hc : a.chain with
  | none => exact .inl ⟨fun h => by obtain ⟨t, e, _⟩ := h.chain; simp [hc] at e, rfl⟩
  | some t =>
    cases h1 : a.pem with
    | false => exact .inl ⟨fun h => by simpa [h1] using h.format, rfl⟩
    | true =>
    by_cases h2 : lenOf t ≠ a.chainLen
    · refine .inl ⟨fun h => ?_, by simp [h2]⟩
      obtain ⟨t', e, hl⟩ := h.chain
      rw [hc] at e
      rw [Option.some.inj e, lenOf_seen, hl] at h2
      exact h2 rfl
    have h2' : lenOf t = a.chainLen := Decidable.not_not.1 h2
    cases h3 : wrongLen a.resp a.respLen with
    | true => exact .inl ⟨fun h => (by rw [(wrongLen_iff a).2 h.resp] at h3; cases h3), by simp⟩
    | false =>
    cases h4 : a.cert with
    | false => exact .inl ⟨fun h => by simpa [h4] using h.cert, by simp⟩
    | true =>
    cases h5 : a.key with
    | false => exact .inl ⟨fun h => by simpa [h5] using h.key, by simp⟩
    | true =>
    cases hr : a.realm with
    | none => exact .inl ⟨fun h => by obtain ⟨r, e⟩ := h.realm; simp [hr] at e, by simp⟩
    | some realm =>
      refine .inr ⟨t, realm, ⟨⟨t, hc, ?_⟩, (wrongLen_iff a).1 h3, h1, h4, h5, realm, hr⟩, rfl, rfl,
        by simp [h2']⟩
      rw [← h2', lenOf_seen]

theorem proxyInit_eq (lib : Lib) (a : Args) :
    (¬ Tested a ∧ proxyInit lib a = pure none) ∨
      ∃ t realm, Tested a ∧ a.chain = some t ∧ a.realm = some realm ∧
        proxyInit lib a = proxyBody lib a t realm := by
  unfold proxyInit
  cases hc : a.chain with
  | none => exact .inl ⟨fun h => by obtain ⟨t, e, _⟩ := h.chain; simp [hc] at e, rfl⟩
  | some t =>
    cases h4 : a.cert with
    | false => exact .inl ⟨fun h => by simpa [h4] using h.cert, by simp⟩
    | true =>
    cases h5 : a.key with
    | false => exact .inl ⟨fun h => by simpa [h5] using h.key, by simp⟩
    | true =>
    cases hr : a.realm with
    | none => exact .inl ⟨fun h => by obtain ⟨r, e⟩ := h.realm; simp [hr] at e, by simp⟩
    | some realm =>
    cases h1 : a.pem with
    | false => exact .inl ⟨fun h => by simpa [h1] using h.format, by simp⟩
    | true =>
    by_cases h2 : lenOf t ≠ a.chainLen
    · refine .inl ⟨fun h => ?_, by simp [h2]⟩
      obtain ⟨t', e, hl⟩ := h.chain
      rw [hc] at e
      rw [Option.some.inj e, lenOf_seen, hl] at h2
      exact h2 rfl
    have h2' : lenOf t = a.chainLen := Decidable.not_not.1 h2
    cases h3 : wrongLen a.resp a.respLen with
    | true => exact .inl ⟨fun h => (by rw [(wrongLen_iff a).2 h.resp] at h3; cases h3), by simp⟩
    | false =>
      refine .inr ⟨t, realm, ⟨⟨t, hc, ?_⟩, (wrongLen_iff a).1 h3, h1, h4, h5, realm, hr⟩, rfl, rfl,
        by simp [h2']⟩
      rw [← h2', lenOf_seen]

variable {ok : Nat → Bool} {G : Prop}

/-- The answer to `cacerts` in a context is the one asked for. -/
structure Answer (lib : Lib) (resp : Option (List Nat)) (c d : Ctx) : Prop where
  rest : d = { c with ca := d.ca }
  absent : resp = none → d.ca = c.ca
  given : ∀ r, resp = some r → ∃ p t, d.ca = some (p, t) ∧ t ≠ [] ∧ Renders lib (seen r) t

theorem load_spec {f : Ctx → Mem (Option Ctx)} {Done : Ctx → Ctx → Prop} {W : Prop} (lib : Lib)
    (c : Ctx) (resp : Option (List Nat)) (ho : owned c = [c.self]) (hca : c.ca = none)
    (hG : G ∨ AllOk ok ∧ ∀ r, resp = some r → lib.asn1 = true ∧ (lib.pem (seen r)).isSome = true)
    (hf : ∀ d : Ctx, d = { c with ca := d.ca } →
      Spec ok G (owned d) (f d) (fun r => r.elim [] owned)
        (fun r => (∀ e, r = some e → Done d e) ∧ (AllOk ok → W → r ≠ none))) :
    Spec ok G (owned c)
      (match resp with
        | none => f c
        | some r => do
          let (e, c) ← loadCa lib c (seen r)
          if e ≠ .none then
            free (some c.self)
            pure none
          else f c)
      (fun r => r.elim [] owned)
      (fun r => (∀ e, r = some e → ∃ d, Answer lib resp c d ∧ Done d e) ∧
        (AllOk ok → W → (∀ r, resp = some r → ∃ t, Renders lib (seen r) t ∧ t ≠ []) → r ≠ none)) := by
  cases resp with
  | none =>
    refine spec_post (hf c rfl) ?_
    intro r hr
    exact ⟨.refl _, fun e he => ⟨c, ⟨rfl, fun _ => rfl, fun r hr => by cases hr⟩, hr.1 e he⟩,
      fun ha hw _ => hr.2 ha hw⟩
  | some r =>
    dsimp only
    refine spec_call (loadCa_spec lib c (seen r) hca (hG.imp_right fun x => ⟨x.1, x.2 r rfl⟩))
      (D := []) (by rw [List.append_nil]) ?_
    rintro ⟨e, d⟩ hd
    dsimp only
    rw [List.append_nil]
    split
    · next he =>
      have hdc : d = c := hd.bad he
      rw [hdc, ho]
      refine spec_free (P' := []) (.refl _) (spec_pure (.refl _) ⟨fun _ h => (by cases h), ?_⟩)
      intro ha _ ht
      obtain ⟨t, h1, h2⟩ := ht r rfl
      exact absurd (hd.works ha t h1 h2) he
    · next he =>
      have he : e = .none := by simpa using he
      obtain ⟨p, t, h1, h2, h3⟩ := hd.good he
      refine spec_post (hf d hd.rest) ?_
      intro x hx
      refine ⟨.refl _, fun f hf => ⟨d, ⟨hd.rest, fun h => (by cases h), fun r' hr' => ?_⟩, hx.1 f hf⟩,
        fun ha hw _ => hx.2 ha hw⟩
      rw [← Option.some.inj hr']
      exact ⟨p, t, h1, h2, h3⟩

theorem store_of {lib : Lib} {a : Args} {t : List Nat} {c : Ctx} (ht : a.chain = some t)
    (h : ∃ p, c.store = some (p, certsIn lib (seen t), crlsIn lib (seen t))) :
    ∀ t, a.chain = some t → ∀ items, lib.pem (seen t) = some items →
      ∃ p, c.store = some (p, items.filterMap Item.cert, items.filterMap Item.crl) := by
  intro t' ht' items hi
  rw [ht] at ht'
  rw [← Option.some.inj ht'] at hi
  obtain ⟨p, hp⟩ := h
  refine ⟨p, ?_⟩
  rw [hp]
  simp [certsIn, crlsIn, hi]

theorem answer_of {lib : Lib} {a : Args} {c d : Ctx} (hd : Answer lib a.resp c d) :
    ∀ r, a.resp = some r → ∀ items, lib.pem (seen r) = some items →
      ∃ p t, d.ca = some (p, t) ∧ lib.p7 (items.filterMap Item.cert) = some t := by
  intro r hr items hi
  obtain ⟨p, t, h1, _, h3⟩ := hd.given r hr
  refine ⟨p, t, h1, ?_⟩
  have := h3.2.2
  simpa [certsIn, hi] using this

theorem usable_of {lib : Lib} {a : Args} {t : List Nat} {c d : Ctx} (h : Tested a)
    (ht : a.chain = some t) (hc : certsIn lib (seen t) ≠ []) (hd : Answer lib a.resp c d) :
    Usable lib a := by
  refine ⟨?_, fun r hr => ⟨h.resp r hr, ?_⟩, h.format, h.cert, h.key, h.realm⟩
  · obtain ⟨t', ht', hl⟩ := h.chain
    have e : t' = t := Option.some.inj (ht'.symm.trans ht)
    subst e
    exact ⟨t', ht, hl, (certs_iff lib (seen t')).1 hc⟩
  · obtain ⟨p, u, _, h2, h3⟩ := hd.given r hr
    exact (renders_iff lib (seen r)).1 ⟨u, h3, h2⟩

/-- What is known of the result of `est_server_init`. -/
def ServerResult (lib : Lib) (a : Args) (ok : Nat → Bool) (r : Option Ctx) : Prop :=
  (∀ c, r = some c → Usable lib a ∧ Holds lib a c ∧ c.proxy = false ∧ c.table = none) ∧
    (AllOk ok → Usable lib a → r ≠ none)

theorem serverInit_spec (lib : Lib) (a : Args) (hs : ShortSubjects lib a)
    (hG : G ∨ ¬ Tested a ∨ AllOk ok ∧ (∀ t, a.chain = some t → certsIn lib (seen t) ≠ []) ∧
      ∀ r, a.resp = some r → lib.asn1 = true ∧ (lib.pem (seen r)).isSome = true) :
    Spec ok G [] (serverInit lib a) (fun r => r.elim [] owned) (ServerResult lib a ok) := by
  rcases serverInit_eq lib a with ⟨hn, e⟩ | ⟨t, realm, hte, ht, hr, e⟩
  · rw [e]
    refine spec_pure (.refl _) ⟨fun c h => (by cases h), fun _ hu => ?_⟩
    obtain ⟨t, h1, h2, _⟩ := hu.chain
    exact absurd ⟨⟨t, h1, h2⟩, fun r hr => (hu.resp r hr).1, hu.format, hu.cert, hu.key, hu.realm⟩ hn
  · have hG' : G ∨ AllOk ok ∧ (∀ t, a.chain = some t → certsIn lib (seen t) ≠ []) ∧
        ∀ r, a.resp = some r → lib.asn1 = true ∧ (lib.pem (seen r)).isSome = true :=
      hG.imp_right fun x => x.resolve_left (fun h => h hte)
    rw [e]
    unfold serverBody
    refine spec_alloc (fun self => ?_) (fun hn => ?_)
    · dsimp only
      refine spec_post (load_spec (f := fun c => serverRest lib c (seen t) realm)
        (Done := fun c d => ServerDone lib c (seen t) realm d) (W := certsIn lib (seen t) ≠ []) lib
        { zeroed self false with
            retry := 3600, required := 1, readTimeout := 10, brskiRetry := 30 }
        a.resp rfl rfl (hG'.imp_right fun x => ⟨x.1, x.2.2⟩) ?_) ?_
      · intro d hd
        exact serverRest_spec lib d (seen t) realm (short_of hs ht) (by rw [hd]; rfl)
          (by rw [hd]; rfl) (hG'.imp_right fun x => ⟨x.1, x.2.1 t ht⟩)
      · intro r hres
        refine ⟨.refl _, fun c hc => ?_, fun ha hu => ?_⟩
        · obtain ⟨d, hd, hdone⟩ := hres.1 c hc
          have hca : c.ca = d.ca := by rw [hdone.rest]
          have hrest := hd.rest
          refine ⟨usable_of hte ht hdone.certs hd, ⟨store_of ht hdone.store, ?_, ?_, ?_, ?_, hdone.coap⟩, ?_, ?_⟩
          · intro h
            rw [hca, hd.absent h]; rfl
          · rw [hca]; exact answer_of hd
          · intro r' hr' h0
            rw [hr] at hr'
            rw [← Option.some.inj hr'] at h0 ⊢
            have : c.realm = strcpyS zeros 255 realm := by rw [hdone.rest, hrest]; rfl
            rw [this, cstr_copy realm h0]
          · rw [hdone.rest, hrest]; exact ⟨rfl, rfl, rfl, rfl, rfl⟩
          · rw [hdone.rest, hrest]; rfl
          · rw [hdone.rest, hrest]; rfl
        · refine hres.2 ha ?_ ?_
          · obtain ⟨t', h1, _, h2⟩ := hu.chain
            have e : t' = t := Option.some.inj (h1.symm.trans ht)
            subst e
            exact (certs_iff lib (seen t')).2 h2
          · intro r' hr'
            exact (renders_iff lib (seen r')).2 (hu.resp r' hr').2
    · exact spec_pure (.refl _) ⟨fun c h => (by cases h), fun ha => absurd ha hn⟩

theorem setUidPw_facts (c : Ctx) (uid pwd : Option (List Nat)) (hu : c.userid = zeros)
    (hp : c.password = zeros) :
    (setUidPw c uid pwd).2 = { c with userid := (setUidPw c uid pwd).2.userid,
                                      password := (setUidPw c uid pwd).2.password } ∧
    ((setUidPw c uid pwd).1 = .none ↔ GoodLogin uid pwd) ∧
    ((setUidPw c uid pwd).1 = .none → ∀ u p, uid = some u → pwd = some p → 0 ∉ u → 0 ∉ p →
      cstr (setUidPw c uid pwd).2.userid = u ∧ cstr (setUidPw c uid pwd).2.password = p) ∧
    ((setUidPw c uid pwd).1 = .none → uid = none →
      cstr (setUidPw c uid pwd).2.userid = [] ∧ cstr (setUidPw c uid pwd).2.password = []) := by
  have hz : cstr zeros = [] := by decide +kernel
  cases uid with
  | none =>
    cases pwd with
    | none =>
      refine ⟨rfl, ⟨fun _ => .inl ⟨rfl, rfl⟩, fun _ => rfl⟩, fun _ u p h => (by cases h), fun _ _ => ?_⟩
      show cstr c.userid = [] ∧ cstr c.password = []
      rw [hu, hp]
      exact ⟨hz, hz⟩
    | some p =>
      refine ⟨rfl, ⟨fun h => by simp [setUidPw] at h, fun h => ?_⟩, fun h => by simp [setUidPw] at h,
        fun h => by simp [setUidPw] at h⟩
      rcases h with ⟨_, h⟩ | ⟨u, q, h, _⟩ <;> cases h
  | some u =>
    cases pwd with
    | none =>
      refine ⟨rfl, ⟨fun h => by simp [setUidPw] at h, fun h => ?_⟩, fun h => by simp [setUidPw] at h,
        fun h => by simp [setUidPw] at h⟩
      rcases h with ⟨h, _⟩ | ⟨u, q, _, h, _⟩ <;> cases h
    | some p =>
      unfold setUidPw
      dsimp only
      by_cases h1 : 255 < min u.length 256
      · rw [if_pos h1]
        refine ⟨rfl, ⟨fun h => by simp at h, fun h => ?_⟩, fun h => by simp at h, fun h => by simp at h⟩
        rcases h with ⟨h, _⟩ | ⟨u', q, e1, e2, h3, h4⟩
        · cases h
        · rw [← Option.some.inj e1] at h3; omega
      · rw [if_neg h1]
        by_cases h2 : 255 < min p.length 256
        · rw [if_pos h2]
          refine ⟨rfl, ⟨fun h => by simp at h, fun h => ?_⟩, fun h => by simp at h,
            fun h => by simp at h⟩
          rcases h with ⟨h, _⟩ | ⟨u', q, e1, e2, h3, h4⟩
          · cases h
          · rw [← Option.some.inj e2] at h4; omega
        · rw [if_neg h2]
          refine ⟨rfl, ⟨fun _ => .inr ⟨u, p, rfl, rfl, by omega, by omega⟩, fun _ => rfl⟩, ?_,
            fun _ h => by cases h⟩
          intro _ u' p' e1 e2 h0 h0'
          rw [← Option.some.inj e1] at h0 ⊢
          rw [← Option.some.inj e2] at h0' ⊢
          dsimp only
          rw [hu, hp, cstr_copy u h0, cstr_copy p h0', List.take_of_length_le (by omega),
            List.take_of_length_le (by omega)]
          exact ⟨rfl, rfl⟩

/-- What is known of the result of `est_proxy_init`. -/
def ProxyResult (lib : Lib) (a : Args) (ok : Nat → Bool) (r : Option Ctx) : Prop :=
  (∀ c, r = some c → Usable lib a ∧ GoodLogin a.uid a.pwd ∧ Holds lib a c ∧ HoldsProxy a c ∧
      (AllOk ok → c.table ≠ none)) ∧
    (AllOk ok → Usable lib a → GoodLogin a.uid a.pwd → r ≠ none)

theorem proxyInit_spec (lib : Lib) (a : Args) (hs : ShortSubjects lib a)
    (hG : G ∨ ¬ Tested a ∨
      AllOk ok ∧ ∀ r, a.resp = some r → lib.asn1 = true ∧ (lib.pem (seen r)).isSome = true) :
    Spec ok G [] (proxyInit lib a) (fun r => r.elim [] owned) (ProxyResult lib a ok) := by
  rcases proxyInit_eq lib a with ⟨hn, e⟩ | ⟨t, realm, hte, ht, hr, e⟩
  · rw [e]
    refine spec_pure (.refl _) ⟨fun c h => (by cases h), fun _ hu => ?_⟩
    obtain ⟨t, h1, h2, _⟩ := hu.chain
    exact absurd ⟨⟨t, h1, h2⟩, fun r hr => (hu.resp r hr).1, hu.format, hu.cert, hu.key, hu.realm⟩ hn
  · have hG' : G ∨ AllOk ok ∧
        ∀ r, a.resp = some r → lib.asn1 = true ∧ (lib.pem (seen r)).isSome = true :=
      hG.imp_right fun x => x.resolve_left (fun h => h hte)
    rw [e]
    unfold proxyBody
    refine spec_alloc (fun self => ?_) (fun hn => ?_)
    · dsimp only
      generalize hc0 : ({ zeroed self true with
        retry := 3600, required := 1, readTimeout := 10, pop := true } : Ctx) = c0
      obtain ⟨f1, f2, f3, f4⟩ := setUidPw_facts c0 a.uid a.pwd (by rw [← hc0]; rfl)
        (by rw [← hc0]; rfl)
      generalize hpw : setUidPw c0 a.uid a.pwd = pw at f1 f2 f3 f4 ⊢
      obtain ⟨e1, c1⟩ := pw
      dsimp only at f1 f2 f3 f4 ⊢
      have hown : owned c1 = [c1.self] := by rw [f1, ← hc0]; rfl
      have hself : c1.self = self := by rw [f1, ← hc0]; rfl
      split
      · next he =>
        rw [hself]
        refine spec_free (P' := []) (.refl _) (spec_pure (.refl _) ⟨fun _ h => (by cases h), ?_⟩)
        intro _ _ hg
        exact absurd (f2.2 hg) he
      · next he =>
        have he : e1 = .none := by simpa using he
        rw [← hself, ← hown]
        refine spec_post (load_spec (f := fun c => proxyRest lib c (seen t) realm)
          (Done := fun c d => ProxyDone lib ok c (seen t) realm d) (W := certsIn lib (seen t) ≠ [])
          lib c1 a.resp hown (by rw [f1, ← hc0]; rfl) hG' ?_) ?_
        · intro d hd
          exact proxyRest_spec lib d (seen t) realm (short_of hs ht) (by rw [hd, f1, ← hc0]; rfl)
            (by rw [hd, f1, ← hc0]; rfl) (by rw [hd, f1, ← hc0]; rfl) (by rw [hd, f1, ← hc0]; rfl)
            (by rw [hd, f1, ← hc0]; rfl) (hG'.imp_right (·.1))
        · intro r hres
          refine ⟨.refl _, fun c hc => ?_, fun ha hu _ => ?_⟩
          · obtain ⟨d, hd, hdone⟩ := hres.1 c hc
            have hca : c.ca = d.ca := by rw [hdone.rest]
            have hrest := hd.rest
            have hu' : c.userid = c1.userid := by rw [hdone.rest, hrest]
            have hp' : c.password = c1.password := by rw [hdone.rest, hrest]
            refine ⟨usable_of hte ht hdone.certs hd, f2.1 he,
              ⟨store_of ht hdone.store, ?_, ?_, ?_, ?_, hdone.coap⟩, ⟨?_, ?_, ?_, ?_⟩, hdone.table⟩
            · intro h
              rw [hca, hd.absent h, f1, ← hc0]; rfl
            · rw [hca]; exact answer_of hd
            · intro r' hr' h0
              rw [hr] at hr'
              rw [← Option.some.inj hr'] at h0 ⊢
              have : c.realm = strcpyS zeros 255 realm := by rw [hdone.rest, hrest, f1, ← hc0]; rfl
              rw [this, cstr_copy realm h0]
            · rw [hdone.rest, hrest, f1, ← hc0]; exact ⟨rfl, rfl, rfl, rfl, rfl⟩
            · rw [hdone.rest, hrest, f1, ← hc0]; rfl
            · intro t' ht'
              rw [ht] at ht'
              rw [← Option.some.inj ht']
              exact hdone.raw
            · rw [hu', hp']; exact f3 he
            · rw [hu', hp']; exact f4 he
          · refine hres.2 ha ?_ ?_
            · obtain ⟨t', h1, _, h2⟩ := hu.chain
              have e : t' = t := Option.some.inj (h1.symm.trans ht)
              subst e
              exact (certs_iff lib (seen t')).2 h2
            · intro r' hr'
              exact (renders_iff lib (seen r')).2 (hu.resp r' hr').2
    · exact spec_pure (.refl _) ⟨fun c h => (by cases h), fun ha => absurd ha hn⟩

/-- `est_server_init`, and `est_destroy` on the context if there is one. -/
def serverLife (lib : Lib) (a : Args) : Mem Unit := do
  match ← serverInit lib a with
  | none => pure ()
  | some c => destroy c

/-- The same for a proxy. -/
def proxyLife (lib : Lib) (a : Args) : Mem Unit := do
  match ← proxyInit lib a with
  | none => pure ()
  | some c => destroy c

theorem serverLife_spec (lib : Lib) (a : Args) (hs : ShortSubjects lib a)
    (hG : G ∨ ¬ Tested a ∨ AllOk ok ∧ (∀ t, a.chain = some t → certsIn lib (seen t) ≠ []) ∧
      ∀ r, a.resp = some r → lib.asn1 = true ∧ (lib.pem (seen r)).isSome = true) :
    Spec ok G [] (serverLife lib a) (fun _ => []) (fun _ => True) := by
  unfold serverLife
  refine spec_call (serverInit_spec lib a hs hG) (D := []) (.refl _) ?_
  intro r hr
  cases r with
  | none => exact spec_pure (.refl _) trivial
  | some c =>
    dsimp only [Option.elim]
    rw [List.append_nil]
    exact destroy_spec c (.inr (hr.1 c rfl).2.2.2)

theorem proxyLife_spec (lib : Lib) (a : Args) (hs : ShortSubjects lib a)
    (hG : G ∨ ¬ Tested a ∨
      AllOk ok ∧ ∀ r, a.resp = some r → lib.asn1 = true ∧ (lib.pem (seen r)).isSome = true) :
    Spec ok G [] (proxyLife lib a) (fun _ => []) (fun _ => True) := by
  unfold proxyLife
  refine spec_call (proxyInit_spec lib a hs hG) (D := []) (.refl _) ?_
  intro r hr
  cases r with
  | none => exact spec_pure (.refl _) trivial
  | some c =>
    dsimp only [Option.elim]
    rw [List.append_nil]
    exact destroy_spec c (.inl (hr.1 c rfl).2.2.2.1.mode)

/-! ## Theorems -/

/-- `est_server_init` with trust anchors whose subjects are short: it has no undefined behaviour
however the allocations go; a context comes only from usable arguments and holds what was given;
and when memory suffices, usable arguments always give one. -/
theorem C110_server_init (lib : Lib) (a : Args) (hs : ShortSubjects lib a) (ok : Nat → Bool)
    (h : Heap) :
    ∃ r h', serverInit lib a ok h = some (r, h') ∧
      (∀ c, r = some c → Usable lib a ∧ Holds lib a c) ∧
      ((∀ n, ok n = true) → Usable lib a → r ≠ none) := by
  obtain ⟨r, h', L, e, hr, _⟩ := serverInit_spec (ok := ok) (G := True) lib a hs (.inl trivial) h
    h.live (.refl _)
  exact ⟨r, h', e, fun c hc => ⟨(hr.1 c hc).1, (hr.1 c hc).2.1⟩, hr.2⟩

/-- The same for `est_proxy_init`, whose user name and password must be both given or both
missing. -/
theorem C110_proxy_init (lib : Lib) (a : Args) (hs : ShortSubjects lib a) (ok : Nat → Bool)
    (h : Heap) :
    ∃ r h', proxyInit lib a ok h = some (r, h') ∧
      (∀ c, r = some c → Usable lib a ∧ GoodLogin a.uid a.pwd ∧ Holds lib a c ∧ HoldsProxy a c) ∧
      ((∀ n, ok n = true) → Usable lib a → GoodLogin a.uid a.pwd →
        ∃ c, r = some c ∧ c.table ≠ none) := by
  obtain ⟨r, h', L, e, hr, _⟩ := proxyInit_spec (ok := ok) (G := True) lib a hs (.inl trivial) h
    h.live (.refl _)
  refine ⟨r, h', e, fun c hc => ?_, fun ha hu hg => ?_⟩
  · obtain ⟨h1, h2, h3, h4, _⟩ := hr.1 c hc
    exact ⟨h1, h2, h3, h4⟩
  · obtain ⟨c, hc⟩ := Option.ne_none_iff_exists'.1 (hr.2 ha hu hg)
    exact ⟨c, hc, (hr.1 c hc).2.2.2.2 ha⟩

/-- Creating a server and destroying it releases everything, and a refusal leaves nothing behind:
if the refusal comes from the tests of the arguments, or else if memory suffices, the trust anchors
contain a certificate and the answer to `cacerts` can be read.  Missing: the other refusals, for
which it is false (`C110_refused_server_false`, `C110_unreadable_answer_false`). -/
theorem C110_server_balanced_partial (lib : Lib) (a : Args) (hs : ShortSubjects lib a)
    (ok : Nat → Bool) (h : Heap)
    (hyp : ¬ Tested a ∨ (∀ n, ok n = true) ∧
      (∀ t, a.chain = some t → ∃ items, lib.pem (seen t) = some items ∧ ∃ i ∈ items, i.cert ≠ none) ∧
      (∀ r, a.resp = some r → lib.asn1 = true ∧ lib.pem (seen r) ≠ none)) :
    ∃ h', serverLife lib a ok h = some ((), h') ∧ h'.live.Perm h.live := by
  rcases hyp with hn | hyp
  · rcases serverInit_eq lib a with ⟨_, e⟩ | ⟨_, _, ht, _⟩
    · refine ⟨h, ?_, .refl _⟩
      unfold serverLife
      rw [e]
      rfl
    · exact absurd ht hn
  · obtain ⟨r, h', L, e, _, hp, hl⟩ := serverLife_spec (ok := ok) (G := False) lib a hs
      (.inr (.inr ⟨hyp.1, fun t ht => (certs_iff lib (seen t)).2 (hyp.2.1 t ht),
        fun r hr => ⟨(hyp.2.2 r hr).1, Option.isSome_iff_ne_none.2 (hyp.2.2 r hr).2⟩⟩)) h
      h.live (.refl _)
    refine ⟨h', e, ?_⟩
    rw [hl.resolve_right id] at hp
    exact hp

/-- The same for a proxy, whose trust anchors may also be refused. -/
theorem C110_proxy_balanced_partial (lib : Lib) (a : Args) (hs : ShortSubjects lib a)
    (ok : Nat → Bool) (h : Heap)
    (hyp : ¬ Tested a ∨ (∀ n, ok n = true) ∧
      (∀ r, a.resp = some r → lib.asn1 = true ∧ lib.pem (seen r) ≠ none)) :
    ∃ h', proxyLife lib a ok h = some ((), h') ∧ h'.live.Perm h.live := by
  rcases hyp with hn | hyp
  · rcases proxyInit_eq lib a with ⟨_, e⟩ | ⟨_, _, ht, _⟩
    · refine ⟨h, ?_, .refl _⟩
      unfold proxyLife
      rw [e]
      rfl
    · exact absurd ht hn
  · obtain ⟨r, h', L, e, _, hp, hl⟩ := proxyLife_spec (ok := ok) (G := False) lib a hs
      (.inr (.inr ⟨hyp.1,
        fun r hr => ⟨(hyp.2 r hr).1, Option.isSome_iff_ne_none.2 (hyp.2 r hr).2⟩⟩)) h
      h.live (.refl _)
    refine ⟨h', e, ?_⟩
    rw [hl.resolve_right id] at hp
    exact hp

/-- `est_client_init` when memory suffices and OpenSSL knows the cipher suites: a context comes
exactly from PEM input whose length is given right and that contains a certificate, or from no
trust anchors at all; and a refusal leaves nothing behind. -/
theorem C110_client_init (lib : Lib) (chain : Option (List Nat)) (len : Int) (pem : Bool)
    (ok : Nat → Bool) (ha : ∀ n, ok n = true) (h : Heap) :
    ∃ r h', clientInit lib true chain len pem ok h = some (r, h') ∧
      (r ≠ none ↔ pem = true ∧ ∀ t, chain = some t → len = (seen t).length ∧
        ∃ items, lib.pem (seen t) = some items ∧ ∃ i ∈ items, i.cert ≠ none) ∧
      (r = none → h'.live = h.live) := by
  have good : ∃ c h', ClientMem.init ⟨true, true⟩ ok h = some (some c, h') := by
    simp [ClientMem.init, bind, pure, alloc, free, ha]
  have bad : ∃ h', ClientMem.init ⟨false, true⟩ ok h = some (none, h') ∧ h'.live = h.live := by
    simp [ClientMem.init, ClientMem.destroy, ClientMem.destroyTls, bind, pure, alloc, free, ha]
  unfold clientInit
  cases pem with
  | false => exact ⟨none, h, rfl, by simp, fun _ => rfl⟩
  | true =>
    cases chain with
    | none =>
      obtain ⟨c, h', e⟩ := good
      exact ⟨some c, h', e, by simp, fun x => by cases x⟩
    | some t =>
      dsimp only
      rw [if_neg (by decide)]
      by_cases hl : lenOf t ≠ len
      · rw [if_pos hl]
        refine ⟨none, h, rfl, ⟨fun x => absurd rfl x, fun x => ?_⟩, fun _ => rfl⟩
        have := (x.2 t rfl).1
        rw [lenOf_seen] at hl
        exact absurd this.symm hl
      · rw [if_neg hl]
        have hl' : len = (seen t).length := by
          rw [← lenOf_seen]; exact (Decidable.not_not.1 hl).symm
        have hc : found lib (t.take 2000000) = certsIn lib (seen t) := by
          unfold found certsIn seen
          cases lib.pem (t.take 2000000) <;> rfl
        rw [hc]
        by_cases hn : certsIn lib (seen t) = []
        · rw [hn]
          obtain ⟨h', e, hb⟩ := bad
          refine ⟨none, h', e, ⟨fun x => absurd rfl x, fun x => ?_⟩, fun _ => hb⟩
          exact absurd hn ((certs_iff lib (seen t)).2 (x.2 t rfl).2)
        · have hd : decide ((certsIn lib (seen t)).length ≠ 0) = true := by
            simpa using hn
          rw [hd]
          obtain ⟨c, h', e⟩ := good
          refine ⟨some c, h', e, ⟨fun _ => ⟨rfl, fun t' ht => ?_⟩, fun _ => by simp⟩, fun x => by cases x⟩
          rw [← Option.some.inj ht]
          exact ⟨hl', (certs_iff lib (seen t)).1 hn⟩

/-! ## Examples and counterexamples -/

/-- A library that reads four texts: one certificate, one CRL, a certificate with a long subject,
a certificate and a CRL. -/
def exLib : Lib where
  pem t := if t = [1] then some [⟨some [10], none⟩]
    else if t = [2] then some [⟨none, some [20]⟩]
    else if t = [3] then some [⟨some [30], none⟩]
    else if t = [4] then some [⟨some [10], none⟩, ⟨none, some [20]⟩, ⟨some [11], none⟩]
    else none
  subject c := if c = [30] then List.replicate 255 65 else [67]
  p7 cs := some (80 :: cs.flatten)
  asn1 := true
  coap := true

/-- Arguments of a server, and of a proxy that identifies itself upstream. -/
def exArgs : Args where
  chain := some [4]
  chainLen := 1
  resp := some [1]
  respLen := 1
  pem := true
  realm := some [114, 101]
  cert := true
  key := true
  uid := some [117]
  pwd := some [112, 119]

/-- Every allocation succeeds. -/
def exOk : Nat → Bool := fun _ => true

/-- The empty heap. -/
def exHeap : Heap := ⟨0, []⟩

theorem exLib_small (c : List Nat) (h : c ≠ [30]) : (exLib.subject c).length < 255 := by
  show (if c = [30] then _ else _ : List Nat).length < 255
  rw [if_neg h]
  decide

theorem exShort : ShortSubjects exLib exArgs := by
  intro t ht items hi i hm c hc
  refine exLib_small c ?_
  rintro rfl
  have : t = [4] := (Option.some.inj ht).symm
  subst this
  have e : items = [⟨some [10], none⟩, ⟨none, some [20]⟩, ⟨some [11], none⟩] :=
    (Option.some.inj hi).symm
  subst e
  simp only [List.mem_cons, List.not_mem_nil, or_false] at hm
  rcases hm with rfl | rfl | rfl <;> simp at hc

theorem exUsable : Usable exLib exArgs where
  chain := ⟨[4], rfl, rfl, _, rfl, ⟨some [10], none⟩, List.mem_cons_self .., by simp⟩
  resp := fun r hr => by
    have : r = [1] := (Option.some.inj hr).symm
    subst this
    exact ⟨rfl, rfl, _, rfl, _, rfl, by simp⟩
  format := rfl
  cert := rfl
  key := rfl
  realm := ⟨_, rfl⟩

example : Usable exLib exArgs ∧ ShortSubjects exLib exArgs ∧ GoodLogin exArgs.uid exArgs.pwd :=
  ⟨exUsable, exShort, .inr ⟨_, _, rfl, rfl, by decide, by decide⟩⟩

example : (serverInit exLib exArgs exOk exHeap).map (fun x => x.1.map (fun c => c.store.map (·.2))) =
    some (some (some ([[10], [11]], [[20]]))) := by decide +kernel

example : (serverInit exLib exArgs exOk exHeap).map (fun x => x.1.map (fun c => (c.ca.map (·.2),
    cstr c.realm, c.authMode))) = some (some (some [80, 10], [114, 101], 1)) := by decide +kernel

example : (proxyInit exLib exArgs exOk exHeap).map (fun x => x.1.map (fun c => (c.raw.map (·.2),
    cstr c.userid, cstr c.password, c.table.isSome))) =
    some (some (some [4], [117], [112, 119], true)) := by decide +kernel

example : (serverLife exLib exArgs exOk exHeap).map (fun x => x.2.live) = some [] ∧
    (proxyLife exLib exArgs exOk exHeap).map (fun x => x.2.live) = some [] := by decide +kernel

/-- The hypothesis of the balanced theorems, for arguments that are accepted. -/
example : (∀ t, exArgs.chain = some t → ∃ items, exLib.pem (seen t) = some items ∧ ∃ i ∈ items, i.cert ≠ none) ∧
    (∀ r, exArgs.resp = some r → exLib.asn1 = true ∧ exLib.pem (seen r) ≠ none) := by
  refine ⟨fun t ht => ?_, fun r hr => ?_⟩
  · have : t = [4] := (Option.some.inj ht).symm
    subst this
    exact ⟨_, rfl, ⟨some [10], none⟩, List.mem_cons_self .., by simp⟩
  · have : r = [1] := (Option.some.inj hr).symm
    subst this
    exact ⟨rfl, fun h => by cases h⟩

example : (clientInit exLib true (some [4]) 1 true exOk exHeap).map (fun x => x.1.isSome) = some true ∧
    (clientInit exLib true none 7 true exOk exHeap).map (fun x => x.1.isSome) = some true ∧
    (clientInit exLib true (some [2]) 1 true exOk exHeap).map (fun x => (x.1.isSome, x.2.live)) =
      some (false, []) := by decide +kernel

/-- Trust anchors without a certificate: `est_server_init` refuses, but the new certificate store
and the answer to `cacerts` are never released. -/
theorem C110_refused_server_false :
    (serverInit exLib { exArgs with chain := some [2] } exOk exHeap).map
      (fun x => (x.1, x.2.live.length)) = some (none, 2) := by decide +kernel

/-- An answer to `cacerts` that cannot be read: server and proxy refuse, and two objects of the
conversion are lost. -/
theorem C110_unreadable_answer_false :
    (serverInit exLib { exArgs with resp := some [9] } exOk exHeap).map
      (fun x => (x.1, x.2.live.length)) = some (none, 2) ∧
    (proxyInit exLib { exArgs with resp := some [9] } exOk exHeap).map
      (fun x => (x.1, x.2.live.length)) = some (none, 2) := by decide +kernel

/-- An answer to `cacerts` with a CRL and without any certificate is accepted: the server then
hands out a message without certificates. -/
theorem C110_empty_answer_false :
    (serverInit exLib { exArgs with resp := some [2] } exOk exHeap).map
      (fun x => x.1.map (fun c => c.ca.map (·.2))) = some (some (exLib.p7 [])) := by decide +kernel

/-- A trust anchor whose subject has 255 characters: a write behind the buffer. -/
theorem C110_long_subject_false :
    serverInit exLib { exArgs with chain := some [3] } exOk exHeap = none ∧
    proxyInit exLib { exArgs with chain := some [3] } exOk exHeap = none := by
  constructor <;> decide +kernel

/-- The memory for the table of upstream contexts is not available: `est_proxy_init` returns a
context without the table. -/
theorem C110_missing_table_false :
    ∃ n, (proxyInit { exLib with coap := false } exArgs (fun k => decide (k ≠ n)) exHeap).map
      (fun x => x.1.map (fun c => c.table)) = some (some none) := ⟨17, by decide +kernel⟩

/-- A length is accepted that is not the length of the text: beyond 2000000 characters. -/
theorem C110_length_false (t : List Nat) (h : t.length > 2000000) :
    Tested { exArgs with chain := some t, chainLen := 2000000, resp := none } ∧
      (2000000 : Int) ≠ t.length := by
  refine ⟨⟨⟨t, rfl, ?_⟩, fun r hr => (by cases hr), rfl, rfl, rfl, _, rfl⟩, by omega⟩
  unfold seen
  rw [List.length_take, Nat.min_eq_left (by omega)]
  simp

end Verif.Init
