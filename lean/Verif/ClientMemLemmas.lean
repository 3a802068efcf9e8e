import Verif.ClientMemModel

/-!
# Rules for reasoning about ownership

`Spec ok G P m Q R`: started in a heap whose live blocks are those of `P` and
any others, `m` runs without undefined behaviour, its result satisfies `R`, and
afterwards the live blocks are those of `Q` (which depends on the result), the
same others, and possibly some that nobody owns any more, the latter only when
`G` holds.
-/
namespace Verif.ClientMem

/-- See the head of the file. -/
def Spec {α : Type} (ok : Nat → Bool) (G : Prop) (P : List Nat) (m : Mem α) (Q : α → List Nat)
    (R : α → Prop) : Prop :=
  ∀ (h : Heap) (F : List Nat), h.live.Perm (P ++ F) →
    ∃ (a : α) (h' : Heap) (L : List Nat), m ok h = some (a, h') ∧ R a ∧
      h'.live.Perm (Q a ++ (L ++ F)) ∧ (L = [] ∨ G)

/-- Every allocation succeeds. -/
def AllOk (ok : Nat → Bool) : Prop := ∀ n, ok n = true

variable {ok : Nat → Bool} {G : Prop} {α β : Type}

theorem bind_some {m : Mem α} {f : α → Mem β} {h h' : Heap} {a : α} (e : m ok h = some (a, h')) :
    (m >>= f) ok h = f a ok h' := by
  show (match m ok h with | none => none | some (a, h') => f a ok h') = _
  rw [e]

theorem spec_pure {P : List Nat} {a : α} {Q : α → List Nat} {R : α → Prop}
    (hp : P.Perm (Q a)) (hr : R a) : Spec ok G P (pure a) Q R := by
  intro h F hh
  exact ⟨a, h, [], rfl, hr, hh.trans (hp.append_right F), .inl rfl⟩

/-- The blocks `L` are forgotten. -/
theorem spec_lose {P : List Nat} {a : α} {Q : α → List Nat} {R : α → Prop} (L : List Nat) (hg : G)
    (hp : P.Perm (Q a ++ L)) (hr : R a) : Spec ok G P (pure a) Q R := by
  intro h F hh
  refine ⟨a, h, L, rfl, hr, ?_, .inr hg⟩
  have := hh.trans (hp.append_right F)
  rwa [List.append_assoc] at this

theorem spec_perm {P P' : List Nat} {m : Mem α} {Q : α → List Nat} {R : α → Prop}
    (hp : P.Perm P') (hm : Spec ok G P' m Q R) : Spec ok G P m Q R := by
  intro h F hh
  exact hm h F (hh.trans (hp.append_right F))

theorem spec_post {P : List Nat} {m : Mem α} {Q Q' : α → List Nat} {R R' : α → Prop}
    (hm : Spec ok G P m Q R) (h : ∀ a, R a → (Q a).Perm (Q' a) ∧ R' a) :
    Spec ok G P m Q' R' := by
  intro hp F hh
  obtain ⟨a, h', L, e, hr, hq, hl⟩ := hm hp F hh
  exact ⟨a, h', L, e, (h a hr).2, hq.trans ((h a hr).1.append_right _), hl⟩

/-- A call of a function that owns part of the blocks. -/
theorem spec_call {X P D : List Nat} {m : Mem α} {f : α → Mem β} {Q : α → List Nat}
    {R : α → Prop} {Q' : β → List Nat} {R' : β → Prop}
    (hm : Spec ok G P m Q R) (hp : X.Perm (P ++ D))
    (hf : ∀ a, R a → Spec ok G (Q a ++ D) (f a) Q' R') : Spec ok G X (m >>= f) Q' R' := by
  intro h F hh
  obtain ⟨a, h1, L1, e1, hr1, hq1, hl1⟩ := hm h (D ++ F)
    (hh.trans ((hp.append_right F).trans (by rw [List.append_assoc])))
  have hx : h1.live.Perm (Q a ++ D ++ (L1 ++ F)) := by
    refine hq1.trans ?_
    rw [List.append_assoc]
    refine List.Perm.append_left _ ?_
    rw [← List.append_assoc, ← List.append_assoc]
    exact List.Perm.append_right _ List.perm_append_comm
  obtain ⟨b, h2, L2, e2, hr2, hq2, hl2⟩ := hf a hr1 h1 (L1 ++ F) hx
  refine ⟨b, h2, L2 ++ L1, ?_, hr2, ?_, ?_⟩
  · rw [bind_some e1]
    exact e2
  · rw [List.append_assoc]
    exact hq2
  · rcases hl1 with hl1 | hg
    · rcases hl2 with hl2 | hg
      · subst hl1 hl2
        exact .inl rfl
      · exact .inr hg
    · exact .inr hg

theorem spec_alloc {P : List Nat} {f : Option Nat → Mem β} {Q : β → List Nat} {R : β → Prop}
    (hs : ∀ p, Spec ok G (p :: P) (f (some p)) Q R)
    (hn : ¬ AllOk ok → Spec ok G P (f none) Q R) : Spec ok G P (alloc >>= f) Q R := by
  intro h F hh
  by_cases hk : ok h.next = true
  · obtain ⟨b, h2, L, e, hr, hq, hl⟩ := hs h.next ⟨h.next + 1, h.next :: h.live⟩ F
      (by exact hh.cons h.next)
    refine ⟨b, h2, L, ?_, hr, hq, hl⟩
    rw [bind_some (a := some h.next) (h' := ⟨h.next + 1, h.next :: h.live⟩)
      (by simp only [alloc, hk, if_true])]
    exact e
  · obtain ⟨b, h2, L, e, hr, hq, hl⟩ := hn (fun hall => hk (hall _)) ⟨h.next + 1, h.live⟩ F hh
    refine ⟨b, h2, L, ?_, hr, hq, hl⟩
    rw [bind_some (a := none) (h' := ⟨h.next + 1, h.live⟩)
      (by simp only [alloc, hk]; rfl)]
    exact e

theorem spec_newRef {P : List Nat} {f : Nat → Mem β} {Q : β → List Nat} {R : β → Prop}
    (hs : ∀ p, Spec ok G (p :: P) (f p) Q R) : Spec ok G P (newRef >>= f) Q R := by
  intro h F hh
  obtain ⟨b, h2, L, e, hr, hq, hl⟩ := hs h.next ⟨h.next + 1, h.next :: h.live⟩ F
    (by exact hh.cons h.next)
  exact ⟨b, h2, L, e, hr, hq, hl⟩

theorem spec_free {P P' : List Nat} {p : Nat} {f : Unit → Mem β} {Q : β → List Nat} {R : β → Prop}
    (hp : P.Perm (p :: P')) (hs : Spec ok G P' (f ()) Q R) :
    Spec ok G P (free (some p) >>= f) Q R := by
  intro h F hh
  have hlive : h.live.Perm (p :: (P' ++ F)) := hh.trans (hp.append_right F)
  have hm : p ∈ h.live := hlive.mem_iff.2 (List.mem_cons_self ..)
  have he : (h.live.erase p).Perm (P' ++ F) := by
    have := hlive.erase p
    rwa [List.erase_cons_head] at this
  obtain ⟨b, h2, L, e, hr, hq, hl⟩ := hs { h with live := h.live.erase p } F he
  refine ⟨b, h2, L, ?_, hr, hq, hl⟩
  rw [bind_some (a := ()) (h' := { h with live := h.live.erase p })
    (by simp only [free, hm, if_true])]
  exact e

theorem spec_free_none {P : List Nat} {f : Unit → Mem β} {Q : β → List Nat} {R : β → Prop}
    (hs : Spec ok G P (f ()) Q R) : Spec ok G P (free none >>= f) Q R := hs

theorem spec_free_opt {P P' : List Nat} {p : Option Nat} {f : Unit → Mem β} {Q : β → List Nat}
    {R : β → Prop} (hp : P.Perm (p.toList ++ P')) (hs : Spec ok G P' (f ()) Q R) :
    Spec ok G P (free p >>= f) Q R := by
  cases p with
  | none => exact spec_perm hp hs
  | some q => exact spec_free hp hs

theorem spec_use {P : List Nat} {p : Nat} {f : Unit → Mem β} {Q : β → List Nat} {R : β → Prop}
    (hp : p ∈ P) (hs : Spec ok G P (f ()) Q R) : Spec ok G P (use (some p) >>= f) Q R := by
  intro h F hh
  have hm : p ∈ h.live := hh.mem_iff.2 (List.mem_append_left _ hp)
  obtain ⟨b, h2, L, e, hr, hq, hl⟩ := hs h F hh
  refine ⟨b, h2, L, ?_, hr, hq, hl⟩
  rw [bind_some (a := ()) (h' := h) (by simp only [use, hm, if_true])]
  exact e

/-- A release at the end of a function. -/
theorem spec_last {P' : List Nat} {p : Nat} : Spec ok G (p :: P') (free (some p)) (fun _ => P')
    (fun _ => True) := by
  have h := spec_free (ok := ok) (G := G) (P := p :: P') (f := fun (_ : Unit) => (pure () : Mem Unit))
    (Q := fun _ => P') (R := fun _ => True) (.refl _) (spec_pure (.refl _) trivial)
  intro hp F hh
  obtain ⟨a, h', L, e, r⟩ := h hp F hh
  refine ⟨a, h', L, ?_, r⟩
  have hm : p ∈ hp.live := hh.mem_iff.2 (List.mem_append_left _ (List.mem_cons_self ..))
  rw [bind_some (a := ()) (h' := { hp with live := hp.live.erase p })
    (by simp only [free, hm, if_true])] at e
  simp only [free, hm, if_true]
  exact e

theorem spec_copy {P : List Nat} {d s : Option Nat} {f : Unit → Mem β} {Q : β → List Nat}
    {R : β → Prop} (hd : ∀ p, d = some p → p ∈ P) (hs' : ∀ p, s = some p → p ∈ P)
    (hs : Spec ok G P (f ()) Q R) : Spec ok G P (copy d s >>= f) Q R := by
  cases d with
  | none => exact hs
  | some d => cases s with
    | none => exact hs
    | some s =>
      show Spec ok G P ((use (some d) >>= fun _ => use (some s)) >>= f) Q R
      intro h F hh
      have h1 : d ∈ h.live := hh.mem_iff.2 (List.mem_append_left _ (hd d rfl))
      have h2 : s ∈ h.live := hh.mem_iff.2 (List.mem_append_left _ (hs' s rfl))
      obtain ⟨b, h3, L, e, hr, hq, hl⟩ := hs h F hh
      refine ⟨b, h3, L, ?_, hr, hq, hl⟩
      rw [bind_some (a := ()) (h' := h)
        (by rw [bind_some (a := ()) (h' := h) (by simp only [use, h1, if_true])]
            simp only [use, h2, if_true])]
      exact e

/-! ## Tactics -/

/-- The blocks a context owns. -/
def owned (c : Ctx) : List Nat :=
  c.self :: (c.seg.toList ++ c.cacerts.toList ++ c.csrattrs.toList ++ c.cert.toList ++
    c.key.toList ++ c.store.toList ++ c.ssl.toList ++ c.sslStore.toList ++ c.sess.toList)

/-- What every context between two calls satisfies: there is an `SSL_CTX`, and
where nothing may be lost there is no private key. -/
def Inv (G : Prop) (c : Ctx) : Prop := c.ssl.isSome = true ∧ (G ∨ c.key = none)

/-- Two lists built from the same pieces in different order. -/
macro "perm" : tactic => `(tactic| first
  | exact List.Perm.refl _
  | (rw [List.perm_iff_count]; intro x
     simp only [owned, List.count_append, List.count_cons, List.count_nil, Option.toList] <;> omega))

theorem at0 (p : Nat) (B : List Nat) : (p :: B).Perm (p :: B) := .refl _
theorem at1 (a p : Nat) (B : List Nat) : (a :: p :: B).Perm (p :: a :: B) := .swap ..
theorem at2 (a b p : Nat) (B : List Nat) : (a :: b :: p :: B).Perm (p :: a :: b :: B) := by perm
theorem at3 (a b c p : Nat) (B : List Nat) :
    (a :: b :: c :: p :: B).Perm (p :: a :: b :: c :: B) := by perm
theorem at4 (a b c d p : Nat) (B : List Nat) :
    (a :: b :: c :: d :: p :: B).Perm (p :: a :: b :: c :: d :: B) := by perm
theorem at5 (a b c d e p : Nat) (B : List Nat) :
    (a :: b :: c :: d :: e :: p :: B).Perm (p :: a :: b :: c :: d :: e :: B) := by perm

/-- Releases a block at a known place. -/
macro "fr" : tactic => `(tactic| (
  first
  | refine spec_free (at0 _ _) ?_
  | refine spec_free (at1 _ _ _) ?_
  | refine spec_free (at2 _ _ _ _) ?_
  | refine spec_free (at3 _ _ _ _ _) ?_
  | refine spec_free (at4 _ _ _ _ _ _) ?_
  | refine spec_free (at5 _ _ _ _ _ _ _) ?_
  | refine spec_free_none ?_))

/-- Uses a block. -/
macro "us" : tactic => `(tactic| refine spec_use (by simp) ?_)

/-- Allocates a block: two goals. -/
macro "al" : tactic => `(tactic|
  (refine spec_alloc (fun _ => ?_) (fun hn => ?_) <;> try dsimp only))

/-- Runs a piece of program as far as possible. -/
macro "go" : tactic => `(tactic| repeat' first
  | al | fr | us | split
  | exact spec_pure (by perm) (by simp_all [Resp.len, Inv]))

/-! ## The functions -/

theorem getResponse_spec (r : Resp) :
    Spec ok G [] (getResponse r) (fun a => a.2.toList)
      (fun a => (a.1 ≠ .none → a.2 = none) ∧ (a.1 = .none → a.2 = none → r.len = 0)) := by
  unfold getResponse
  al
  · cases r <;> dsimp only <;> go
  · go

theorem buildHeader_spec (s : Send) (http : Nat) :
    Spec ok G [http] (buildHeader s http) (fun _ => [http]) (fun _ => True) := by
  unfold buildHeader
  go

theorem allocIf_spec (b : Bool) :
    Spec ok G [] (allocIf b) (fun a => a.toList) (fun a => a = none → b = false ∨ ¬ AllOk ok) := by
  unfold allocIf
  split
  · intro h F hh
    by_cases hk : ok h.next = true
    · exact ⟨some h.next, ⟨h.next + 1, h.next :: h.live⟩, [], by simp only [alloc, hk, if_true],
        (fun e => by cases e), hh.cons _, .inl rfl⟩
    · exact ⟨none, ⟨h.next + 1, h.live⟩, [], by simp only [alloc, hk]; rfl,
        (fun _ => .inr (fun hall => hk (hall _))), hh, .inl rfl⟩
  · exact spec_pure (.refl _) (fun _ => .inl (by simp_all))

theorem removeCrls_spec (hG : G ∨ AllOk ok) (v : Verify) (p : Nat) :
    Spec ok G [p] (removeCrls v (some p)) (fun _ => [p]) (fun _ => True) := by
  unfold removeCrls
  split
  · al
    · al
      · go
      · next b hn => exact spec_lose [b] (hG.resolve_right hn) (by perm) trivial
    · go
  · go

theorem verifyResp_spec (hG : G ∨ AllOk ok) (v : Verify) (hv : v.content = true) (p : Nat) :
    Spec ok G [p] (verifyResp v (some p)) (fun _ => [p]) (fun _ => True) := by
  have hr := removeCrls_spec (ok := ok) hG v p
  unfold verifyResp
  al
  · al
    · al
      · us; fr; fr
        al
        · refine spec_call (allocIf_spec _) (P := []) (.refl _) ?_
          intro p7 _
          cases p7 with
          | none => dsimp only [Option.toList, List.nil_append]; go
          | some p7 =>
            dsimp only [Option.toList, List.cons_append, List.nil_append]
            fr
            rw [if_neg (c := (!v.content) = true) (by simp [hv])]
            split
            · go
            · al
              · al
                · split
                  · go
                  · refine spec_call hr (at4 _ _ _ _ _ _) ?_
                    intro e _
                    dsimp only [List.cons_append, List.nil_append]
                    go
                · go
              · go
        · go
      · go
    · go
  · go

theorem storeCacerts_spec (hG : G ∨ AllOk ok) (c : Ctx) (hc : Inv G c) (v : Verify)
    (hv : v.content = true) (len : Nat) (buf : Option Nat) :
    Spec ok G (buf.toList ++ owned c) (storeCacerts c v len buf)
      (fun a => buf.toList ++ owned a.2) (fun a => Inv G a.2) := by
  unfold storeCacerts
  split
  · go
  split
  · go
  refine spec_free_opt (P' := buf.toList ++ owned { c with cacerts := none }) (by perm) ?_
  al
  · next p =>
    us
    refine spec_copy (by intro q hq; cases hq; simp) (by intro q hq; subst hq; simp) ?_
    refine spec_call (verifyResp_spec hG v hv p) (D := buf.toList ++ owned { c with cacerts := none })
      (by perm) ?_
    intro e _
    dsimp only [List.cons_append, List.nil_append]
    split
    · exact spec_pure (by perm) (by simpa [Inv] using hc)
    · fr
      exact spec_pure (by perm) (by simpa [Inv] using hc)
  · exact spec_pure (by perm) (by simpa [Inv] using hc)

theorem keepCacerts_spec (hG : G ∨ AllOk ok) (c : Ctx) (hc : Inv G c) (v : Verify)
    (hv : v.content = true) (len : Nat) (e : EstErr) (buf : Option Nat) :
    Spec ok G (buf.toList ++ owned c) (keepCacerts c v len e buf)
      (fun a => buf.toList ++ owned a.2) (fun a => Inv G a.2) := by
  unfold keepCacerts
  split
  · exact storeCacerts_spec hG c hc v hv len buf
  · exact spec_pure (.refl _) hc

theorem sendCacerts_spec (hG : G ∨ AllOk ok) (c : Ctx) (hc : Inv G c) (s : Send) (v : Verify)
    (hv : v.content = true) :
    Spec ok G (owned c) (sendCacerts c s v) (fun a => owned a.2) (fun a => Inv G a.2) := by
  unfold sendCacerts
  al
  · next http =>
    refine spec_call (buildHeader_spec s http) (at0 _ _) ?_
    intro b _
    dsimp only [List.cons_append, List.nil_append]
    split
    · fr
      exact spec_pure (.refl _) hc
    · split
      · fr
        exact spec_pure (.refl _) hc
      · refine spec_call (getResponse_spec s.resp) (P := []) (.refl _) ?_
        rintro ⟨e, buf⟩ _
        dsimp only
        refine spec_call (keepCacerts_spec hG c hc v hv s.resp.len e buf) (D := [http]) (by perm) ?_
        rintro ⟨e, c'⟩ hc'
        dsimp only
        refine spec_free (P' := buf.toList ++ owned c') (by perm) ?_
        refine spec_free_opt (.refl _) ?_
        exact spec_pure (.refl _) hc'
  · exact spec_pure (.refl _) hc

theorem sslFree_spec (s : Option Ssl) :
    Spec ok G (s.elim [] (fun s => [s.obj, s.bio])) (sslFree s) (fun _ => []) (fun _ => True) := by
  cases s with
  | none => exact spec_pure (.refl _) trivial
  | some s =>
    show Spec ok G [s.obj, s.bio] (sslFree (some s)) _ _
    unfold sslFree
    fr
    exact spec_last

/-- The session reference is not lost. -/
def SesOk (G : Prop) (s : Ses) : Prop := s = .same ∨ G

/-- Like `perm`, knowing one field of the context. -/
macro "permw" h:ident : tactic => `(tactic|
  (rw [List.perm_iff_count]; intro x
   simp only [owned, $h:ident, List.count_append, List.count_cons, List.count_nil, Option.toList]
     <;> omega))

theorem inv_sess {c c' : Ctx} (hc : Inv G c) (h : c' = { c with sess := c'.sess }) : Inv G c' := by
  rw [h]
  exact hc

theorem keepSession_spec (c : Ctx) (ses : Ses) (hs : SesOk G ses) :
    Spec ok G (owned c) (keepSession c ses) (fun c' => owned c') (fun c' => c' = { c with sess := c'.sess }) := by
  unfold keepSession
  cases hq : c.sess with
  | none =>
    cases ses with
    | absent => exact spec_pure (.refl _) rfl
    | same => exact spec_newRef (fun p => spec_pure (by permw hq) rfl)
    | fresh => exact spec_newRef (fun p => spec_pure (by permw hq) rfl)
  | some q =>
    cases ses with
    | absent =>
      rcases hs with hs | hg
      · cases hs
      · exact spec_lose [q] hg (by permw hq) rfl
    | same => exact spec_pure (.refl _) rfl
    | fresh =>
      rcases hs with hs | hg
      · cases hs
      · exact spec_newRef (fun p => spec_lose [q] hg (by permw hq) rfl)

/-- The blocks of an `SSL` object. -/
def sslBlocks (s : Option Ssl) : List Nat := s.elim [] (fun s => [s.obj, s.bio])

theorem disconnect_spec (c : Ctx) (ssl : Option Ssl) (ses : Ses)
    (hs : SesOk G ses) :
    Spec ok G (sslBlocks ssl ++ owned c) (disconnect c ssl ses) (fun c' => owned c')
      (fun c' => c' = { c with sess := c'.sess }) := by
  unfold disconnect
  cases ssl with
  | none => exact spec_pure (.refl _) rfl
  | some s =>
    dsimp only
    refine spec_use (by simp [sslBlocks]) ?_
    refine spec_call (keepSession_spec c ses hs) (D := sslBlocks (some s))
      (List.perm_append_comm) ?_
    intro c' hc'
    refine spec_call (sslFree_spec (some s)) (D := owned c') (List.perm_append_comm) ?_
    intro _ _
    exact spec_pure (.refl _) hc'

theorem offerSession_spec (c : Ctx) :
    Spec ok G (owned c) (offerSession c.sess) (fun _ => owned c) (fun _ => True) := by
  cases hq : c.sess with
  | none => exact spec_pure (.refl _) trivial
  | some r =>
    intro h F hh
    have hm : r ∈ h.live := hh.mem_iff.2 (List.mem_append_left _ (by simp [owned, hq]))
    exact ⟨(), h, [], by simp only [offerSession, use, hm, if_true], trivial, hh, .inl rfl⟩

theorem connect_spec (c : Ctx) (hc : Inv G c) (w : Conn) (hs : SesOk G w.ses) :
    Spec ok G (owned c) (connect c w) (fun a => sslBlocks a.2.2 ++ owned a.2.1)
      (fun a => Inv G a.2.1) := by
  unfold connect
  split
  · exact spec_pure (.refl _) hc
  · al
    · next bio =>
      obtain ⟨s, hssl⟩ := Option.isSome_iff_exists.1 hc.1
      rw [hssl]
      refine spec_use (by simp [owned, hssl]) ?_
      al
      · next s =>
        refine spec_call (offerSession_spec c) (D := [s, bio]) (by perm) ?_
        intro _ _
        split
        · exact spec_pure (by simp only [sslBlocks, Option.elim]; perm) hc
        · split
          · refine spec_call (disconnect_spec c (some ⟨s, bio⟩) w.ses hs) (D := [])
              (by simp only [sslBlocks, Option.elim]; perm) ?_
            intro c' hc'
            exact spec_pure (by simp [sslBlocks]) (inv_sess hc hc')
          · exact spec_pure (by simp only [sslBlocks, Option.elim]; perm) hc
      · fr
        exact spec_pure (.refl _) hc
    · exact spec_pure (.refl _) hc

theorem sslFree_spec' (s : Option Ssl) :
    Spec ok G (sslBlocks s) (sslFree s) (fun _ => []) (fun _ => True) := sslFree_spec s

theorem getCacerts_spec (hG : G ∨ AllOk ok) (c : Ctx) (hc : Inv G c) (w : Conn) (s : Send)
    (v : Verify) (hv : v.content = true) (ses : Ses) (h1 : SesOk G w.ses) (h2 : SesOk G ses) :
    Spec ok G (owned c) (getCacerts c w s v ses) (fun a => owned a.2) (fun a => Inv G a.2) := by
  unfold getCacerts
  split
  · exact spec_pure (.refl _) hc
  · refine spec_call (connect_spec c hc w h1) (D := []) (by perm) ?_
    rintro ⟨e, c1, ssl⟩ hc1
    dsimp only
    split
    · refine spec_call (sendCacerts_spec hG c1 hc1 s v hv) (D := sslBlocks ssl) (by perm) ?_
      rintro ⟨e, c2⟩ hc2
      dsimp only
      refine spec_call (disconnect_spec c2 ssl ses h2) (D := []) (by perm) ?_
      intro c3 hc3
      exact spec_pure (by perm) (inv_sess hc2 hc3)
    · refine spec_call (sslFree_spec' ssl) (D := owned c1) (by perm) ?_
      intro _ _
      exact spec_pure (.refl _) hc1

theorem copyCacerts_spec (c : Ctx) (hc : Inv G c) :
    Spec ok G (owned c) (copyCacerts c) (fun a => owned a.2) (fun a => Inv G a.2) := by
  unfold copyCacerts
  split
  · exact spec_pure (.refl _) hc
  · split
    · exact spec_pure (.refl _) hc
    · next p hp =>
      refine spec_use (by simp [owned, hp]) ?_
      exact spec_pure (by perm) hc

theorem setSegment_spec (c : Ctx) (hc : Inv G c) :
    Spec ok G (owned c) (setSegment c) (fun a => owned a.2) (fun a => Inv G a.2) := by
  unfold setSegment
  refine spec_free_opt (P' := owned { c with seg := none }) (by perm) ?_
  al
  · us
    exact spec_pure (by perm) hc
  · exact spec_pure (by perm) hc

theorem sendCsrattrs_spec (s : Send) :
    Spec ok G [] (sendCsrattrs s) (fun a => a.2.toList) (fun a => a.1 ≠ .none → a.2 = none) := by
  unfold sendCsrattrs
  al
  · next http =>
    refine spec_call (buildHeader_spec s http) (at0 _ _) ?_
    intro b _
    dsimp only [List.cons_append, List.nil_append]
    split
    · go
    · split
      · go
      · refine spec_call (getResponse_spec s.resp) (P := []) (.refl _) ?_
        rintro ⟨e, buf⟩ _
        dsimp only
        split
        · refine spec_free (P' := buf.toList) (by perm) ?_
          exact spec_pure (.refl _) (by simp)
        · refine spec_free_opt (P' := [http]) (.refl _) ?_
          go
  · go

theorem getCsrattrs_spec (c : Ctx) (hc : Inv G c) (w : Conn) (s : Send)
    (b : Bool) (ses : Ses) (h1 : SesOk G w.ses) (h2 : SesOk G ses) :
    Spec ok G (owned c) (getCsrattrs c w s b ses) (fun a => owned a.2) (fun a => Inv G a.2) := by
  unfold getCsrattrs
  refine spec_call (connect_spec c hc w h1) (D := []) (by perm) ?_
  rintro ⟨e, c1, ssl⟩ hc1
  dsimp only
  split
  · refine spec_free_opt (P' := owned { c1 with csrattrs := none } ++ sslBlocks ssl) (by perm) ?_
    refine spec_call (sendCsrattrs_spec s) (P := [])
      (D := owned { c1 with csrattrs := none } ++ sslBlocks ssl) (.refl _) ?_
    rintro ⟨e, data⟩ hd
    dsimp only
    refine spec_call (disconnect_spec { c1 with csrattrs := none } ssl ses h2)
      (D := data.toList) (by perm) ?_
    intro c2 hs2
    have hc2 : Inv G c2 := inv_sess (c := { c1 with csrattrs := none }) hc1 hs2
    have hq : c2.csrattrs = none := by rw [hs2]
    split
    · split
      · exact spec_pure (by perm) hc2
      · next d =>
        al
        · next p =>
          refine spec_copy (by intro q hq; cases hq; simp) (by intro q hq; cases hq; simp) ?_
          us
          refine spec_free (P' := p :: owned c2) (by perm) ?_
          split
          · exact spec_pure (by permw hq) hc2
          · fr
            exact spec_pure (.refl _) hc2
        · refine spec_free (P' := owned c2) (by perm) ?_
          exact spec_pure (.refl _) hc2
    · refine spec_free_opt (P' := owned c2) (by perm) ?_
      exact spec_pure (.refl _) hc2
  · refine spec_call (sslFree_spec' ssl) (D := owned c1) (by perm) ?_
    intro _ _
    exact spec_pure (.refl _) hc1

/-! ## Enrolment -/

/-- Blocks that a piece of program does not use are lost. -/
theorem spec_drop {X P L : List Nat} {m : Mem α} {Q : α → List Nat} {R : α → Prop} (hg : G)
    (hm : Spec ok G P m Q R) (hp : X.Perm (P ++ L)) : Spec ok G X m Q R := by
  intro h F hh
  obtain ⟨a, h1, L1, e1, hr1, hq1, _⟩ := hm h (L ++ F)
    (hh.trans ((hp.append_right F).trans (by rw [List.append_assoc])))
  exact ⟨a, h1, L1 ++ L, e1, hr1, by rwa [List.append_assoc], .inr hg⟩

/-- The blocks a piece of program does not use stay. -/
theorem spec_frame {X P D : List Nat} {m : Mem α} {Q : α → List Nat} {R : α → Prop}
    (hm : Spec ok G P m Q R) (hp : X.Perm (P ++ D)) :
    Spec ok G X m (fun a => Q a ++ D) R := by
  intro h F hh
  obtain ⟨a, h1, L1, e1, hr1, hq1, hl⟩ := hm h (D ++ F)
    (hh.trans ((hp.append_right F).trans (by rw [List.append_assoc])))
  refine ⟨a, h1, L1, e1, hr1, hq1.trans ?_, hl⟩
  rw [List.append_assoc]
  refine List.Perm.append_left _ ?_
  rw [← List.append_assoc, ← List.append_assoc]
  exact List.Perm.append_right _ List.perm_append_comm

/-- Only key generation needs memory to be available and may lose blocks. -/
def AskOk (ok : Nat → Bool) (G : Prop) : Ask → Prop
  | .enroll _ => True
  | .keygen _ p7 _ _ => AllOk ok ∧ G ∧ p7 ≠ .empty

theorem headerStrings_spec (ha : AllOk ok) (hg : G) (n : Nat) :
    Spec ok G [] (headerStrings n) (fun _ => []) (fun _ => True) := by
  induction n with
  | zero => exact spec_pure (.refl _) trivial
  | succ n ih =>
    unfold headerStrings
    refine spec_alloc (fun p => ?_) (fun hn => absurd ha hn)
    us
    exact spec_drop hg ih (L := [p]) (.refl _)

theorem getMultipart_spec (ha : AllOk ok) (hg : G) (r : KResp) :
    Spec ok G [] (getMultipart r) (fun a => a.2.2.1.toList ++ a.2.2.2.toList)
      (fun _ => True) := by
  unfold getMultipart
  refine spec_alloc (fun raw => ?_) (fun hn => absurd ha hn)
  cases r with
  | unread e => dsimp only; go
  | badHeaders => dsimp only; go
  | status e => dsimp only; go
  | plain => dsimp only; go
  | parts n both size =>
    dsimp only
    refine spec_alloc (fun hdrs => ?_) (fun hn => absurd ha hn)
    dsimp only
    refine spec_alloc (fun parser => ?_) (fun hn => absurd ha hn)
    us
    refine spec_call (headerStrings_spec ha hg n) (P := []) (D := [parser, hdrs, raw]) (.refl _) ?_
    intro _ _
    dsimp only [List.nil_append]
    refine spec_alloc (fun key => ?_) (fun hn => absurd ha hn)
    refine spec_alloc (fun cert => ?_) (fun hn => absurd ha hn)
    fr
    have hc : Spec ok G [key, cert] (pairCheck both size (some key) (some cert))
        (fun _ => [key, cert]) (fun _ => True) := by
      unfold pairCheck
      go
    refine spec_call hc (D := [hdrs, raw]) (by perm) ?_
    intro e _
    dsimp only [List.cons_append, List.nil_append]
    go

theorem takeCert_spec (len : Nat) (e : EstErr) (p : Nat) (cert : Option Nat) :
    Spec ok G (p :: cert.toList) (takeCert len e (some p) cert) (fun _ => p :: cert.toList)
      (fun _ => True) := by
  unfold takeCert
  split
  · split
    · go
    · split
      · go
      · refine spec_copy (by intro q hq; cases hq; simp) (by intro q hq; subst hq; simp) ?_
        go
  · go

theorem takePair_spec (full : Bool) (z : Size) (e : EstErr) (p k : Nat) (cert key : Option Nat) :
    Spec ok G (p :: k :: (cert.toList ++ key.toList)) (takePair full z e (some p) (some k) cert key)
      (fun _ => p :: k :: (cert.toList ++ key.toList)) (fun _ => True) := by
  unfold takePair
  split
  · split
    · go
    · split
      · go
      · refine spec_copy (by intro q hq; cases hq; simp) (by intro q hq; subst hq; simp) ?_
        split
        · go
        · refine spec_copy (by intro q hq; cases hq; simp) (by intro q hq; subst hq; simp) ?_
          go
  · go

theorem receive_enroll_spec (r : Resp) (p : Nat) :
    Spec ok G [p] (receive (.enroll r) (some p) none) (fun _ => [p]) (fun _ => True) := by
  unfold receive
  dsimp only
  refine spec_call (getResponse_spec r) (P := []) (D := [p]) (.refl _) ?_
  rintro ⟨e, cert⟩ _
  dsimp only
  refine spec_call (takeCert_spec r.len e p cert) (D := []) (by perm) ?_
  intro e _
  refine spec_free_opt (P' := [p]) (by perm) ?_
  go

theorem receive_keygen_spec (ha : AllOk ok) (hg : G) (r : KResp) (a : Pkcs7) (b c : Bool) (p k : Nat) :
    Spec ok G [p, k] (receive (.keygen r a b c) (some p) (some k)) (fun _ => [p, k])
      (fun _ => True) := by
  unfold receive
  dsimp only
  refine spec_call (getMultipart_spec ha hg r) (P := []) (D := [p, k]) (.refl _) ?_
  rintro ⟨e, full, key, cert⟩ _
  dsimp only
  refine spec_call (takePair_spec full r.size e p k cert key) (D := []) (by perm) ?_
  intro e _
  refine spec_free_opt (P' := p :: k :: key.toList) (by perm) ?_
  refine spec_free_opt (P' := [p, k]) (by perm) ?_
  go

theorem sendEnroll_spec (s : Send) (a : Ask) (p : Nat) (k : Option Nat)
    (hr : Spec ok G (p :: k.toList) (receive a (some p) k) (fun _ => p :: k.toList)
      (fun _ => True)) :
    Spec ok G (p :: k.toList) (sendEnroll s a (some p) k) (fun _ => p :: k.toList)
      (fun _ => True) := by
  unfold sendEnroll
  al
  · next http =>
    refine spec_call (buildHeader_spec s http) (D := p :: k.toList) (.refl _) ?_
    intro b _
    dsimp only [List.cons_append, List.nil_append]
    split
    · go
    · split
      · go
      · refine spec_call hr (D := [http]) (by perm) ?_
        intro e _
        refine spec_free (P' := p :: k.toList) (by perm) ?_
        go
  · go

theorem verifyKey_spec (ha : AllOk ok) (hg : G) (x : Pkcs7) (hx : x ≠ .empty) (y z : Bool) (p k : Nat) :
    Spec ok G [p, k] (verifyKey x y z (some p) (some k)) (fun _ => [p, k]) (fun _ => True) := by
  unfold verifyKey
  refine spec_alloc (fun dec => ?_) (fun hn => absurd ha hn)
  us
  refine spec_call (allocIf_spec _) (P := []) (D := [dec, p, k]) (.refl _) ?_
  intro p7 _
  cases p7 with
  | none => exact spec_lose [dec] hg (by perm) trivial
  | some p7 =>
    dsimp only [Option.toList, List.cons_append, List.nil_append]
    rw [if_neg hx]
    refine spec_alloc (fun dk => ?_) (fun hn => absurd ha hn)
    us
    refine spec_call (allocIf_spec _) (P := []) (D := [dk, p7, dec, p, k]) (.refl _) ?_
    intro pk _
    cases pk with
    | none =>
      dsimp only [Option.toList, List.cons_append, List.nil_append]
      fr
      exact spec_lose [p7, dec] hg (by perm) trivial
    | some pk =>
      dsimp only [Option.toList, List.cons_append, List.nil_append]
      refine spec_alloc (fun t => ?_) (fun hn => absurd ha hn)
      dsimp only
      fr
      fr
      exact spec_lose [dk, p7, dec] hg (by perm) trivial

theorem storeCert_spec (c : Ctx) (hc : Inv G c) (e : EstErr) :
    Spec ok G (owned c) (storeCert c e) (fun a => owned a.2) (fun a => Inv G a.2) := by
  unfold storeCert
  split
  · refine spec_free_opt (P' := owned { c with cert := none }) (by perm) ?_
    al
    · us
      exact spec_pure (by perm) hc
    · exact spec_pure (by perm) hc
  · exact spec_pure (.refl _) hc

theorem storePair_spec (ha : AllOk ok) (hg : G) (c : Ctx) (hc : Inv G c) (x : Pkcs7)
    (hx : x ≠ .empty) (y z : Bool) (e : EstErr) :
    Spec ok G (owned c) (storePair c x y z e) (fun a => owned a.2) (fun a => Inv G a.2) := by
  unfold storePair
  split
  · refine spec_free_opt (P' := owned { c with cert := none }) (by perm) ?_
    refine spec_alloc (fun p => ?_) (fun hn => absurd ha hn)
    us
    refine spec_free_opt (P' := p :: owned { c with cert := none, key := none }) (by perm) ?_
    refine spec_alloc (fun k => ?_) (fun hn => absurd ha hn)
    us
    refine spec_call (verifyKey_spec ha hg x hx y z p k)
      (D := owned { c with cert := none, key := none }) (by perm) ?_
    intro good _
    exact spec_pure (by perm) ⟨hc.1, .inl hg⟩
  · exact spec_pure (.refl _) hc

theorem enrollReq_spec (hG : G ∨ AllOk ok) (c : Ctx) (hc : Inv G c) (s : Send) (a : Ask)
    (ha : AskOk ok G a) (req : Nat) :
    Spec ok G (req :: owned c) (enrollReq c s a (some req)) (fun r => req :: owned r.2)
      (fun r => Inv G r.2) := by
  unfold enrollReq
  al
  · next b64 =>
    al
    · next p10 =>
      us
      cases a with
      | enroll r =>
        dsimp only
        al
        · next recv =>
          refine spec_call (sendEnroll_spec s (.enroll r) recv none (receive_enroll_spec r recv))
            (at0 _ _) ?_
          intro e _
          dsimp only [Option.toList, List.cons_append, List.nil_append]
          refine spec_call (storeCert_spec c hc e) (D := [recv, p10, b64, req]) (by perm) ?_
          rintro ⟨e, c'⟩ hc'
          dsimp only
          refine spec_free (P' := [p10, b64, req] ++ owned c') (by perm) ?_
          dsimp only [List.cons_append, List.nil_append]
          fr
          fr
          exact spec_pure (.refl _) hc'
        · next hn => exact spec_lose [p10, b64] (hG.resolve_right hn) (by perm) hc
      | keygen r x y z =>
        obtain ⟨ha, hg, hx⟩ := ha
        dsimp only
        refine spec_alloc (fun cb => ?_) (fun hn => absurd ha hn)
        refine spec_alloc (fun kb => ?_) (fun hn => absurd ha hn)
        dsimp only
        refine spec_call (sendEnroll_spec s (.keygen r x y z) cb (some kb)
          (receive_keygen_spec ha hg r x y z cb kb)) (D := [p10, b64, req] ++ owned c)
          (by perm) ?_
        intro e _
        dsimp only [Option.toList, List.cons_append, List.nil_append]
        refine spec_call (storePair_spec ha hg c hc x hx y z e) (D := [cb, kb, p10, b64, req])
          (by perm) ?_
        rintro ⟨e, c'⟩ hc'
        dsimp only
        refine spec_free (P' := [kb, p10, b64, req] ++ owned c') (by perm) ?_
        dsimp only [List.cons_append, List.nil_append]
        fr
        fr
        fr
        exact spec_pure (.refl _) hc'
    · next hn => exact spec_lose [b64] (hG.resolve_right hn) (by perm) hc
  · exact spec_pure (.refl _) hc

theorem tlsUid_spec (hG : G ∨ AllOk ok) (b : Bool) :
    Spec ok G [] (tlsUid b) (fun a => a.toList) (fun _ => True) := by
  unfold tlsUid
  al
  · next b64 =>
    al
    · split
      · al <;> go
      · go
    · next hn => exact spec_lose [b64] (hG.resolve_right hn) (by perm) trivial
  · go

theorem attempt_spec (hG : G ∨ AllOk ok) (c : Ctx) (hc : Inv G c) (h : How) (s : Send) (a : Ask)
    (ha : AskOk ok G a) (req : Nat) :
    Spec ok G (req :: owned c) (attempt c h s a (some req)) (fun r => req :: owned r.2)
      (fun r => Inv G r.2) := by
  have he := enrollReq_spec hG c hc s a ha req
  unfold attempt
  cases h with
  | cn short csrOk =>
    dsimp only
    refine spec_call (tlsUid_spec hG short) (P := []) (D := req :: owned c) (.refl _) ?_
    intro uid _
    cases uid with
    | none => exact spec_pure (.refl _) hc
    | some uid =>
      dsimp only [Option.toList, List.cons_append, List.nil_append]
      al
      · next p =>
        split
        · fr
          fr
          exact spec_pure (.refl _) hc
        · fr
          refine spec_call (enrollReq_spec hG c hc s a ha p) (D := [req]) (by perm) ?_
          rintro ⟨e, c'⟩ hc'
          dsimp only [List.cons_append, List.nil_append]
          refine spec_free (P' := req :: owned c') (by perm) ?_
          exact spec_pure (.refl _) hc'
      · fr
        exact spec_pure (.refl _) hc
  | csr pop short attrOk signOk key =>
    dsimp only
    split
    · exact he
    · us
      split
      · refine spec_call (tlsUid_spec hG short) (P := []) (D := req :: owned c) (.refl _) ?_
        intro uid _
        cases uid with
        | none => exact spec_pure (.refl _) hc
        | some uid =>
          dsimp only [Option.toList, List.cons_append, List.nil_append]
          fr
          split
          · exact spec_pure (.refl _) hc
          · split
            · exact spec_pure (.refl _) hc
            · exact he
      · split
        · exact spec_pure (.refl _) hc
        · exact he

/-- The conditions on a connection and an attempt. -/
def TryOk (ok : Nat → Bool) (G : Prop) (t : Try) : Prop :=
  SesOk G t.conn.ses ∧ SesOk G t.ses ∧ AskOk ok G t.ask

theorem exchange_spec (hG : G ∨ AllOk ok) (c : Ctx) (hc : Inv G c) (x : Exchange)
    (h1 : TryOk ok G x.first) (h2 : TryOk ok G x.second) (req : Nat) :
    Spec ok G (req :: owned c) (exchange c x (some req)) (fun r => req :: owned r.2)
      (fun r => Inv G r.2) := by
  obtain ⟨a1, a2, a3⟩ := h1
  obtain ⟨b1, b2, b3⟩ := h2
  unfold exchange
  refine spec_call (connect_spec c hc x.first.conn a1) (D := [req]) (by perm) ?_
  rintro ⟨e, c1, ssl⟩ hc1
  dsimp only
  split
  · refine spec_call (attempt_spec hG c1 hc1 x.first.how x.first.send x.first.ask a3 req)
      (D := sslBlocks ssl) (by perm) ?_
    rintro ⟨e, c2⟩ hc2
    dsimp only
    refine spec_call (disconnect_spec c2 ssl x.first.ses a2) (D := [req]) (by perm) ?_
    intro c3 hs3
    have hc3 : Inv G c3 := inv_sess hc2 hs3
    split
    · refine spec_call (connect_spec c3 hc3 x.second.conn b1) (D := [req]) (by perm) ?_
      rintro ⟨e, c4, ssl⟩ hc4
      dsimp only
      split
      · refine spec_call (attempt_spec hG c4 hc4 x.second.how x.second.send x.second.ask b3 req)
          (D := sslBlocks ssl) (by perm) ?_
        rintro ⟨e, c5⟩ hc5
        dsimp only
        refine spec_call (disconnect_spec c5 ssl x.second.ses b2) (D := [req]) (by perm) ?_
        intro c6 hs6
        exact spec_pure (by perm) (inv_sess hc5 hs6)
      · refine spec_call (sslFree_spec' ssl) (D := req :: owned c4) (by perm) ?_
        intro _ _
        exact spec_pure (.refl _) hc4
    · exact spec_pure (by perm) hc3
  · refine spec_call (sslFree_spec' ssl) (D := req :: owned c1) (by perm) ?_
    intro _ _
    exact spec_pure (.refl _) hc1

theorem enroll_spec (hG : G ∨ AllOk ok) (c : Ctx) (hc : Inv G c) (x : Exchange)
    (h1 : TryOk ok G x.first) (h2 : TryOk ok G x.second) (req : Nat) :
    Spec ok G (req :: owned c) (enroll c x req) (fun r => req :: owned r.2)
      (fun r => Inv G r.2) := by
  unfold enroll
  split
  · exact spec_pure (.refl _) hc
  · exact exchange_spec hG c hc x h1 h2 req

theorem reenroll_spec (hG : G ∨ AllOk ok) (c : Ctx) (hc : Inv G c) (x : Exchange)
    (h1 : TryOk ok G x.first) (h2 : TryOk ok G x.second) (b : Bool) :
    Spec ok G (owned c) (reenroll c x b) (fun r => owned r.2) (fun r => Inv G r.2) := by
  unfold reenroll
  split
  · exact spec_pure (.refl _) hc
  · al
    · next req =>
      split
      · fr
        exact spec_pure (.refl _) hc
      · refine spec_call (exchange_spec hG c hc x h1 h2 req) (D := []) (by perm) ?_
        rintro ⟨e, c'⟩ hc'
        dsimp only [List.cons_append, List.nil_append]
        refine spec_free (P' := owned c') (by perm) ?_
        exact spec_pure (.refl _) hc'
    · exact spec_pure (.refl _) hc

theorem copyCert_spec (c : Ctx) (hc : Inv G c) :
    Spec ok G (owned c) (copyCert c) (fun r => owned r.2) (fun r => Inv G r.2) := by
  unfold copyCert
  split
  · exact spec_pure (.refl _) hc
  · split
    · exact spec_pure (.refl _) hc
    · next p hp =>
      refine spec_use (by simp [owned, hp]) ?_
      refine spec_free (P' := owned { c with cert := none }) (by permw hp) ?_
      exact spec_pure (.refl _) hc

theorem copyKey_spec (c : Ctx) (hc : Inv G c) :
    Spec ok G (owned c) (copyKey c) (fun r => owned r.2) (fun r => Inv G r.2) := by
  unfold copyKey
  split
  · exact spec_pure (.refl _) hc
  · split
    · exact spec_pure (.refl _) hc
    · next p hp =>
      refine spec_use (by simp [owned, hp]) ?_
      refine spec_free (P' := owned { c with key := none }) (by permw hp) ?_
      exact spec_pure (.refl _) ⟨hc.1, .inr rfl⟩

theorem provision_spec (hG : G ∨ AllOk ok) (c : Ctx) (hc : Inv G c) (p : Provision)
    (hv : p.caVerify.content = true) (h1 : SesOk G p.caConn.ses) (h2 : SesOk G p.caSes) (h3 : SesOk G p.attrConn.ses)
    (h4 : SesOk G p.attrSes) (h5 : TryOk ok G p.enrol.first) (h6 : TryOk ok G p.enrol.second)
    (app : Nat) :
    Spec ok G (app :: owned c) (provision c app p) (fun r => app :: owned r.2)
      (fun r => Inv G r.2) := by
  unfold provision
  split
  · exact spec_pure (.refl _) hc
  · refine spec_call (getCacerts_spec hG c hc p.caConn p.caSend p.caVerify hv p.caSes h1 h2)
      (D := [app]) (by perm) ?_
    rintro ⟨e, c1⟩ hc1
    dsimp only
    split
    · al
      · next ta =>
        us
        refine spec_call (copyCacerts_spec c1 hc1) (D := [ta, app]) (by perm) ?_
        rintro ⟨e, c2⟩ hc2
        dsimp only
        split
        · refine spec_call (allocIf_spec _) (P := []) (D := owned c2 ++ [ta, app]) (.refl _) ?_
          intro pem _
          refine spec_free (P' := pem.toList ++ (app :: owned c2)) (by perm) ?_
          cases pem with
          | none => exact spec_pure (by perm) hc2
          | some pem =>
            dsimp only
            refine spec_free_opt (P' := pem :: app :: owned { c2 with store := none })
              (by perm) ?_
            al
            · next st =>
              us
              refine spec_free (P' := app :: owned { c2 with store := some st }) (by perm) ?_
              split
              · exact spec_pure (by perm) hc2
              · refine spec_call (getCsrattrs_spec { c2 with store := some st, ready := true } hc2
                  p.attrConn p.attrSend p.attrOk p.attrSes h3 h4) (D := [app]) (by perm) ?_
                rintro ⟨e, c3⟩ hc3
                dsimp only
                split
                · exact spec_perm (by perm) (enroll_spec hG c3 hc3 p.enrol h5 h6 app)
                · exact spec_pure (by perm) hc3
            · fr
              exact spec_pure (by perm) hc2
        · refine spec_free (P' := app :: owned c2) (by perm) ?_
          exact spec_pure (.refl _) hc2
      · exact spec_pure (by perm) hc1
    · exact spec_pure (by perm) hc1

/-- The conditions on a call. -/
def OpOk (ok : Nat → Bool) (G : Prop) : Op → Prop
  | .getCacerts w _ v ses => v.content = true ∧ SesOk G w.ses ∧ SesOk G ses
  | .getCsrattrs w _ _ ses => SesOk G w.ses ∧ SesOk G ses
  | .enroll x => TryOk ok G x.first ∧ TryOk ok G x.second
  | .reenroll x _ => TryOk ok G x.first ∧ TryOk ok G x.second
  | .provision p => p.caVerify.content = true ∧ SesOk G p.caConn.ses ∧ SesOk G p.caSes ∧
      SesOk G p.attrConn.ses ∧ SesOk G p.attrSes ∧ TryOk ok G p.enrol.first ∧ TryOk ok G p.enrol.second
  | _ => True

theorem call_spec (hG : G ∨ AllOk ok) (c : Ctx) (hc : Inv G c) (app : Nat) (op : Op)
    (ho : OpOk ok G op) :
    Spec ok G (app :: owned c) (call c app op) (fun r => app :: owned r.2)
      (fun r => Inv G r.2) := by
  have hfr : ∀ {m : Mem (EstErr × Ctx)}, Spec ok G (owned c) m (fun r => owned r.2)
      (fun r => Inv G r.2) → Spec ok G (app :: owned c) m (fun r => app :: owned r.2)
      (fun r => Inv G r.2) := by
    intro m hm
    refine spec_post (spec_frame (D := [app]) hm (by perm)) ?_
    intro a ha
    exact ⟨by perm, ha⟩
  cases op with
  | setSegment => exact hfr (setSegment_spec c hc)
  | getCacerts w s v ses => exact hfr (getCacerts_spec hG c hc w s v ho.1 ses ho.2.1 ho.2.2)
  | copyCacerts => exact hfr (copyCacerts_spec c hc)
  | getCsrattrs w s a ses => exact hfr (getCsrattrs_spec c hc w s a ses ho.1 ho.2)
  | enroll x => exact enroll_spec hG c hc x ho.1 ho.2 app
  | reenroll x b => exact hfr (reenroll_spec hG c hc x ho.1 ho.2 b)
  | copyCert => exact hfr (copyCert_spec c hc)
  | copyKey => exact hfr (copyKey_spec c hc)
  | provision p =>
    obtain ⟨hv, h1, h2, h3, h4, h5, h6⟩ := ho
    exact provision_spec hG c hc p hv h1 h2 h3 h4 h5 h6 app

theorem calls_spec (hG : G ∨ AllOk ok) (app : Nat) (ops : List Op) (ho : ∀ op ∈ ops, OpOk ok G op) :
    ∀ c, Inv G c → Spec ok G (app :: owned c) (calls c app ops) (fun c' => app :: owned c')
      (fun c' => Inv G c') := by
  induction ops with
  | nil => exact fun c hc => spec_pure (.refl _) hc
  | cons op ops ih =>
    intro c hc
    unfold calls
    refine spec_call (call_spec hG c hc app op (ho op (List.mem_cons_self ..))) (D := [])
      (by perm) ?_
    rintro ⟨e, c'⟩ hc'
    dsimp only
    exact spec_perm (by perm)
      (ih (fun op h => ho op (List.mem_cons_of_mem _ h)) c' hc')

theorem destroy_spec (c : Ctx) (h : c.ssl.isSome = true ∨ c.sess = none ∧ c.sslStore = none)
    (hk : G ∨ c.key = none) :
    Spec ok G (owned c) (destroy c) (fun _ => []) (fun _ => True) := by
  unfold destroy
  refine spec_free_opt (P' := owned { c with store := none }) (by perm) ?_
  refine spec_free_opt (P' := owned { c with store := none, cacerts := none }) (by perm) ?_
  refine spec_free_opt (P' := owned { c with store := none, cacerts := none, csrattrs := none })
    (by perm) ?_
  refine spec_free_opt (P' := c.self :: (c.seg.toList ++ c.key.toList ++ c.ssl.toList ++
    c.sslStore.toList ++ c.sess.toList)) (by perm) ?_
  refine spec_free_opt (P' := c.self :: (c.key.toList ++ c.ssl.toList ++ c.sslStore.toList ++
    c.sess.toList)) (by perm) ?_
  have ht : Spec ok G (c.ssl.toList ++ c.sslStore.toList ++ c.sess.toList) (destroyTls c)
      (fun _ => []) (fun _ => True) := by
    unfold destroyTls
    rcases h with h | h
    · obtain ⟨s, hs⟩ := Option.isSome_iff_exists.1 h
      rw [hs]
      dsimp only
      refine spec_free_opt (P' := s :: c.sslStore.toList) (by perm) ?_
      fr
      cases c.sslStore with
      | none => exact spec_pure (.refl _) trivial
      | some t => exact spec_last
    · rw [h.1, h.2]
      cases c.ssl with
      | none => exact spec_pure (.refl _) trivial
      | some s =>
        dsimp only
        fr
        exact spec_pure (a := ()) (.refl _) trivial
  refine spec_call ht (D := c.self :: c.key.toList) (by perm) ?_
  intro _ _
  dsimp only [List.nil_append]
  rcases hk with hg | hk
  · exact spec_drop hg (P := [c.self]) spec_last (L := c.key.toList) (.refl _)
  · rw [hk]
    exact spec_last

theorem init_spec (hG : G ∨ AllOk ok) (i : InitIn) (hi : i.ciphersOk = true ∨ G) :
    Spec ok G [] (init i) (fun r => r.elim [] owned) (fun r => ∀ c, r = some c → Inv G c) := by
  unfold init
  al
  · next self =>
    al
    · next st =>
      split
      · refine spec_call (destroy_spec _ (.inr ⟨rfl, rfl⟩) (.inr rfl)) (D := []) (by perm) ?_
        intro _ _
        exact spec_pure (.refl _) (fun c hc => by cases hc)
      · al
        · next s =>
          split
          · next hcs =>
            have hg : G := by
              rcases hi with hi | hg
              · simp [hi] at hcs
              · exact hg
            refine spec_call (destroy_spec _ (.inr ⟨rfl, rfl⟩) (.inr rfl)) (D := [s]) (by perm) ?_
            intro _ _
            exact spec_lose [s] hg (.refl _) (fun c hc => by cases hc)
          · al
            · fr
              refine spec_pure (by simp only [Option.elim]; perm) ?_
              intro c hc
              cases hc
              exact ⟨rfl, .inr rfl⟩
            · next hn =>
              refine spec_call (destroy_spec _ (.inr ⟨rfl, rfl⟩) (.inr rfl)) (D := [s, st])
                (by perm) ?_
              intro _ _
              exact spec_lose [s, st] (hG.resolve_right hn) (.refl _) (fun c hc => by cases hc)
        · refine spec_call (destroy_spec _ (.inr ⟨rfl, rfl⟩) (.inr rfl)) (D := []) (by perm) ?_
          intro _ _
          exact spec_pure (.refl _) (fun c hc => by cases hc)
    · refine spec_call (destroy_spec _ (.inr ⟨rfl, rfl⟩) (.inr rfl)) (D := []) (by perm) ?_
      intro _ _
      exact spec_pure (.refl _) (fun c hc => by cases hc)
  · exact spec_pure (.refl _) (fun c hc => by cases hc)

theorem life_spec (hG : G ∨ AllOk ok) (i : InitIn) (hi : i.ciphersOk = true ∨ G) (app : Nat)
    (ops : List Op) (ho : ∀ op ∈ ops, OpOk ok G op) :
    Spec ok G [app] (life i app ops) (fun _ => [app]) (fun _ => True) := by
  unfold life
  refine spec_call (init_spec hG i hi) (P := []) (D := [app]) (.refl _) ?_
  intro r hr
  cases r with
  | none => exact spec_pure (.refl _) trivial
  | some c =>
    dsimp only [Option.elim]
    refine spec_call (calls_spec hG app ops ho c (hr c rfl)) (D := []) (by perm) ?_
    intro c' hc'
    exact spec_post (spec_frame (destroy_spec c' (.inl hc'.1) hc'.2) (D := [app]) (by perm))
      (fun _ _ => ⟨by perm, trivial⟩)

end Verif.ClientMem
