import Verif.ProxyMemModel
import Verif.ServerMemLemmas
import Mathlib.Data.List.Perm.Subperm

/-!
# Ownership in the proxy: proofs

The rules are those of `ClientMemLemmas`.
-/
namespace Verif.ProxyMem
open Verif.ClientMem
open Verif.ServerMem (B64 Peer peerRef State enrollAuth theCsr checkCsr Pop popCheck parseAttrs
  addChallenge sendAttrs sendFresh Uri parseUri event TryOk Settled enrollAuth_spec theCsr_spec
  checkCsr_spec popCheck_spec parseAttrs_spec addChallenge_spec sendFresh_spec parseUri_spec
  event_spec peerRef_spec last_opt)

variable {ok : Nat → Bool} {G : Prop} {α β : Type}

/-! ## Facts about results -/

/-- Whatever `m` returns satisfies `R`. -/
def Post (ok : Nat → Bool) (m : Mem α) (R : α → Prop) : Prop :=
  ∀ h a h', m ok h = some (a, h') → R a

theorem post_pure {a : α} {R : α → Prop} (hr : R a) : Post ok (pure a) R := by
  intro h b h' e
  cases e
  exact hr

theorem post_bind {m : Mem α} {f : α → Mem β} {S : α → Prop} {R : β → Prop} (hm : Post ok m S)
    (hf : ∀ a, S a → Post ok (f a) R) : Post ok (m >>= f) R := by
  intro h b h' e
  change (match m ok h with | none => none | some (a, h') => f a ok h') = _ at e
  cases hx : m ok h with
  | none => rw [hx] at e; cases e
  | some x =>
    obtain ⟨a, h1⟩ := x
    rw [hx] at e
    exact hf a (hm h a h1 hx) h1 b h' e

theorem post_any {m : Mem α} : Post ok m (fun _ => True) := fun _ _ _ _ => trivial

theorem post_skip {m : Mem α} {f : α → Mem β} {R : β → Prop}
    (hf : ∀ a, Post ok (f a) R) : Post ok (m >>= f) R := post_bind post_any (fun a _ => hf a)

theorem post_mono {m : Mem α} {R R' : α → Prop} (hm : Post ok m R) (h : ∀ a, R a → R' a) :
    Post ok m R' := fun hp a h' e => h a (hm hp a h' e)

theorem spec_and {P : List Nat} {m : Mem α} {Q : α → List Nat} {R R' : α → Prop}
    (hm : Spec ok G P m Q R) (hp : Post ok m R') : Spec ok G P m Q (fun a => R a ∧ R' a) := by
  intro h F hh
  obtain ⟨a, h', L, e, hr, hq, hl⟩ := hm h F hh
  exact ⟨a, h', L, e, ⟨hr, hp h a h' e⟩, hq, hl⟩

theorem spec_use_some {P : List Nat} {o : Option Nat} {p : Nat} {f : Unit → Mem β}
    {Q : β → List Nat} {R : β → Prop} (ho : o = some p) (hp : p ∈ P) (hs : Spec ok G P (f ()) Q R) :
    Spec ok G P (use o >>= f) Q R := by
  subst ho
  exact spec_use hp hs

/-! ## The attributes of a client context are only changed by one function -/

theorem setSegment_attrs (c : Ctx) :
    Post ok (setSegment c) (fun a => a.2.csrattrs = c.csrattrs) := by
  unfold setSegment
  refine post_skip fun _ => post_skip fun r => ?_
  split
  · exact post_pure rfl
  · exact post_skip fun _ => post_pure rfl

theorem keepSession_attrs (c : Ctx) (s : Ses) :
    Post ok (keepSession c s) (fun a => a.csrattrs = c.csrattrs) := by
  unfold keepSession
  split
  · exact post_pure rfl
  · exact post_pure rfl
  · exact post_pure rfl
  · exact post_skip fun _ => post_pure rfl

theorem disconnect_attrs (c : Ctx) (ssl : Option Ssl) (s : Ses) :
    Post ok (disconnect c ssl s) (fun a => a.csrattrs = c.csrattrs) := by
  unfold disconnect
  split
  · exact post_pure rfl
  · refine post_skip fun _ => post_bind (keepSession_attrs c s) fun c' h => post_skip fun _ => ?_
    exact post_pure h

theorem connect_attrs (c : Ctx) (w : Conn) :
    Post ok (connect c w) (fun a => a.2.1.csrattrs = c.csrattrs) := by
  unfold connect
  split
  · exact post_pure rfl
  · refine post_skip fun r => ?_
    split
    · exact post_pure rfl
    · refine post_skip fun _ => post_skip fun r => ?_
      split
      · exact post_skip fun _ => post_pure rfl
      · refine post_skip fun _ => ?_
        split
        · exact post_pure rfl
        · split
          · refine post_bind (disconnect_attrs c _ _) fun c' h => ?_
            exact post_pure h
          · exact post_pure rfl

theorem storeCacerts_attrs (c : Ctx) (v : Verify) (n : Nat) (b : Option Nat) :
    Post ok (storeCacerts c v n b) (fun a => a.2.csrattrs = c.csrattrs) := by
  unfold storeCacerts
  repeat' first
    | exact post_pure rfl
    | refine post_skip fun _ => ?_
    | split

theorem keepCacerts_attrs (c : Ctx) (v : Verify) (n : Nat) (e : EstErr) (b : Option Nat) :
    Post ok (keepCacerts c v n e b) (fun a => a.2.csrattrs = c.csrattrs) := by
  unfold keepCacerts
  split
  · exact storeCacerts_attrs c v n b
  · exact post_pure rfl

theorem sendCacerts_attrs (c : Ctx) (s : Send) (v : Verify) :
    Post ok (sendCacerts c s v) (fun a => a.2.csrattrs = c.csrattrs) := by
  unfold sendCacerts
  refine post_skip fun r => ?_
  split
  · exact post_pure rfl
  · refine post_skip fun b => ?_
    split
    · exact post_skip fun _ => post_pure rfl
    · split
      · exact post_skip fun _ => post_pure rfl
      · refine post_skip fun r => ?_
        refine post_bind (keepCacerts_attrs c v _ _ _) fun a h => ?_
        exact post_skip fun _ => post_skip fun _ => post_pure h

theorem getCacerts_attrs (c : Ctx) (w : Conn) (s : Send) (v : Verify) (ses : Ses) :
    Post ok (getCacerts c w s v ses) (fun a => a.2.csrattrs = c.csrattrs) := by
  unfold getCacerts
  split
  · exact post_pure rfl
  · refine post_bind (connect_attrs c w) fun a h => ?_
    obtain ⟨e, c1, ssl⟩ := a
    dsimp only at h ⊢
    split
    · refine post_bind (sendCacerts_attrs c1 s v) fun b h2 => ?_
      refine post_bind (disconnect_attrs b.2 ssl ses) fun c3 h3 => ?_
      exact post_pure (h3.trans (h2.trans h))
    · exact post_skip fun _ => post_pure h

theorem copyCacerts_attrs (c : Ctx) :
    Post ok (copyCacerts c) (fun a => a.2.csrattrs = c.csrattrs) := by
  unfold copyCacerts
  split
  · exact post_pure rfl
  · split
    · exact post_pure rfl
    · exact post_skip fun _ => post_pure rfl

theorem getCsrattrs_attrs (c : Ctx) (hc : c.csrattrs = none) (w : Conn) (s : Send) (b : Bool)
    (ses : Ses) :
    Post ok (getCsrattrs c w s b ses) (fun a => a.1 ≠ .none → a.2.csrattrs = none) := by
  unfold getCsrattrs
  refine post_bind (connect_attrs c w) fun a h => ?_
  obtain ⟨e, c1, ssl⟩ := a
  dsimp only at h ⊢
  split
  · refine post_skip fun _ => post_skip fun r => ?_
    obtain ⟨e, data⟩ := r
    dsimp only
    refine post_bind (disconnect_attrs _ ssl ses) fun c2 h2 => ?_
    dsimp only at h2
    split
    · split
      · exact post_pure (fun _ => h2)
      · refine post_skip fun r => ?_
        split
        · exact post_skip fun _ => post_pure (fun _ => h2)
        · refine post_skip fun _ => post_skip fun _ => post_skip fun _ => ?_
          split
          · exact post_pure (fun h => absurd rfl h)
          · exact post_skip fun _ => post_pure (fun _ => h2)
    · exact post_skip fun _ => post_pure (fun _ => h2)
  · exact post_skip fun _ => post_pure (fun _ => h.trans hc)

theorem init_attrs (i : InitIn) :
    Post ok (init i) (fun r => ∀ c, r = some c → c.csrattrs = none) := by
  unfold init
  repeat' first
    | exact post_pure (fun c hc => by cases hc <;> rfl)
    | refine post_skip fun _ => ?_
    | split

/-! ## The table -/

/-- The invariant of a client context of the proxy. -/
def CInv (G : Prop) (c : Ctx) : Prop := Inv G c ∧ (G ∨ c.csrattrs = none)

/-- The blocks that the entries own. -/
def tableBlocks (l : List (Nat × Ctx)) : List Nat := l.flatMap (fun x => owned x.2)

/-- The blocks that a proxy owns. -/
def pxBlocks (p : Px) : List Nat := p.array.toList ++ (p.seg.toList ++ tableBlocks p.clients)

/-- The invariant of a proxy. -/
def PInv (G : Prop) (p : Px) : Prop := p.array.isSome = true ∧ ∀ x ∈ p.clients, CInv G x.2

theorem pick_spec (tid : Nat) (l : List (Nat × Ctx)) :
    ∀ c r, pick tid l = some (c, r) → (tableBlocks l).Perm (owned c ++ tableBlocks r) ∧
      (∀ x ∈ r, x ∈ l) ∧ (∃ x ∈ l, x.2 = c) ∧ (l.map (·.1)).Perm (tid :: r.map (·.1)) := by
  induction l with
  | nil => intro c r h; cases h
  | cons x l ih =>
    intro c r h
    obtain ⟨t, d⟩ := x
    unfold pick at h
    split at h
    · next ht =>
      cases h
      subst ht
      exact ⟨.refl _, fun x hx => List.mem_cons_of_mem _ hx, ⟨_, List.mem_cons_self .., rfl⟩, .refl _⟩
    · split at h
      · cases h
      · next e r' hp =>
        cases h
        obtain ⟨h1, h2, h3, h4⟩ := ih _ _ hp
        refine ⟨?_, ?_, ?_, ?_⟩
        · show (owned d ++ tableBlocks l).Perm (owned c ++ (owned d ++ tableBlocks r'))
          refine (h1.append_left _).trans ?_
          rw [← List.append_assoc, ← List.append_assoc]
          exact List.Perm.append_right _ List.perm_append_comm
        · intro x hx
          rcases List.mem_cons.1 hx with hx | hx
          · exact hx ▸ List.mem_cons_self ..
          · exact List.mem_cons_of_mem _ (h2 x hx)
        · obtain ⟨x, hx, he⟩ := h3
          exact ⟨x, List.mem_cons_of_mem _ hx, he⟩
        · exact (h4.cons t).trans (.swap ..)

theorem pick_none (tid : Nat) (l : List (Nat × Ctx)) (h : pick tid l = none) :
    tid ∉ l.map (·.1) := by
  induction l with
  | nil => simp
  | cons x l ih =>
    obtain ⟨t, d⟩ := x
    unfold pick at h
    split at h
    · cases h
    · next ht =>
      split at h
      · next hp =>
        intro hm
        rcases List.mem_cons.1 hm with hm | hm
        · exact ht hm.symm
        · exact ih hp hm
      · cases h

theorem put_blocks (p : Px) (tid : Nat) (c : Ctx) :
    (pxBlocks (put p tid c)).Perm (owned c ++ pxBlocks p) := by
  show (p.array.toList ++ (p.seg.toList ++ (owned c ++ tableBlocks p.clients))).Perm
    (owned c ++ (p.array.toList ++ (p.seg.toList ++ tableBlocks p.clients)))
  rw [List.perm_iff_count]
  intro x
  simp only [List.count_append]
  omega

theorem put_inv {p : Px} (hp : PInv G p) {tid : Nat} {c : Ctx} (hc : CInv G c) :
    PInv G (put p tid c) := by
  refine ⟨hp.1, ?_⟩
  intro x hx
  rcases List.mem_cons.1 hx with hx | hx
  · rw [hx]; exact hc
  · exact hp.2 x hx

/-- There is memory for a longer table, or it is not needed. -/
def Room (ok : Nat → Bool) (p : Px) (tid : Nat) : Prop :=
  AllOk ok ∨ pick tid p.clients ≠ none ∨ p.clients.length < p.cap

theorem newClient_spec (hG : G ∨ AllOk ok) (n : NewCtx) (hn : n.made.ciphersOk = true ∨ G) :
    Spec ok G [] (newClient n) (fun r => r.elim [] owned) (fun r => ∀ c, r = some c → CInv G c) := by
  unfold newClient
  refine spec_call (spec_and (init_spec hG n.made hn) (init_attrs n.made)) (P := []) (D := [])
    (.refl _) ?_
  rintro r ⟨h1, h2⟩
  cases r with
  | none => exact spec_pure (.refl _) (fun c hc => by cases hc)
  | some c =>
    have hc : CInv G c := ⟨h1 c rfl, .inr (h2 c rfl)⟩
    dsimp only [Option.elim]
    split
    · exact spec_pure (by simp) (fun d hd => by cases hd; exact hc)
    · refine spec_call (destroy_spec c (.inl hc.1.1) hc.1.2) (D := []) (.refl _) ?_
      intro _ _
      exact spec_pure (.refl _) (fun c hc => by cases hc)

theorem room_spec (p : Px) (hp : PInv G p) (hr : AllOk ok ∨ p.clients.length < p.cap) :
    Spec ok G (pxBlocks p) (room p) pxBlocks (fun p' => PInv G p' ∧ p'.clients = p.clients) := by
  unfold room
  split
  · exact spec_pure (.refl _) ⟨hp, rfl⟩
  · next hl =>
    have hok : AllOk ok := hr.resolve_right hl
    obtain ⟨a, ha⟩ := Option.isSome_iff_exists.1 hp.1
    al
    · next t =>
      rw [ha]
      refine spec_copy (by intro q hq; cases hq; simp)
        (by intro q hq; cases hq; simp [pxBlocks, ha]) ?_
      refine spec_free (P' := t :: (p.seg.toList ++ tableBlocks p.clients)) ?_ ?_
      · simp only [pxBlocks, ha, Option.toList, List.cons_append, List.nil_append]
        exact .swap ..
      us
      exact spec_pure (.refl _) ⟨⟨rfl, hp.2⟩, rfl⟩
    · next hn => exact absurd hok hn

theorem getClient_spec (hG : G ∨ AllOk ok) (p : Px) (hp : PInv G p) (tid : Nat) (n : NewCtx)
    (hn : n.made.ciphersOk = true ∨ G) (hr : Room ok p tid) :
    Spec ok G (pxBlocks p) (getClient p tid n) (fun r => r.1.elim [] owned ++ pxBlocks r.2)
      (fun r => PInv G r.2 ∧ ∀ c, r.1 = some c → CInv G c) := by
  unfold getClient
  obtain ⟨a, ha⟩ := Option.isSome_iff_exists.1 hp.1
  refine spec_use_some ha (by simp [pxBlocks, ha]) ?_
  split
  · next c r hpick =>
    obtain ⟨h1, h2, ⟨x, hx, hxc⟩, _⟩ := pick_spec tid p.clients c r hpick
    refine spec_pure ?_ ⟨⟨hp.1, fun y hy => hp.2 y (h2 y hy)⟩, fun d hd => ?_⟩
    · show (p.array.toList ++ (p.seg.toList ++ tableBlocks p.clients)).Perm
        (owned c ++ (p.array.toList ++ (p.seg.toList ++ tableBlocks r)))
      refine ((h1.append_left _).append_left _).trans ?_
      rw [List.perm_iff_count]
      intro x
      simp only [List.count_append]
      omega
    · cases hd
      exact hxc ▸ hp.2 x hx
  · next hpick =>
    refine spec_call (newClient_spec hG n hn) (P := []) (D := pxBlocks p) (.refl _) ?_
    intro r hr1
    cases r with
    | none => exact spec_pure (.refl _) ⟨hp, fun c hc => by cases hc⟩
    | some c =>
      dsimp only
      have hr2 : AllOk ok ∨ p.clients.length < p.cap :=
        hr.imp id (fun h => h.resolve_left (fun x => x hpick))
      refine spec_call (room_spec p hp hr2) (D := owned c) List.perm_append_comm ?_
      rintro p' ⟨hp', _⟩
      exact spec_pure List.perm_append_comm ⟨hp', fun d hd => by cases hd; exact hr1 c rfl⟩

theorem storeSeg_spec (p : Px) (seg : Option Nat) (c : Ctx) (hc : CInv G c) :
    Spec ok G (seg.toList ++ (owned c ++ pxBlocks p)) (storeSeg p seg c)
      (fun a => seg.toList ++ (owned a.2 ++ pxBlocks p)) (fun a => CInv G a.2) := by
  unfold storeSeg
  split
  · exact spec_pure (.refl _) hc
  · next s hs =>
    refine spec_use ?_ ?_
    · cases seg with
      | none =>
        have hs : p.seg = some s := hs
        simp [pxBlocks, hs]
      | some t =>
        cases hs
        simp
    · refine spec_post (spec_frame (spec_and (setSegment_spec c hc.1) (setSegment_attrs c))
        (D := seg.toList ++ pxBlocks p) (by perm)) ?_
      rintro a ⟨h1, h2⟩
      exact ⟨by perm, h1, h2 ▸ hc.2⟩

theorem destroyAll_spec (l : List (Nat × Ctx)) (hl : ∀ x ∈ l, CInv G x.2) :
    Spec ok G (tableBlocks l) (destroyAll l) (fun _ => []) (fun _ => True) := by
  induction l with
  | nil => exact spec_pure (.refl _) trivial
  | cons x l ih =>
    obtain ⟨t, c⟩ := x
    unfold destroyAll
    have hc := hl _ (List.mem_cons_self ..)
    refine spec_call (destroy_spec c (.inl hc.1.1) hc.1.2) (D := tableBlocks l) (.refl _) ?_
    intro _ _
    exact ih (fun x hx => hl x (List.mem_cons_of_mem _ hx))

theorem cleanup_spec (p : Px) (hp : PInv G p) :
    Spec ok G (pxBlocks p) (cleanup p) (fun _ => []) (fun _ => True) := by
  unfold cleanup
  obtain ⟨a, ha⟩ := Option.isSome_iff_exists.1 hp.1
  split
  · next h => rw [ha] at h; cases h
  · next b hb =>
    refine spec_call (destroyAll_spec p.clients hp.2) (D := b :: p.seg.toList) ?_ ?_
    · simp only [pxBlocks, hb]; perm
    intro _ _
    refine spec_free (P' := p.seg.toList) (.refl _) ?_
    exact last_opt p.seg (by simp)

/-! ## Enrolment -/

/-- Nothing is lost on the way to the upstream server. -/
def UpOk (G : Prop) (u : Up) : Prop :=
  SesOk G u.conn.ses ∧ SesOk G u.ses ∧ (G ∨ u.conn.shake = true)

theorem connect_error (c : Ctx) (w : Conn) (hw : w.shake = true) :
    Post ok (connect c w) (fun a => a.1 ≠ .none → a.2.2 = none) := by
  unfold connect
  split
  · exact post_pure (fun _ => rfl)
  · refine post_skip fun r => ?_
    split
    · exact post_pure (fun _ => rfl)
    · refine post_skip fun _ => post_skip fun r => ?_
      split
      · exact post_skip fun _ => post_pure (fun _ => rfl)
      · refine post_skip fun _ => ?_
        split
        · next h => simp [hw] at h
        · split
          · exact post_skip fun _ => post_pure (fun _ => rfl)
          · exact post_pure (fun h => absurd rfl h)

theorem cinv_sess {c c' : Ctx} (hc : CInv G c) (h : c' = { c with sess := c'.sess }) :
    CInv G c' := by
  rw [h]
  exact hc

theorem forward_spec (c : Ctx) (hc : CInv G c) (u : Up) (hu : UpOk G u) (a : Ask) (p : Nat)
    (k : Option Nat) (hr : Spec ok G (p :: k.toList) (receive a (some p) k)
      (fun _ => p :: k.toList) (fun _ => True)) :
    Spec ok G (p :: k.toList ++ owned c) (forward c u a (some p) k)
      (fun r => p :: k.toList ++ owned r.2) (fun r => CInv G r.2) := by
  unfold forward
  have h1 : Spec ok G (owned c) (connect c u.conn) (fun a => sslBlocks a.2.2 ++ owned a.2.1)
      (fun a => Inv G a.2.1 ∧ a.2.1.csrattrs = c.csrattrs ∧
        (G ∨ (a.1 ≠ .none → a.2.2 = none))) := by
    refine spec_and (connect_spec c hc.1 u.conn hu.1) ?_
    rcases hu.2.2 with hg | hs
    · exact post_mono (connect_attrs c u.conn) (fun a h => ⟨h, .inl hg⟩)
    · intro h a h' e
      exact ⟨connect_attrs c u.conn h a h' e, .inr (connect_error c u.conn hs h a h' e)⟩
  refine spec_call h1 (D := p :: k.toList) List.perm_append_comm ?_
  rintro ⟨e, c1, ssl⟩ ⟨hi, ha, hl⟩
  dsimp only at hi ha hl ⊢
  have hc1 : CInv G c1 := ⟨hi, ha ▸ hc.2⟩
  split
  · refine spec_call (sendEnroll_spec u.send a p k hr) (D := sslBlocks ssl ++ owned c1)
      List.perm_append_comm ?_
    intro e _
    refine spec_call (disconnect_spec c1 ssl u.ses hu.2.1) (D := p :: k.toList)
      List.perm_append_comm ?_
    intro c2 h2
    exact spec_pure List.perm_append_comm (cinv_sess hc1 h2)
  · next hne =>
    rcases hl with hg | hl
    · exact spec_lose (sslBlocks ssl) hg (by perm) hc1
    · rw [hl hne]
      exact spec_pure (by simp only [sslBlocks, Option.elim]; perm) hc1

theorem attempts_spec (p : Nat) (k : Option Nat) (us : List (Up × Ask))
    (hus : ∀ x ∈ us, UpOk G x.1 ∧ Spec ok G (p :: k.toList) (receive x.2 (some p) k)
      (fun _ => p :: k.toList) (fun _ => True)) :
    ∀ c, CInv G c → Spec ok G (p :: k.toList ++ owned c) (attempts c (some p) k us)
      (fun r => p :: k.toList ++ owned r.2) (fun r => CInv G r.2) := by
  induction us with
  | nil => exact fun c hc => spec_pure (.refl _) hc
  | cons x us ih =>
    intro c hc
    obtain ⟨u, a⟩ := x
    unfold attempts
    obtain ⟨h1, h2⟩ := hus _ (List.mem_cons_self ..)
    refine spec_call (forward_spec c hc u h1 a p k h2) (D := []) (by simp) ?_
    rintro ⟨e, c1⟩ hc1
    dsimp only at hc1 ⊢
    rw [List.append_nil]
    split
    · exact ih (fun x hx => hus x (List.mem_cons_of_mem _ hx)) c1 hc1
    · exact spec_pure (.refl _) hc1

theorem checkIn_spec (hok : AllOk ok) (x : Admit) (kept : Option Nat) :
    Spec ok G kept.toList (checkIn x kept) (fun _ => []) (fun _ => True) := by
  unfold checkIn
  refine spec_call (theCsr_spec kept x.parses) (D := []) (by simp) ?_
  intro r _
  cases r with
  | none => exact spec_pure (.refl _) trivial
  | some r =>
    dsimp only [Option.toList, List.append_nil]
    us
    refine spec_call (checkCsr_spec x.pubkey x.sigOk) (P := []) (D := [r]) (.refl _) ?_
    intro good _
    dsimp only [List.nil_append]
    split
    · go
    · refine spec_call (popCheck_spec (.inr hok) x.pop) (P := []) (D := [r]) (.refl _) ?_
      intro good _
      dsimp only [List.nil_append]
      fr
      split
      · exact spec_pure (.refl _) trivial
      · exact spec_pure (.refl _) trivial

theorem admitEnroll_spec (hok : AllOk ok) (peer : Peer) (x : Admit)
    (hx : G ∨ (ServerMem.TryOk x.auth ∧ Settled x.auth)) :
    Spec ok G [] (admitEnroll peer x) (fun _ => []) (fun _ => True) := by
  unfold admitEnroll
  split
  · exact spec_pure (.refl _) trivial
  refine spec_call (enrollAuth_spec hok peer x.srp x.re x.auth (hx.imp id (·.1))) (P := [])
    (D := []) (.refl _) ?_
  rintro ⟨s, kept⟩ hs
  dsimp only at hs ⊢
  rw [List.append_nil]
  split
  · next h =>
    cases kept with
    | none => exact spec_pure (.refl _) trivial
    | some k =>
      rcases hx with hg | hx
      · exact spec_lose [k] hg (.refl _) trivial
      · exact absurd ((hs (by simp)).2 hx.2) (by simpa using h)
  · exact checkIn_spec hok x kept

theorem admitKeygen_spec (hok : AllOk ok) (peer : Peer) (x : Admit)
    (hx : G ∨ ServerMem.TryOk x.auth) :
    Spec ok G [] (admitKeygen peer x) (fun _ => []) (fun _ => True) := by
  unfold admitKeygen
  split
  · exact spec_pure (.refl _) trivial
  refine spec_call (enrollAuth_spec hok peer x.srp true x.auth hx) (P := [])
    (D := []) (.refl _) ?_
  rintro ⟨s, kept⟩ hs
  dsimp only at hs ⊢
  rw [List.append_nil]
  split
  · refine spec_free_opt (P' := []) (by simp) ?_
    exact spec_pure (.refl _) trivial
  · exact checkIn_spec hok x kept

/-- Enrolments that lose nothing. -/
def EnrollOk (G : Prop) (x : EnrollIn) : Prop :=
  (G ∨ (ServerMem.TryOk x.adm.auth ∧ Settled x.adm.auth)) ∧ (x.new.made.ciphersOk = true ∨ G) ∧
    ∀ u ∈ x.ups, UpOk G u.1

theorem enrollUp_spec (hok : AllOk ok) (p : Px) (hp : PInv G p) (tid : Nat) (c : Ctx)
    (hc : CInv G c) (x : EnrollIn) (hx : ∀ u ∈ x.ups, UpOk G u.1) (bm : Nat) :
    Spec ok G (bm :: (owned c ++ pxBlocks p)) (enrollUp p tid c x bm)
      (fun r => r.2.2.toList ++ pxBlocks r.1) (fun r => PInv G r.1) := by
  unfold enrollUp
  al
  · next pkcs7 =>
    refine spec_call (attempts_spec pkcs7 none (x.ups.map (fun u => (u.1, Ask.enroll u.2))) ?_ c hc)
      (D := bm :: pxBlocks p) (by perm) ?_
    · intro y hy
      obtain ⟨u, hu, rfl⟩ := List.mem_map.1 hy
      exact ⟨hx u hu, receive_enroll_spec u.2 pkcs7⟩
    rintro ⟨e, c1⟩ hc1
    dsimp only at hc1 ⊢
    refine spec_free (P' := pkcs7 :: (owned c1 ++ pxBlocks p)) (by perm) ?_
    split
    · us
      exact spec_pure ((put_blocks p tid c1).symm.cons pkcs7) (put_inv hp hc1)
    · fr
      exact spec_pure (put_blocks p tid c1).symm (put_inv hp hc1)
  · next hn => exact absurd hok hn

theorem handleEnroll_spec (hok : AllOk ok) (p : Px) (hp : PInv G p) (tid : Nat) (peer : Peer)
    (seg : Option Nat) (x : EnrollIn) (hx : EnrollOk G x) :
    Spec ok G (seg.toList ++ pxBlocks p) (handleEnroll p tid peer seg x)
      (fun r => r.2.2.toList ++ (seg.toList ++ pxBlocks r.1)) (fun r => PInv G r.1) := by
  unfold handleEnroll
  refine spec_call (admitEnroll_spec hok peer x.adm hx.1) (P := [])
    (D := seg.toList ++ pxBlocks p) (.refl _) ?_
  intro e _
  cases e with
  | some e => exact spec_pure (.refl _) hp
  | none =>
    dsimp only [List.nil_append]
    al
    · next bm =>
      refine spec_call (getClient_spec (.inr hok) p hp tid x.new hx.2.1 (.inl hok))
        (D := bm :: seg.toList) (by perm) ?_
      rintro ⟨c, p1⟩ ⟨hp1, hc⟩
      dsimp only at hp1 hc ⊢
      cases c with
      | none =>
        refine spec_free (P' := seg.toList ++ pxBlocks p1) (by simp only [Option.elim]; perm) ?_
        exact spec_pure (.refl _) hp1
      | some c =>
        refine spec_call (storeSeg_spec p1 seg c (hc c rfl)) (D := [bm])
          (by simp only [Option.elim]; perm) ?_
        rintro ⟨e, c1⟩ hc1
        dsimp only at hc1 ⊢
        split
        · refine spec_post (spec_frame (enrollUp_spec hok p1 hp1 tid c1 hc1 x hx.2.2 bm)
            (D := seg.toList) (by perm)) ?_
          intro r hr
          exact ⟨by perm, hr⟩
        · refine spec_free (P' := seg.toList ++ (owned c1 ++ pxBlocks p1)) (by perm) ?_
          exact spec_pure (((put_blocks p1 tid c1).symm).append_left _) (put_inv hp1 hc1)
    · next hn => exact absurd hok hn

/-- Key generations that lose nothing (only those for which the upstream server
is not asked). -/
def KeygenOk (G : Prop) (x : KeygenIn) : Prop :=
  (G ∨ ServerMem.TryOk x.adm.auth) ∧ (x.new.made.ciphersOk = true ∨ G) ∧
    ((G ∧ ∀ u ∈ x.ups, UpOk G u.1) ∨ x.ups = [])

theorem keygenUp_spec (hok : AllOk ok) (p : Px) (hp : PInv G p) (tid : Nat) (c : Ctx)
    (hc : CInv G c) (x : KeygenIn) (hx : (G ∧ ∀ u ∈ x.ups, UpOk G u.1) ∨ x.ups = []) (bm : Nat) :
    Spec ok G (bm :: (owned c ++ pxBlocks p)) (keygenUp p tid c x bm)
      (fun r => r.2.2.1.toList ++ (r.2.2.2.toList ++ pxBlocks r.1))
      (fun r => PInv G r.1 ∧ (r.2.1 ≠ .none → G ∨ (r.2.2.1 = none ∧ r.2.2.2 = none))) := by
  unfold keygenUp
  refine spec_alloc (fun pkcs7 => ?_) (fun hn => absurd hok hn)
  refine spec_alloc (fun key => ?_) (fun hn => absurd hok hn)
  have hnone : Post ok (attempts c (some pkcs7) (some key)
      (x.ups.map (fun u => (u.1, Ask.keygen u.2 .good true true))))
      (fun r => r.1 = .none → x.ups ≠ []) := by
    cases hu : x.ups with
    | nil => exact post_pure (fun h => by cases h)
    | cons u us => exact post_mono post_any (fun _ _ _ h => by cases h)
  refine spec_call (spec_and (attempts_spec pkcs7 (some key)
    (x.ups.map (fun u => (u.1, Ask.keygen u.2 .good true true))) ?_ c hc) hnone)
    (D := bm :: pxBlocks p) (by perm) ?_
  · intro y hy
    obtain ⟨u, hu, rfl⟩ := List.mem_map.1 hy
    rcases hx with ⟨hg, hx⟩ | hx
    · exact ⟨hx u hu, receive_keygen_spec hok hg u.2 .good true true pkcs7 key⟩
    · rw [hx] at hu
      cases hu
  refine fun r => ?_
  obtain ⟨e, c1⟩ := r
  rintro ⟨hc1, he⟩
  dsimp only at hc1 he ⊢
  refine spec_free (P' := pkcs7 :: key :: (owned c1 ++ pxBlocks p)) (by perm) ?_
  split
  · next h =>
    us
    us
    refine spec_pure ((((put_blocks p tid c1).symm).cons key).cons pkcs7) ⟨put_inv hp hc1, ?_⟩
    exact fun _ => .inl (hx.resolve_right (he h)).1
  · fr
    fr
    exact spec_pure (put_blocks p tid c1).symm ⟨put_inv hp hc1, fun _ => .inr ⟨rfl, rfl⟩⟩

/-- What a key generation leaves to the dispatcher. -/
def KeygenLeft (G : Prop) (r : Px × EstErr × Option Nat × Option Nat) : Prop :=
  PInv G r.1 ∧ (r.2.1 ≠ .none → G ∨ (r.2.2.1 = none ∧ r.2.2.2 = none))

theorem handleKeygen_spec (hok : AllOk ok) (p : Px) (hp : PInv G p) (tid : Nat) (peer : Peer)
    (seg : Option Nat) (x : KeygenIn) (hx : KeygenOk G x) :
    Spec ok G (seg.toList ++ pxBlocks p) (handleKeygen p tid peer seg x)
      (fun r => r.2.2.1.toList ++ (r.2.2.2.toList ++ (seg.toList ++ pxBlocks r.1)))
      (KeygenLeft G) := by
  have hno : ∀ {p : Px} {e : EstErr}, PInv G p → KeygenLeft G (p, e, none, none) :=
    fun h => ⟨h, fun _ => .inr ⟨rfl, rfl⟩⟩
  unfold handleKeygen
  refine spec_call (admitKeygen_spec hok peer x.adm hx.1) (P := [])
    (D := seg.toList ++ pxBlocks p) (.refl _) ?_
  intro e _
  cases e with
  | some e => exact spec_pure (.refl _) (hno hp)
  | none =>
    dsimp only [List.nil_append]
    al
    · next bm =>
      refine spec_call (getClient_spec (.inr hok) p hp tid x.new hx.2.1 (.inl hok))
        (D := bm :: seg.toList) (by perm) ?_
      rintro ⟨c, p1⟩ ⟨hp1, hc⟩
      dsimp only at hp1 hc ⊢
      cases c with
      | none =>
        refine spec_free (P' := seg.toList ++ pxBlocks p1) (by simp only [Option.elim]; perm) ?_
        exact spec_pure (.refl _) (hno hp1)
      | some c =>
        refine spec_call (storeSeg_spec p1 seg c (hc c rfl)) (D := [bm])
          (by simp only [Option.elim]; perm) ?_
        rintro ⟨e, c1⟩ hc1
        dsimp only at hc1 ⊢
        split
        · refine spec_post (spec_frame (keygenUp_spec hok p1 hp1 tid c1 hc1 x hx.2.2 bm)
            (D := seg.toList) (by perm)) ?_
          intro r hr
          exact ⟨by perm, hr⟩
        · refine spec_free (P' := seg.toList ++ (owned c1 ++ pxBlocks p1)) (by perm) ?_
          exact spec_pure (((put_blocks p1 tid c1).symm).append_left _) (hno (put_inv hp1 hc1))
    · next hn => exact absurd hok hn

/-! ## CA certificates and attributes -/

/-- Requests for CA certificates that lose nothing. -/
def CertsOk (G : Prop) (x : CertsIn) : Prop :=
  (x.new.made.ciphersOk = true ∨ G) ∧ SesOk G x.up.conn.ses ∧ SesOk G x.up.ses ∧
    x.verify.content = true

theorem useIf_spec {P : List Nat} {o : Option Nat} {f : Unit → Mem β} {Q : β → List Nat}
    {R : β → Prop} (ho : ∀ p, o = some p → p ∈ P) (hs : Spec ok G P (f ()) Q R) :
    Spec ok G P (useIf o >>= f) Q R := by
  cases o with
  | none => exact hs
  | some p => exact spec_use (ho p rfl) hs

theorem certs_spec (hG : G ∨ AllOk ok) (c : Ctx) (hc : CInv G c) (x : CertsIn) (hx : CertsOk G x) :
    Spec ok G (owned c) (getCacerts c x.up.conn x.up.send x.verify x.up.ses)
      (fun a => owned a.2) (fun a => CInv G a.2) :=
  spec_post (spec_and (getCacerts_spec hG c hc.1 x.up.conn x.up.send x.verify hx.2.2.2 x.up.ses hx.2.1
    hx.2.2.1)
    (getCacerts_attrs c x.up.conn x.up.send x.verify x.up.ses)) (fun _ h => ⟨.refl _, h.1, h.2 ▸ hc.2⟩)

theorem handleCacerts_spec (hG : G ∨ AllOk ok) (p : Px) (hp : PInv G p) (tid : Nat)
    (seg : Option Nat) (x : Option CertsIn) (hx : ∀ y, x = some y → CertsOk G y ∧ Room ok p tid) :
    Spec ok G (seg.toList ++ pxBlocks p) (handleCacerts p tid seg x)
      (fun r => seg.toList ++ pxBlocks r) (PInv G) := by
  cases x with
  | none => exact spec_pure (.refl _) hp
  | some x =>
    obtain ⟨hx, hr⟩ := hx x rfl
    unfold handleCacerts
    refine spec_call (getClient_spec hG p hp tid x.new hx.1 hr) (D := seg.toList)
      List.perm_append_comm ?_
    rintro ⟨c, p1⟩ ⟨hp1, hc⟩
    dsimp only at hp1 hc ⊢
    cases c with
    | none => exact spec_pure (by simp only [Option.elim]; perm) hp1
    | some c =>
      refine spec_call (storeSeg_spec p1 seg c (hc c rfl)) (D := [])
        (by simp only [Option.elim]; perm) ?_
      rintro ⟨e, c1⟩ hc1
      dsimp only at hc1 ⊢
      have hput : ∀ c, (owned c ++ (seg.toList ++ pxBlocks p1)).Perm
          (seg.toList ++ pxBlocks (put p1 tid c)) := by
        intro c
        refine List.Perm.trans ?_ (((put_blocks p1 tid c).symm).append_left _)
        perm
      split
      · refine spec_call (certs_spec hG c1 hc1 x hx) (D := seg.toList ++ pxBlocks p1) (by perm) ?_
        rintro ⟨e, c2⟩ hc2
        dsimp only at hc2 ⊢
        split
        · refine useIf_spec ?_ ?_
          · intro q hq
            simp [owned, hq]
          · exact spec_pure (hput c2) (put_inv hp1 hc2)
        · exact spec_pure (hput c2) (put_inv hp1 hc2)
      · refine spec_pure ?_ (put_inv hp1 hc1)
        refine List.Perm.trans ?_ (hput c1)
        perm

/-- Attribute requests that lose nothing. -/
def AttrsOk (G : Prop) (x : AttrsIn) : Prop :=
  (x.new.made.ciphersOk = true ∨ G) ∧ SesOk G x.up.conn.ses ∧ SesOk G x.up.ses

theorem alloc_post (hok : AllOk ok) : Post ok alloc (fun r => r.isSome = true) := by
  intro h a h' e
  simp only [alloc, hok h.next, if_true] at e
  cases e
  rfl

theorem parseAttrs_good (hok : AllOk ok) :
    Post ok (parseAttrs .good true) (fun r => r = true) := by
  unfold parseAttrs ServerMem.decode
  refine post_bind (alloc_post hok) fun r hr => ?_
  cases r with
  | none => cases hr
  | some der =>
    refine post_bind (S := fun b => b = true) ?_ fun b hb => ?_
    · rw [if_neg (by simp)]
      refine post_bind (alloc_post hok) fun r hr => ?_
      cases r with
      | none => cases hr
      | some b64 =>
        refine post_bind (alloc_post hok) fun r hr => ?_
        cases r with
        | none => cases hr
        | some mem =>
          refine post_skip fun _ => post_skip fun _ => post_pure rfl
    · subst hb
      exact post_skip fun _ => post_pure rfl

theorem sendOn_spec (hG : G ∨ AllOk ok) (x : AttrsIn) (data : Option Nat)
    (hd : data ≠ none → x.dec = .good ∧ x.sane = true) :
    Spec ok G data.toList (sendOn x data) (fun _ => []) (fun _ => True) := by
  unfold sendOn
  split
  · exact last_opt data (by simp)
  · cases data with
    | none => exact sendFresh_spec
    | some d =>
      obtain ⟨h1, h2⟩ := hd (by simp)
      rw [h1, h2]
      have hne : G ∨ (AllOk ok ∧ B64.good ≠ .refused) := hG.imp id (fun h => ⟨h, by simp⟩)
      have hp : Post ok (parseAttrs .good true) (fun r => G ∨ r = true) := by
        rcases hG with hg | hk
        · exact post_mono post_any (fun _ _ => .inl hg)
        · exact post_mono (parseAttrs_good hk) (fun _ h => .inr h)
      refine spec_call (spec_and (parseAttrs_spec .good true hne) hp) (P := []) (D := [d])
        (.refl _) ?_
      rintro good ⟨_, hgood⟩
      dsimp only [List.nil_append]
      split
      · next hb =>
        rcases hgood with hg | hgood
        · exact spec_lose [d] hg (.refl _) trivial
        · simp [hgood] at hb
      · split
        · exact spec_last
        · refine spec_call (addChallenge_spec .good x.isSeq x.encOk hne) (P := []) (D := [d])
            (.refl _) ?_
          intro q _
          cases q with
          | none => exact spec_last
          | some q =>
            dsimp only [Option.toList, List.cons_append, List.nil_append]
            fr
            exact spec_last

theorem getCsrattrs_accepted (c : Ctx) (w : Conn) (s : Send) (b : Bool) (ses : Ses) :
    Post ok (getCsrattrs c w s b ses)
      (fun a => a.1 = .none → a.2.csrattrs ≠ none → b = true) := by
  unfold getCsrattrs
  refine post_skip fun a => ?_
  obtain ⟨e, c1, ssl⟩ := a
  dsimp only
  split
  · refine post_skip fun _ => post_skip fun r => ?_
    obtain ⟨e, data⟩ := r
    dsimp only
    refine post_bind (disconnect_attrs _ ssl ses) fun c2 h2 => ?_
    dsimp only at h2
    have hno : ∀ {e : EstErr}, e = .none → c2.csrattrs ≠ none → b = true :=
      fun _ h => absurd h2 h
    split
    · split
      · exact post_pure hno
      · refine post_skip fun r => ?_
        split
        · exact post_skip fun _ => post_pure hno
        · refine post_skip fun _ => post_skip fun _ => post_skip fun _ => ?_
          split
          · next hb => exact post_pure (fun _ _ => hb)
          · exact post_skip fun _ => post_pure hno
    · exact post_skip fun _ => post_pure hno
  · next he => exact post_skip fun _ => post_pure (fun h => absurd h he)

theorem handleAttrs_spec (hG : G ∨ AllOk ok) (p : Px) (hp : PInv G p) (tid : Nat)
    (seg : Option Nat) (x : AttrsIn) (hx : AttrsOk G x) (hr : Room ok p tid) :
    Spec ok G (seg.toList ++ pxBlocks p) (handleAttrs p tid seg x)
      (fun r => seg.toList ++ pxBlocks r) (PInv G) := by
  unfold handleAttrs
  refine spec_call (getClient_spec hG p hp tid x.new hx.1 hr) (D := seg.toList)
    List.perm_append_comm ?_
  rintro ⟨c, p1⟩ ⟨hp1, hc⟩
  dsimp only at hp1 hc ⊢
  cases c with
  | none => exact spec_pure (by simp only [Option.elim]; perm) hp1
  | some c =>
    refine spec_call (storeSeg_spec p1 seg c (hc c rfl)) (D := [])
      (by simp only [Option.elim]; perm) ?_
    rintro ⟨e, c1⟩ hc1
    dsimp only at hc1 ⊢
    have hput : ∀ c, (owned c ++ (seg.toList ++ pxBlocks p1)).Perm
        (seg.toList ++ pxBlocks (put p1 tid c)) := by
      intro c
      refine List.Perm.trans ?_ (((put_blocks p1 tid c).symm).append_left _)
      perm
    split
    · have hpost : Post ok (getCsrattrs c1 x.up.conn x.up.send (x.dec == .good && x.sane) x.up.ses)
          (fun a => (G ∨ (a.1 ≠ .none → a.2.csrattrs = none)) ∧
            (a.1 = .none → a.2.csrattrs ≠ none → (x.dec == .good && x.sane) = true)) := by
        intro h a h' e
        refine ⟨?_, getCsrattrs_accepted _ _ _ _ _ h a h' e⟩
        rcases hc1.2 with hg | hn
        · exact .inl hg
        · exact .inr (getCsrattrs_attrs c1 hn _ _ _ _ h a h' e)
      refine spec_call (spec_and (getCsrattrs_spec c1 hc1.1 x.up.conn x.up.send
        (x.dec == .good && x.sane) x.up.ses hx.2.1 hx.2.2) hpost)
        (D := seg.toList ++ pxBlocks p1) (by perm) ?_
      rintro ⟨e, c2⟩ ⟨hi, hl, hacc⟩
      dsimp only at hi hl hacc ⊢
      have hc2 : CInv G { c2 with csrattrs := none } := ⟨hi, .inr rfl⟩
      by_cases he : e = .none
      · subst he
        rw [if_pos (.inl rfl), if_pos rfl]
        refine spec_call (sendOn_spec hG x c2.csrattrs ?_)
          (D := owned { c2 with csrattrs := none } ++ (seg.toList ++ pxBlocks p1)) (by perm) ?_
        · intro h
          have := hacc rfl h
          simp only [Bool.and_eq_true, beq_iff_eq] at this
          exact this
        intro _ _
        exact spec_pure (hput _) (put_inv hp1 hc2)
      · rw [if_neg he]
        have hlost : Spec ok G (owned c2 ++ (seg.toList ++ pxBlocks p1)) (pure (put p1 tid
            { c2 with csrattrs := none }) : Mem Px) (fun r => seg.toList ++ pxBlocks r)
            (PInv G) := by
          rcases hl with hg | hl
          · refine spec_lose c2.csrattrs.toList hg ?_ (put_inv hp1 hc2)
            refine List.Perm.trans ?_ ((hput { c2 with csrattrs := none }).append_right _)
            perm
          · refine spec_pure ?_ (put_inv hp1 hc2)
            refine List.Perm.trans ?_ (hput { c2 with csrattrs := none })
            have hl := hl he
            permw hl
        split
        · refine spec_call (sendOn_spec hG x none (fun h => absurd rfl h)) (P := [])
            (D := owned c2 ++ (seg.toList ++ pxBlocks p1)) (.refl _) ?_
          intro _ _
          exact hlost
        · exact hlost
    · refine spec_pure ?_ (put_inv hp1 hc1)
      refine List.Perm.trans ?_ (hput c1)
      perm

theorem retrieve_spec (hG : G ∨ AllOk ok) (p : Px) (hp : PInv G p) (tid : Nat) (x : CertsIn)
    (hx : CertsOk G x) (hr : Room ok p tid) :
    Spec ok G (pxBlocks p) (retrieve p tid x) (fun r => r.2.toList ++ pxBlocks r.1)
      (fun r => PInv G r.1) := by
  unfold retrieve
  refine spec_call (getClient_spec hG p hp tid x.new hx.1 hr) (D := []) (by simp) ?_
  rintro ⟨c, p1⟩ ⟨hp1, hc⟩
  dsimp only at hp1 hc ⊢
  cases c with
  | none => exact spec_pure (by simp) hp1
  | some c =>
    refine spec_call (certs_spec hG c (hc c rfl) x hx) (D := pxBlocks p1) (by simp) ?_
    rintro ⟨e, c1⟩ hc1
    dsimp only at hc1 ⊢
    split
    · al
      · next b =>
        refine spec_call (spec_and (copyCacerts_spec c1 hc1.1) (copyCacerts_attrs c1))
          (D := b :: pxBlocks p1) (by perm) ?_
        rintro ⟨e, c2⟩ ⟨hi, ha⟩
        dsimp only at hi ha ⊢
        have hc2 : CInv G c2 := ⟨hi, ha ▸ hc1.2⟩
        split
        · us
          refine spec_pure ?_ (put_inv hp1 (c := { c2 with ready := true }) hc2)
          refine List.Perm.trans ?_ ((put_blocks p1 tid { c2 with ready := true }).symm.cons b)
          perm
        · refine spec_free (P' := owned c2 ++ pxBlocks p1) (by perm) ?_
          exact spec_pure (put_blocks p1 tid c2).symm (put_inv hp1 hc2)
      · exact spec_pure (put_blocks p1 tid c1).symm (put_inv hp1 hc1)
    · exact spec_pure (put_blocks p1 tid c1).symm (put_inv hp1 hc1)

/-! ## Requests -/

/-- Work that loses nothing. -/
def WorkOk (G : Prop) : Work → Prop
  | .refused => True
  | .cacerts x => ∀ y, x = some y → CertsOk G y
  | .csrattrs x => AttrsOk G x
  | .enroll x _ _ => EnrollOk G x
  | .keygen x _ _ => KeygenOk G x

/-- Work that does not need memory to be available, if the table has room. -/
def Light : Work → Prop
  | .refused => True
  | .cacerts _ => True
  | .csrattrs _ => True
  | _ => False

theorem perform_spec (p : Px) (hp : PInv G p) (tid : Nat) (peer : Peer) (seg : Option Nat)
    (w : Work) (hu : AllOk ok ∨ (Light w ∧ Room ok p tid)) (hG : G ∨ AllOk ok)
    (hw : WorkOk G w) :
    Spec ok G (seg.toList ++ pxBlocks p) (perform p tid peer seg w)
      (fun r => seg.toList ++ pxBlocks r) (PInv G) := by
  have hroom : Room ok p tid := by
    rcases hu with h | h
    · exact .inl h
    · exact h.2
  cases w with
  | refused => exact spec_pure (.refl _) hp
  | cacerts x => exact handleCacerts_spec hG p hp tid seg x (fun y hy => ⟨hw y hy, hroom⟩)
  | csrattrs x => exact handleAttrs_spec hG p hp tid seg x hw hroom
  | enroll x before after =>
    have hok : AllOk ok := hu.resolve_right (fun h => h.1)
    refine spec_call (event_spec before) (P := []) (D := seg.toList ++ pxBlocks p) (.refl _) ?_
    intro _ _
    refine spec_call (handleEnroll_spec hok p hp tid peer seg x hw) (D := []) (by simp) ?_
    rintro ⟨p1, e, cert⟩ hp1
    dsimp only at hp1 ⊢
    rw [List.append_nil]
    refine spec_call (event_spec after) (P := []) (.refl _) ?_
    intro _ _
    refine spec_free_opt (.refl _) ?_
    exact spec_pure (.refl _) hp1
  | keygen x before after =>
    have hok : AllOk ok := hu.resolve_right (fun h => h.1)
    refine spec_call (event_spec before) (P := []) (D := seg.toList ++ pxBlocks p) (.refl _) ?_
    intro _ _
    refine spec_call (handleKeygen_spec hok p hp tid peer seg x hw) (D := []) (by simp) ?_
    rintro ⟨p1, e, cert, key⟩ ⟨hp1, hl⟩
    dsimp only at hp1 hl ⊢
    rw [List.append_nil]
    have ha : Spec ok G (cert.toList ++ key.toList) (afterKeygen e cert key after) (fun _ => [])
        (fun _ => True) := by
      unfold afterKeygen
      split
      · refine spec_call (event_spec after) (P := []) (.refl _) ?_
        intro _ _
        refine spec_free_opt (P' := key.toList) (.refl _) ?_
        refine useIf_spec (by intro q hq; simp [hq]) ?_
        exact last_opt key (by simp)
      · next he =>
        have hlose : Spec ok G (cert.toList ++ key.toList) (pure () : Mem Unit) (fun _ => [])
            (fun _ => True) := by
          rcases hl he with hg | ⟨h1, h2⟩
          · exact spec_lose _ hg (.refl _) trivial
          · rw [h1, h2]
            exact spec_pure (.refl _) trivial
        split
        · rcases hl he with hg | ⟨h1, h2⟩
          · exact spec_drop hg (event_spec after) (P := []) (.refl _)
          · rw [h1, h2]
            exact event_spec after
        · exact hlose
    refine spec_call ha (D := seg.toList ++ pxBlocks p1) (by perm) ?_
    intro _ _
    exact spec_pure (.refl _) hp1

/-- Requests that need no memory to be available. -/
def LightRq (q : Rq) : Prop := q.body = false ∧ (∃ b, q.uri = .plain b) ∧ Light q.work

theorem httpRequest_spec (p : Px) (hp : PInv G p) (q : Rq)
    (hu : AllOk ok ∨ (LightRq q ∧ Room ok p q.tid)) (hG : G ∨ AllOk ok)
    (hw : WorkOk G q.work) (hpeer : G ∨ q.peer = .none) :
    Spec ok G (pxBlocks p) (httpRequest p q) pxBlocks (PInv G) := by
  unfold httpRequest
  split
  · exact spec_pure (.refl _) hp
  have hrest : Spec ok G (pxBlocks p) (do
      let (good, seg) ← parseUri q.uri
      if !good then pure p
      else
        let p ← perform p q.tid q.peer seg q.work
        free seg
        pure p) pxBlocks (PInv G) := by
    refine spec_call (parseUri_spec q.uri (hu.imp id (·.1.2.1))) (P := []) (D := pxBlocks p)
      (.refl _) ?_
    rintro ⟨good, seg⟩ hs
    dsimp only at hs ⊢
    split
    · next h =>
      rw [hs (by simpa using h)]
      exact spec_pure (.refl _) hp
    · refine spec_call (perform_spec p hp q.tid q.peer seg q.work
        (hu.imp id (fun h => ⟨h.1.2.2, h.2⟩)) hG hw) (D := []) (by simp) ?_
      intro p1 hp1
      refine spec_free_opt (P' := pxBlocks p1) (by simp) ?_
      exact spec_pure (.refl _) hp1
  rcases hpeer with hg | hn
  · refine spec_call (peerRef_spec q.peer) (P := []) (D := pxBlocks p) (.refl _) ?_
    intro r _
    exact spec_drop hg hrest List.perm_append_comm
  · rw [hn] at hrest ⊢
    intro h F hh
    exact hrest h F hh

theorem handler_spec (p : Px) (hp : PInv G p) (q : Rq)
    (hu : AllOk ok ∨ (LightRq q ∧ Room ok p q.tid)) (hG : G ∨ AllOk ok)
    (hw : WorkOk G q.work) (hpeer : G ∨ q.peer = .none) :
    Spec ok G (pxBlocks p) (handler p q) pxBlocks (PInv G) := by
  unfold handler
  split
  · next h =>
    have hok : AllOk ok := hu.resolve_right (fun x => by simp [x.1.1] at h)
    al
    · next b =>
      us
      refine spec_call (httpRequest_spec p hp q hu hG hw hpeer) (D := [b]) (by perm) ?_
      intro p1 hp1
      refine spec_free (P' := pxBlocks p1) (by perm) ?_
      exact spec_pure (.refl _) hp1
    · next hn => exact absurd hok hn
  · exact httpRequest_spec p hp q hu hG hw hpeer

theorem ownSegment_spec (p : Px) (hp : PInv G p) :
    Spec ok G (pxBlocks p) (ownSegment p) pxBlocks (PInv G) := by
  unfold ownSegment
  refine spec_free_opt (P' := p.array.toList ++ tableBlocks p.clients) (by simp only [pxBlocks]; perm) ?_
  al
  · next b =>
    us
    exact spec_pure (by simp only [pxBlocks, Option.toList]; perm) hp
  · exact spec_pure (by simp [pxBlocks]) hp

/-- Operations that lose nothing. -/
def OpOk (G : Prop) : Op → Prop
  | .request q => WorkOk G q.work ∧ (G ∨ q.peer = .none)
  | .retrieve _ x => CertsOk G x
  | .segment => True

/-- Operations that need no memory to be available. -/
def LightOp : Op → Prop
  | .request q => LightRq q
  | _ => True

/-- The thread of an operation. -/
def threadOf : Op → Option Nat
  | .request q => some q.tid
  | .retrieve tid _ => some tid
  | .segment => none

theorem step_spec (p : Px) (hp : PInv G p) (op : Op)
    (hu : AllOk ok ∨ (LightOp op ∧ ∀ t, threadOf op = some t → Room ok p t)) (hG : G ∨ AllOk ok)
    (hw : OpOk G op) :
    Spec ok G (pxBlocks p) (step p op) pxBlocks (PInv G) := by
  cases op with
  | request q =>
    exact handler_spec p hp q (hu.imp id (fun h => ⟨h.1, h.2 _ rfl⟩)) hG hw.1 hw.2
  | retrieve tid x =>
    have hroom : Room ok p tid := by
      rcases hu with h | h
      · exact .inl h
      · exact h.2 _ rfl
    refine spec_call (retrieve_spec hG p hp tid x hw hroom) (D := []) (by simp) ?_
    rintro ⟨p1, b⟩ hp1
    dsimp only at hp1 ⊢
    refine spec_free_opt (P' := pxBlocks p1) (by simp) ?_
    exact spec_pure (.refl _) hp1
  | segment => exact ownSegment_spec p hp

/-! ## The table does not grow when there are few threads -/

/-- At most one entry for each of the threads `0 … n-1`, in a table for `n`. -/
def Few (n : Nat) (p : Px) : Prop :=
  p.cap = n ∧ (p.clients.map (·.1)).Nodup ∧ ∀ t ∈ p.clients.map (·.1), t < n

theorem few_room {n : Nat} {p : Px} (h : Few n p) {tid : Nat} (ht : tid < n) : Room ok p tid := by
  refine .inr ?_
  cases hp : pick tid p.clients with
  | some _ => exact .inl (by simp)
  | none =>
    refine .inr ?_
    have hn := pick_none tid p.clients hp
    have hnd : (tid :: p.clients.map (·.1)).Nodup := List.nodup_cons.2 ⟨hn, h.2.1⟩
    have hsub : (tid :: p.clients.map (·.1)) ⊆ List.range n := by
      intro t hm
      rcases List.mem_cons.1 hm with hm | hm
      · exact List.mem_range.2 (hm ▸ ht)
      · exact List.mem_range.2 (h.2.2 t hm)
    have := (List.subperm_of_subset hnd hsub).length_le
    simp at this
    rw [h.1]
    omega

theorem few_put {n : Nat} {p : Px} (h : Few n p) {tid : Nat} (ht : tid < n)
    (hm : tid ∉ p.clients.map (·.1)) (c : Ctx) : Few n (put p tid c) := by
  refine ⟨h.1, List.nodup_cons.2 ⟨hm, h.2.1⟩, ?_⟩
  intro t hx
  rcases List.mem_cons.1 hx with hx | hx
  · exact hx ▸ ht
  · exact h.2.2 t hx

theorem getClient_few {n : Nat} (p : Px) (h : Few n p) (tid : Nat) (ht : tid < n) (x : NewCtx) :
    Post ok (getClient p tid x) (fun r => Few n r.2 ∧ (r.1 ≠ none → ∀ c, Few n (put r.2 tid c))) := by
  unfold getClient
  refine post_skip fun _ => ?_
  split
  · next c r hpick =>
    obtain ⟨-, h2, -, h4⟩ := pick_spec tid p.clients c r hpick
    have hnd := h4.nodup h.2.1
    have hf : Few n { p with clients := r } := by
      refine ⟨h.1, (List.nodup_cons.1 hnd).2, ?_⟩
      intro t hm
      exact h.2.2 t (h4.mem_iff.2 (List.mem_cons_of_mem _ hm))
    exact post_pure ⟨hf, fun _ c => few_put hf ht (List.nodup_cons.1 hnd).1 c⟩
  · next hpick =>
    have hn := pick_none tid p.clients hpick
    have hl : p.clients.length < p.cap := by
      rcases few_room (ok := fun _ => false) h ht with hr | hr | hr
      · exact absurd (hr 0) (by simp)
      · exact absurd hpick hr
      · exact hr
    refine post_skip fun r => ?_
    split
    · exact post_pure ⟨h, fun hc => absurd rfl hc⟩
    · unfold room
      rw [if_pos hl]
      exact post_pure ⟨h, fun _ c => few_put h ht hn c⟩

theorem handleCacerts_few {n : Nat} (p : Px) (h : Few n p) (tid : Nat) (ht : tid < n)
    (seg : Option Nat) (x : Option CertsIn) : Post ok (handleCacerts p tid seg x) (Few n) := by
  unfold handleCacerts
  split
  · exact post_pure h
  · refine post_bind (getClient_few p h tid ht _) ?_
    rintro ⟨c, p1⟩ ⟨h1, h2⟩
    dsimp only at h1 h2 ⊢
    cases c with
    | none => exact post_pure h1
    | some c =>
      have h3 := h2 (by simp)
      repeat' first
        | exact post_pure (h3 _)
        | refine post_skip fun _ => ?_
        | split

theorem handleAttrs_few {n : Nat} (p : Px) (h : Few n p) (tid : Nat) (ht : tid < n)
    (seg : Option Nat) (x : AttrsIn) : Post ok (handleAttrs p tid seg x) (Few n) := by
  unfold handleAttrs
  refine post_bind (getClient_few p h tid ht _) ?_
  rintro ⟨c, p1⟩ ⟨h1, h2⟩
  dsimp only at h1 h2 ⊢
  cases c with
  | none => exact post_pure h1
  | some c =>
    have h3 := h2 (by simp)
    repeat' first
      | exact post_pure (h3 _)
      | refine post_skip fun _ => ?_
      | split

theorem retrieve_few {n : Nat} (p : Px) (h : Few n p) (tid : Nat) (ht : tid < n)
    (x : CertsIn) : Post ok (retrieve p tid x) (fun r => Few n r.1) := by
  unfold retrieve
  refine post_bind (getClient_few p h tid ht _) ?_
  rintro ⟨c, p1⟩ ⟨h1, h2⟩
  dsimp only at h1 h2 ⊢
  cases c with
  | none => exact post_pure h1
  | some c =>
    have h3 := h2 (by simp)
    repeat' first
      | exact post_pure (h3 _)
      | refine post_skip fun _ => ?_
      | split

theorem step_few {n : Nat} (p : Px) (h : Few n p) (op : Op) (hl : LightOp op)
    (ht : ∀ t, threadOf op = some t → t < n) : Post ok (step p op) (Few n) := by
  cases op with
  | request q =>
    have hq := ht _ rfl
    show Post ok (handler p q) (Few n)
    unfold handler
    obtain ⟨hb, -, hw⟩ := hl
    rw [if_neg (by simp [hb])]
    unfold httpRequest
    split
    · exact post_pure h
    · refine post_skip fun _ => post_skip fun r => ?_
      dsimp only
      split
      · exact post_pure h
      · refine post_bind (S := Few n) ?_ (fun p1 h1 => post_skip fun _ => post_pure h1)
        cases hx : q.work with
        | refused => exact post_pure h
        | cacerts x => exact handleCacerts_few p h q.tid hq _ x
        | csrattrs x => exact handleAttrs_few p h q.tid hq _ x
        | enroll _ _ _ => rw [hx] at hw; exact hw.elim
        | keygen _ _ _ => rw [hx] at hw; exact hw.elim
  | retrieve tid x =>
    unfold step
    refine post_bind (retrieve_few p h tid (ht _ rfl) x) ?_
    rintro ⟨p1, b⟩ h1
    exact post_skip fun _ => post_pure h1
  | segment =>
    unfold step ownSegment
    refine post_skip fun _ => post_skip fun r => ?_
    split
    · exact post_pure h
    · exact post_skip fun _ => post_pure h

/-! ## The life of a proxy -/

/-- Memory is available, or the operations do not need it. -/
def Easy (ok : Nat → Bool) (n : Nat) (p : Px) (ops : List Op) : Prop :=
  AllOk ok ∨ (Few n p ∧ ∀ op ∈ ops, LightOp op ∧ ∀ t, threadOf op = some t → t < n)

theorem steps_spec {n : Nat} (ops : List Op) : ∀ (p : Px), PInv G p → Easy ok n p ops →
    (G ∨ AllOk ok) → (∀ op ∈ ops, OpOk G op) →
    Spec ok G (pxBlocks p) (steps p ops) pxBlocks (PInv G) := by
  induction ops with
  | nil =>
    intro p hp _ _ _
    exact spec_pure (.refl _) hp
  | cons op ops ih =>
    intro p hp hu hG hw
    unfold steps
    have hs := step_spec p hp op (hu.imp id (fun h => ⟨(h.2 op (List.mem_cons_self ..)).1,
      fun t ht => few_room h.1 ((h.2 op (List.mem_cons_self ..)).2 t ht)⟩)) hG
      (hw op (List.mem_cons_self ..))
    have hf : Post ok (step p op) (fun p1 => Easy ok n p1 ops) := by
      rcases hu with h | h
      · exact post_mono post_any (fun _ _ => .inl h)
      · have h1 := h.2 op (List.mem_cons_self ..)
        exact post_mono (step_few p h.1 op h1.1 h1.2)
          (fun p1 h2 => .inr ⟨h2, fun o ho => h.2 o (List.mem_cons_of_mem _ ho)⟩)
    refine spec_call (spec_and hs hf) (D := []) (by simp) ?_
    rintro p1 ⟨hp1, he⟩
    rw [List.append_nil]
    exact ih p1 hp1 he hG (fun o ho => hw o (List.mem_cons_of_mem _ ho))

theorem life_spec (cap : Nat) (ops : List Op) (a : Nat)
    (hu : Easy ok cap ⟨some a, cap, [], none⟩ ops) (hG : G ∨ AllOk ok)
    (hw : ∀ op ∈ ops, OpOk G op) :
    Spec ok G [a] (do
      let p ← steps ⟨some a, cap, [], none⟩ ops
      cleanup p) (fun _ => []) (fun _ => True) := by
  refine spec_call (steps_spec ops ⟨some a, cap, [], none⟩ ⟨rfl, by simp⟩ hu hG hw) (D := [])
    (.refl _) ?_
  intro p hp
  rw [List.append_nil]
  exact cleanup_spec p hp

end Verif.ProxyMem
