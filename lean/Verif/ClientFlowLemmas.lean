import Verif.ClientFlowModel
import Verif.MultipartProps
import Verif.ClientReqProps

/-!
# Lemmas on the client's operations
-/
namespace Verif.Flow
open Verif.ClientResp (Mode getResponse authRequest statusErr statusCode parseHdrs clientHeaders)
open Verif.ClientReq (Auth)
open Verif.HttpHdr (Hdr skip skipWord wordOf)

/-! ## Where header values come from -/

theorem wordOf_prefix (d t : List Nat) : wordOf d t <+: t := by
  unfold wordOf; exact List.takeWhile_prefix _

theorem skipWord_suffix (d w t : List Nat) : (skipWord d w t).2 <:+ t := by
  simp only [skipWord]
  split
  · exact List.nil_suffix
  · next c rest h =>
    refine (List.dropWhile_suffix _).trans ?_
    have : c :: rest <:+ t := h ▸ List.drop_suffix _ _
    exact (List.suffix_cons c rest).trans this

theorem skipWord_infix (d w t : List Nat) : (skipWord d w t).1 <:+: t := by
  simp only [skipWord]
  split
  · exact (wordOf_prefix d t).isInfix
  · exact (wordOf_prefix d t).isInfix

theorem parseHdrs_infix (e : Option Nat) (n : Nat) (t : List Nat) :
    ∀ h ∈ (parseHdrs e n t).1, h.name <:+: t ∧ h.value <:+: t := by
  induction n generalizing t with
  | zero => intro h hh; simp [parseHdrs] at hh
  | succ n ih =>
    have hs := (skipWord_suffix [58] [32] t)
    have hv : (skip [13, 10] (skipWord [58] [32] t).2).1 <:+: t :=
      (skipWord_infix _ _ _).trans hs.isInfix
    have hr : (skip [13, 10] (skipWord [58] [32] t).2).2 <:+ t := (skipWord_suffix _ _ _).trans hs
    intro h hh
    simp only [parseHdrs] at hh
    split at hh
    · simp at hh
    · split at hh
      · simp only [List.mem_singleton] at hh
        subst hh
        exact ⟨skipWord_infix _ _ _, hv⟩
      · simp only [List.mem_cons] at hh
        rcases hh with rfl | hh
        · exact ⟨skipWord_infix _ _ _, hv⟩
        · have := ih _ h hh
          exact ⟨this.1.trans hr.isInfix, this.2.trans hr.isInfix⟩

theorem kgHdrs_infix (e : Option Nat) (n : Nat) (t : List Nat) :
    ∀ h ∈ (Multipart.kgHdrs e n t).1, h.name <:+: t ∧ h.value <:+: t := by
  induction n generalizing t with
  | zero => intro h hh; simp [Multipart.kgHdrs] at hh
  | succ n ih =>
    have hd : t.dropWhile (· == 10) <:+ t := List.dropWhile_suffix _
    have hs := (skipWord_suffix [58] [32] (t.dropWhile (· == 10))).trans hd
    have hn : (skipWord [58] [32] (t.dropWhile (· == 10))).1 <:+: t :=
      (skipWord_infix _ _ _).trans hd.isInfix
    have hv : (skip [13, 10] (skipWord [58] [32] (t.dropWhile (· == 10))).2).1 <:+: t :=
      (skipWord_infix _ _ _).trans hs.isInfix
    have hr : (skip [13, 10] (skipWord [58] [32] (t.dropWhile (· == 10))).2).2 <:+ t :=
      (skipWord_suffix _ _ _).trans hs
    intro h hh
    simp only [Multipart.kgHdrs] at hh
    split at hh
    · simp only [List.mem_singleton] at hh
      subst hh
      exact ⟨hn, hv⟩
    · simp only [List.mem_cons] at hh
      rcases hh with rfl | hh
      · exact ⟨hn, hv⟩
      · have := ih _ h hh
        exact ⟨this.1.trans hr.isInfix, this.2.trans hr.isInfix⟩

/-! ## Challenges -/

/-- The name of the scheme of a mode. -/
def scheme : Mode → List Nat
  | .basic => [66, 97, 115, 105, 99]
  | .digest => [68, 105, 103, 101, 115, 116]
  | .token => [66, 101, 97, 114, 101, 114]
  | _ => []

/-- The server's answer on this connection has status 401 and contains a challenge of this
scheme that the client accepts. -/
def Challenged (lib : Lib) (n : Conn) (m : Mode) : Prop :=
  ∃ u raw name value, n = .up u ∧ u.reply = .bytes raw ∧ [72, 84, 84, 80, 47, 49, 46, 49, 32, 52, 48, 49] <+: raw ∧
    name <:+: raw ∧ [87, 87, 87, 45, 65, 117, 116, 104, 101, 110, 116, 105, 99, 97, 116, 101] <+: name ∧
    value <:+: raw ∧ scheme m <+: value ∧ lib.tokensOk value = true

theorem authRequest_asked (tok : List Nat → Bool) (hs : List Hdr) (m : Mode)
    (h : authRequest tok hs = m) (ha : Asked m) :
    ∃ h ∈ hs, [87, 87, 87, 45, 65, 117, 116, 104, 101, 110, 116, 105, 99, 97, 116, 101] <+: h.name ∧ scheme m <+: h.value ∧ tok h.value = true := by
  induction hs with
  | nil => subst h; exact absurd ha (by simp [authRequest, Asked])
  | cons x hs ih =>
    unfold authRequest at h
    split at h
    · next hn =>
      refine ⟨x, by simp, List.isPrefixOf_iff_prefix.1 hn, ?_⟩
      split at h
      · next hb =>
        split at h
        · next ht => subst h; exact ⟨List.isPrefixOf_iff_prefix.1 hb, ht⟩
        · subst h; exact absurd ha (by decide)
      · split at h
        · next hb =>
          split at h
          · next ht => subst h; exact ⟨List.isPrefixOf_iff_prefix.1 hb, ht⟩
          · subst h; exact absurd ha (by decide)
        · split at h
          · next hb =>
            split at h
            · next ht => subst h; exact ⟨List.isPrefixOf_iff_prefix.1 hb, ht⟩
            · subst h; exact absurd ha (by decide)
          · subst h; exact absurd ha (by decide)
    · obtain ⟨y, hy, h1⟩ := ih h
      exact ⟨y, by simp [hy], h1⟩

theorem statusCode_401 {t : List Nat} (h : statusCode t = some 401) :
    [72, 84, 84, 80, 47, 49, 46, 49, 32, 52, 48, 49] <+: t := by
  unfold statusCode at h
  iterate 4 (split at h; · simp at h)
  split at h
  · rw [← List.isPrefixOf_iff_prefix]; assumption
  · exfalso
    repeat' split at h
    all_goals simp at h

/-- What the handling of an error status does to the mode. -/
theorem statusErr_mode (tok) (ctx : ClientResp.Ctx) (hs : List Hdr) (st : Option Nat)
    (ha : Asked (statusErr tok ctx hs st).2.1) :
    ((statusErr tok ctx hs st).2.1 = ctx.mode ∧ (statusErr tok ctx hs st).1 ≠ .authFail) ∨
      (¬ Asked ctx.mode ∧ st = some 401 ∧ authRequest tok hs = (statusErr tok ctx hs st).2.1) := by
  have hretry : ∀ (l : List Hdr) (r : EstErr × Nat), r.1 ≠ .authFail →
      (ClientResp.retryLoop l r).1 ≠ .authFail := by
    intro l
    induction l with
    | nil => intro r h; exact h
    | cons x l ih =>
      intro r h
      unfold ClientResp.retryLoop
      apply ih
      split <;> simp_all
  revert ha
  unfold statusErr
  split
  · exact fun _ => .inl ⟨rfl, by simp⟩
  · exact fun _ => .inl ⟨rfl, by simp⟩
  · exact fun _ => .inl ⟨rfl, hretry _ _ (by simp)⟩
  · exact fun _ => .inl ⟨rfl, by simp⟩
  · split
    · intro ha; exact absurd ha (by simp [Asked])
    · next h => exact fun _ => .inr ⟨h, rfl, rfl⟩
  all_goals exact fun _ => .inl ⟨rfl, by simp⟩

theorem split_err (b consumed rest after : List Nat) (e : EstErr)
    (h : Multipart.split b consumed rest after = .err e) : e ≠ .authFail ∧ e ≠ .none := by
  unfold Multipart.split at h
  split at h
  · contradiction
  · unfold Multipart.parseParts at h
    split at h
    · contradiction
    · split at h
      · contradiction
      · split at h
        · injection h with h; subst h; split <;> simp
        · split at h
          · injection h with h; subst h; simp
          · contradiction

theorem okBody_err (op : ClientResp.Op) (hs : List Hdr) (p : List Nat) :
    (ClientResp.okBody op hs p).1 ≠ .authFail := by
  unfold ClientResp.okBody
  split
  · simp
  · split
    · simp
    · unfold ClientResp.takeBody
      repeat' split
      all_goals simp

theorem statusErr_challenged (lib : Lib) (ctx : ClientResp.Ctx) (u : Up) (raw : List Nat)
    (hu : u.reply = .bytes raw) (hs : List Hdr)
    (hi : ∀ x ∈ hs, x.name <:+: raw ∧ x.value <:+: raw)
    (r : EstErr × Mode × Nat)
    (hr : r = statusErr lib.tokensOk ctx hs (statusCode (raw.takeWhile (· != 0))))
    (hask : Asked r.2.1) :
    (r.2.1 = ctx.mode ∧ r.1 ≠ .authFail) ∨
      (¬ Asked ctx.mode ∧ Challenged lib (.up u) r.2.1 ∧ r.1 ≠ .none) := by
  have hpre : raw.takeWhile (· != 0) <+: raw := List.takeWhile_prefix _
  subst hr
  rcases statusErr_mode _ _ _ _ hask with h1 | ⟨h1, h2, h3⟩
  · exact .inl h1
  · right
    refine ⟨h1, ?_, ?_⟩
    · obtain ⟨x, hx, p1, p2, p3⟩ := authRequest_asked _ _ _ h3 hask
      exact ⟨u, raw, x.name, x.value, rfl, hu, (statusCode_401 h2).trans hpre, (hi x hx).1, p1,
        (hi x hx).2, p2, p3⟩
    · rw [h2]
      unfold statusErr
      simp only
      split <;> simp

/-- The same for a whole answer: if the client is ready to send credentials afterwards, it was
so before, or the answer was a challenge. -/
theorem getResponse_mode (lib : Lib) (ctx : ClientResp.Ctx) (op : ClientResp.Op) (u : Up)
    (raw : List Nat) (hu : u.reply = .bytes raw) (r : ClientResp.Result)
    (hr : getResponse lib.tokensOk ctx op raw = r) (ha : Asked r.mode) :
    (r.mode = ctx.mode ∧ r.err ≠ .authFail) ∨
      (¬ Asked ctx.mode ∧ Challenged lib (.up u) r.mode ∧ r.err ≠ .none) := by
  have hpre : raw.takeWhile (· != 0) <+: raw := List.takeWhile_prefix _
  unfold getResponse at hr
  split at hr
  · subst hr; exact .inl ⟨rfl, by simp⟩
  · simp only at hr
    split at hr
    · subst hr; exact .inl ⟨rfl, okBody_err _ _ _⟩
    · subst hr
      refine statusErr_challenged lib ctx u raw hu _ ?_ _ rfl ha
      intro x hx
      have := parseHdrs_infix _ _ _ x hx
      have q : (skip [13, 10] (raw.takeWhile (· != 0))).2 <:+: raw :=
        ((skipWord_suffix _ _ _).isInfix).trans hpre.isInfix
      exact ⟨this.1.trans q, this.2.trans q⟩

theorem answer_mode (lib : Lib) (c : Client) (k : Kind) (u : Up) (raw : List Nat)
    (hu : u.reply = .bytes raw)
    (e : EstErr) (m : Mode) (d : Nat) (cert key : List Nat)
    (h : answer lib c k raw = some (e, m, d, cert, key)) (ha : Asked m) :
    (m = c.mode ∧ e ≠ .authFail) ∨ (¬ Asked c.mode ∧ Challenged lib (.up u) m ∧ e ≠ .none) := by
  have hpre : raw.takeWhile (· != 0) <+: raw := List.takeWhile_prefix _
  unfold answer at h
  split at h
  · unfold Multipart.getKeygen at h
    split at h
    · next h0 =>
      split at h0
      · contradiction
      · simp only at h0
        split at h0
        · contradiction
        · split at h0
          · split at h0
            · contradiction
            · split at h0 <;> simp_all
          · contradiction
    · next h0 =>
      split at h0
      · injection h0 with a1 a2 a3 a4 a5
        simp only [Option.some.injEq, Prod.mk.injEq] at h
        obtain ⟨b1, b2, -⟩ := h
        exact .inl ⟨by rw [← b2, ← a2], by rw [← b1, ← a1]; simp⟩
      · simp only at h0
        simp only [Option.some.injEq, Prod.mk.injEq] at h
        obtain ⟨b1, b2, -⟩ := h
        split at h0
        · injection h0 with a1 a2 a3 a4 a5
          exact .inl ⟨by rw [← b2, ← a2], by rw [← b1, ← a1]; simp⟩
        · split at h0
          · split at h0
            · injection h0 with a1 a2 a3 a4 a5
              exact .inl ⟨by rw [← b2, ← a2], by rw [← b1, ← a1]; simp⟩
            · split at h0
              · simp at h0
              · next e' hsp =>
                injection h0 with a1 a2 a3 a4 a5
                refine .inl ⟨by rw [← b2, ← a2], ?_⟩
                rw [← b1, ← a1]
                exact (split_err _ _ _ _ _ hsp).1
              · injection h0 with a1 a2 a3 a4 a5
                exact .inl ⟨by rw [← b2, ← a2], by rw [← b1, ← a1]; simp⟩
          · injection h0 with a1 a2 a3 a4 a5
            rw [← b1, ← b2, ← a1, ← a2]
            refine statusErr_challenged lib ⟨c.mode, c.delay⟩ u raw hu _ ?_ _ rfl (by rw [a2, b2]; exact ha)
            intro x hx
            have hx := (List.mem_filter.1 hx).1
            have := kgHdrs_infix _ _ _ x hx
            have q : (skip [13, 10] (raw.takeWhile (· != 0))).2 <:+: raw :=
              ((skipWord_suffix _ _ _).isInfix).trans hpre.isInfix
            exact ⟨this.1.trans q, this.2.trans q⟩
  · simp only [Option.some.injEq, Prod.mk.injEq] at h
    obtain ⟨b1, b2, -⟩ := h
    rw [← b1, ← b2]
    exact getResponse_mode lib ⟨c.mode, c.delay⟩ k.op u raw hu _ rfl (by rw [b2]; exact ha)

/-! ## One attempt -/

/-- The fields of the context that an enrolment does not touch. -/
structure Frame (c c' : Client) : Prop where
  ready : c'.ready = c.ready
  cacerts : c'.cacerts = c.cacerts
  attrs : c'.attrs = c.attrs
  popReq : c'.popReq = c.popReq
  forcePop : c'.forcePop = c.forcePop
  trust : c'.trust = c.trust
  store : c'.store = c.store

theorem Frame.rfl' (c : Client) : Frame c c := ⟨rfl, rfl, rfl, rfl, rfl, rfl, rfl⟩

theorem Frame.trans {a b c : Client} (h : Frame a b) (g : Frame b c) : Frame a c :=
  ⟨g.1.trans h.1, g.2.trans h.2, g.3.trans h.3, g.4.trans h.4, g.5.trans h.5, g.6.trans h.6,
    g.7.trans h.7⟩

/-- The request `s` of operation `k` was made on connection `u` in mode `m`, with a certificate
request that satisfies `P`. -/
def From (k : Kind) (m : Mode) (u : Up) (P : Up → Csr → Prop) (c : Client) (s : Sent) : Prop :=
  s.op = k.uri ∧ s.auth = authOf u m ∧ s.trust = c.trust ∧ ∃ x, s.csr = some x ∧ P u x

/-- What one attempt does. -/
structure Attempt (lib : Lib) (k : Kind) (c : Client) (u : Up) (P : Up → Csr → Prop) (r : Res) :
    Prop where
  sent : r.sent = [] ∨ ∃ s, r.sent = [s] ∧ From k c.mode u P c s
  frame : Frame c r.client
  mode : Asked r.client.mode → (r.client.mode = c.mode ∧ r.err ≠ .authFail) ∨
    (¬ Asked c.mode ∧ Challenged lib (.up u) r.client.mode ∧ r.sent ≠ [])
  kept : r.err ≠ .none → r.err ≠ .validation → r.client.cert = c.cert ∧ r.client.key = c.key
  stored : r.err = .none → r.sent ≠ [] ∧ ∃ raw m d cert key, u.reply = .bytes raw ∧
    answer lib c k raw = some (.none, m, d, cert, key) ∧ 1 ≤ cert.length ∧
    r.client.cert = some cert ∧
    r.client.key = if k = .keygen then some key else c.key

theorem attempt_early (lib : Lib) (k : Kind) (c : Client) (u : Up) (P : Up → Csr → Prop)
    (e : EstErr) (x : Csr) (h1 : e ≠ .none) (h2 : e ≠ .authFail) :
    Attempt lib k c u P ⟨e, c, x, []⟩ :=
  ⟨.inl rfl, Frame.rfl' c, fun _ => .inl ⟨rfl, h2⟩, fun _ _ => ⟨rfl, rfl⟩, fun h => absurd h h1⟩

theorem store_frame (lib : Lib) (c : Client) (k : Kind) (cert key : List Nat) :
    Frame c (store lib c k cert key).2 ∧ (store lib c k cert key).2.mode = c.mode ∧
      (store lib c k cert key).1 ≠ .authFail := by
  unfold store
  split
  · refine ⟨Frame.rfl' c, rfl, ?_⟩
    unfold checkSizes
    repeat' split
    all_goals simp
  · split
    · refine ⟨⟨rfl, rfl, rfl, rfl, rfl, rfl, rfl⟩, rfl, ?_⟩
      simp only; split <;> simp
    · exact ⟨⟨rfl, rfl, rfl, rfl, rfl, rfl, rfl⟩, rfl, by simp⟩

theorem store_kept (lib : Lib) (c : Client) (k : Kind) (cert key : List Nat)
    (h1 : (store lib c k cert key).1 ≠ .none) (h2 : (store lib c k cert key).1 ≠ .validation) :
    (store lib c k cert key).2 = c := by
  unfold store at *
  split
  · rfl
  · next h =>
    rw [if_neg h] at h1 h2
    split
    · next hk =>
      rw [if_pos hk] at h1 h2
      simp only at h1 h2
      split at h1 <;> simp_all
    · next hk =>
      rw [if_neg hk] at h1
      exact absurd rfl h1

theorem store_ok (lib : Lib) (c : Client) (k : Kind) (cert key : List Nat)
    (h : (store lib c k cert key).1 = .none) :
    1 ≤ cert.length ∧ (store lib c k cert key).2.cert = some cert ∧
      (store lib c k cert key).2.key = if k = .keygen then some key else c.key := by
  unfold store at *
  split at h
  · next hs => exact absurd h hs
  · next hs =>
    rw [if_neg hs]
    have hl : 1 ≤ cert.length := by
      simp only [ne_eq, Decidable.not_not] at hs
      unfold checkSizes at hs
      split at hs
      · contradiction
      · omega
    split
    · next hk => exact ⟨hl, rfl, rfl⟩
    · next hk => exact ⟨hl, rfl, rfl⟩

theorem enrollReq_spec (lib : Lib) (cfg : ClientReq.Cfg) (k : Kind) (c : Client) (u : Up)
    (csr : Csr) (P : Up → Csr → Prop) (hp : P u csr) (r : Res)
    (h : enrollReq lib cfg k c u csr = some r) : Attempt lib k c u P r ∧ r.csr = csr := by
  unfold enrollReq at h
  split at h
  · contradiction
  · injection h with h; subst h
    exact ⟨attempt_early _ _ _ _ _ _ _ (by simp) (by simp), rfl⟩
  · next b _ =>
    have hs : From k c.mode u P c ⟨k.uri, authOf u c.mode, some csr, b, c.trust⟩ :=
      ⟨rfl, rfl, rfl, csr, rfl, hp⟩
    simp only at h
    split at h
    · injection h with h; subst h
      exact ⟨⟨.inr ⟨_, rfl, hs⟩, Frame.rfl' c, fun _ => .inl ⟨rfl, by simp⟩, fun _ _ => ⟨rfl, rfl⟩,
        by simp⟩, rfl⟩
    · injection h with h; subst h
      exact ⟨⟨.inr ⟨_, rfl, hs⟩, Frame.rfl' c, fun _ => .inl ⟨rfl, by simp⟩, fun _ _ => ⟨rfl, rfl⟩,
        by simp⟩, rfl⟩
    · injection h with h; subst h
      exact ⟨⟨.inr ⟨_, rfl, hs⟩, Frame.rfl' c, fun _ => .inl ⟨rfl, by simp⟩, fun _ _ => ⟨rfl, rfl⟩,
        by simp⟩, rfl⟩
    · next raw hu =>
      split at h
      · contradiction
      · next e m d cert key ha =>
        split at h
        · next he =>
          subst he
          injection h with h; subst h
          have sf := store_frame lib { c with mode := m, delay := d } k cert key
          refine ⟨⟨.inr ⟨_, rfl, hs⟩, ?_, ?_, ?_, ?_⟩, rfl⟩
          · exact Frame.trans (b := { c with mode := m, delay := d })
              ⟨rfl, rfl, rfl, rfl, rfl, rfl, rfl⟩ sf.1
          · intro hask
            simp only [sf.2.1] at hask ⊢
            rcases answer_mode lib c k u raw hu _ _ _ _ _ ha hask with q | q
            · exact .inl ⟨q.1, sf.2.2⟩
            · exact absurd rfl q.2.2
          · intro h1 h2
            simp only at h1 h2 ⊢
            rw [store_kept lib _ k cert key h1 h2]
            exact ⟨rfl, rfl⟩
          · intro h1
            have so := store_ok lib { c with mode := m, delay := d } k cert key h1
            exact ⟨by simp, raw, m, d, cert, key, hu, ha, so.1, so.2.1, so.2.2⟩
        · next he =>
          injection h with h; subst h
          refine ⟨⟨.inr ⟨_, rfl, hs⟩, ⟨rfl, rfl, rfl, rfl, rfl, rfl, rfl⟩, ?_, ?_, ?_⟩, rfl⟩
          · intro hask
            rcases answer_mode lib c k u raw hu _ _ _ _ _ ha hask with q | q
            · exact .inl q
            · exact .inr ⟨q.1, q.2.1, by simp⟩
          · exact fun _ _ => ⟨rfl, rfl⟩
          · exact fun h1 => absurd h1 he

/-! ## The attributes of the request -/

/-- The attributes other than challengePassword, in order. -/
def plain (as : List Attr) : List Attr := as.filter (fun a => !a.isChal)

theorem plain_eraseIdx (as : List Attr) (i : Nat) (h : as.findIdx? Attr.isChal = some i) :
    plain (as.eraseIdx i) = plain as ∧ (as.eraseIdx i).length + 1 = as.length := by
  induction as generalizing i with
  | nil => simp at h
  | cons a as ih =>
    rw [List.findIdx?_cons] at h
    cases ha : a.isChal with
    | true =>
      rw [ha] at h
      simp only [if_true, Option.some.injEq] at h
      subst h
      exact ⟨by simp [plain, ha], by simp⟩
    | false =>
      rw [ha] at h
      simp only [Bool.false_eq_true, if_false, Option.map_eq_some_iff] at h
      obtain ⟨j, hj, rfl⟩ := h
      obtain ⟨h1, h2⟩ := ih j hj
      refine ⟨?_, by simp only [List.eraseIdx_cons_succ, List.length_cons]; omega⟩
      simp only [List.eraseIdx_cons_succ, plain, List.filter_cons, ha] at *
      simp [h1]

theorem plain_of_none (as : List Attr) (h : as.findIdx? Attr.isChal = none) : plain as = as := by
  unfold plain
  rw [List.filter_eq_self]
  intro a ha
  rw [List.findIdx?_eq_none_iff] at h
  simp [h a ha]

theorem clearLoop_eq (n : Nat) (as : List Attr) (h : as.length ≤ n) : clearLoop n as = plain as := by
  induction n generalizing as with
  | zero =>
    have : as = [] := List.eq_nil_of_length_eq_zero (by omega)
    subst this; rfl
  | succ n ih =>
    unfold clearLoop
    split
    · next h0 => exact (plain_of_none as h0).symm
    · next i h0 =>
      obtain ⟨h1, h2⟩ := plain_eraseIdx as i h0
      rw [ih _ (by omega), h1]

theorem clearPop_eq (as : List Attr) : clearPop as = plain as := clearLoop_eq _ _ (Nat.le_refl _)

theorem plain_plain (as : List Attr) : plain (plain as) = plain as := by
  simp [plain]

/-- The attributes that are to be sent: the old ones without any challengePassword, and, if it
is wanted, the id of this connection as the only challengePassword. -/
def Wanted (pop : Bool) (base : Nat) (old : List Attr) (key : Nat) (u : Up) (x : Csr) : Prop :=
  ∃ extra, (if pop then ∃ id, u.uid = some id ∧ extra = [Attr.chal id] else extra = []) ∧
    x.base = base ∧ x.attrs = plain old ++ extra ∧ x.sig = some (key, x.attrs)

theorem enrollPkcs10_spec (lib : Lib) (cfg : ClientReq.Cfg) (k : Kind) (key : Nat) (c : Client)
    (u : Up) (csr : Csr) (r : Res) (h : enrollPkcs10 lib cfg k key c u csr = some r) :
    Attempt lib k c u (Wanted (c.popReq || c.forcePop) csr.base csr.attrs key) r ∧
      r.csr.base = csr.base ∧ plain r.csr.attrs = plain csr.attrs := by
  unfold enrollPkcs10 at h
  simp only [clearPop_eq] at h
  cases hpop : (c.popReq || c.forcePop) with
  | true =>
    simp only [hpop, if_true] at h
    split at h
    · injection h with h; subst h
      exact ⟨attempt_early _ _ _ _ _ _ _ (by simp) (by simp), rfl, plain_plain _⟩
    · next id hid =>
      split at h
      · injection h with h; subst h
        exact ⟨attempt_early _ _ _ _ _ _ _ (by simp) (by simp), rfl, plain_plain _⟩
      · have hq : plain (plain csr.attrs ++ [Attr.chal id]) = plain csr.attrs := by
          simp [plain, Attr.isChal]
        split at h
        · injection h with h; subst h
          exact ⟨attempt_early _ _ _ _ _ _ _ (by simp) (by simp), rfl, hq⟩
        · have := enrollReq_spec lib cfg k c u
            (sign { csr with attrs := plain csr.attrs ++ [Attr.chal id] } key)
            (Wanted true csr.base csr.attrs key)
            ⟨[.chal id], by simpa using hid, rfl, rfl, rfl⟩ r h
          refine ⟨this.1, by rw [this.2]; rfl, ?_⟩
          rw [this.2]; exact hq
  | false =>
    simp only [hpop, Bool.false_eq_true, if_false] at h
    split at h
    · injection h with h; subst h
      exact ⟨attempt_early _ _ _ _ _ _ _ (by simp) (by simp), rfl, plain_plain _⟩
    · have := enrollReq_spec lib cfg k c u (sign { csr with attrs := plain csr.attrs } key)
        (Wanted false csr.base csr.attrs key) ⟨[], by simp, rfl, by simp [sign], rfl⟩ r h
      refine ⟨this.1, by rw [this.2]; rfl, ?_⟩
      rw [this.2]; exact plain_plain _

theorem enrollCn_spec (lib : Lib) (cfg : ClientReq.Cfg) (k : Kind) (base key : Nat) (c : Client)
    (u : Up) (csr : Csr) (r : Res) (h : enrollCn lib cfg k base key c u csr = some r) :
    Attempt lib k c u (Wanted (c.popReq || c.forcePop) base [] key) r := by
  unfold enrollCn at h
  split at h
  · injection h with h; subst h
    exact attempt_early _ _ _ _ _ _ _ (by simp) (by simp)
  · next id hid =>
    split at h
    · next e he =>
      injection h with h; subst h
      have : e ≠ .none ∧ e ≠ .authFail := by
        simp only [generate] at he
        repeat' split at he
        all_goals first | (injection he with he; subst he; simp) | contradiction
      exact attempt_early _ _ _ _ _ _ _ this.1 this.2
    · next csr' he =>
      refine (enrollReq_spec lib cfg k c u _ _ ?_ r h).1
      unfold generate at he
      split at he
      · contradiction
      · split at he
        · contradiction
        · simp only at he
          split at he
          · contradiction
          · split at he
            · contradiction
            · split at he
              · contradiction
              · injection he with he; subst he
                cases hpop : (c.popReq || c.forcePop) with
                | true => exact ⟨[.chal id], by simpa using hid, rfl, rfl, rfl⟩
                | false => exact ⟨[], by simp, rfl, rfl, rfl⟩

/-! ## The two attempts of an operation -/

/-- The requests of one operation: none; one, made on the first connection in the mode of the
context; or two, the second made on the second connection in the mode that the challenge on the
first one asked for. -/
def Requests (lib : Lib) (k : Kind) (net : Conn × Conn) (c : Client) (P : Up → Csr → Prop)
    (sent : List Sent) : Prop :=
  sent = [] ∨
  (∃ u s, net.1 = .up u ∧ sent = [s] ∧ From k c.mode u P c s) ∨
  (∃ u1 u2 m s1 s2, net.1 = .up u1 ∧ net.2 = .up u2 ∧ ¬ Asked c.mode ∧ Asked m ∧
    Challenged lib (.up u1) m ∧ sent = [s1, s2] ∧ From k c.mode u1 P c s1 ∧ From k m u2 P c s2)

structure Outcome (lib : Lib) (k : Kind) (net : Conn × Conn) (c : Client) (P : Up → Csr → Prop)
    (r : Res) (j : Bool) : Prop where
  sent : Requests lib k net c P r.sent
  frame : Frame c r.client
  mode : Asked r.client.mode → r.client.mode = c.mode ∨
    ∃ n, (n = net.1 ∨ n = net.2) ∧ Challenged lib n r.client.mode
  kept : r.err ≠ .none → r.err ≠ .validation → r.client.cert = c.cert ∧ r.client.key = c.key
  stored : r.err = .none → ∃ u raw c1 m d cert key, (net.1 = .up u ∨ net.2 = .up u) ∧
    r.sent ≠ [] ∧ u.reply = .bytes raw ∧ answer lib c1 k raw = some (.none, m, d, cert, key) ∧
    1 ≤ cert.length ∧ r.client.cert = some cert ∧
    r.client.key = if k = .keygen then some key else c.key
  jumped : j = true → r.err ≠ .none

theorem connErr_ne (e : ConnErr) : e.err ≠ .none ∧ e.err ≠ .validation := by
  cases e <;> simp [ConnErr.err]

theorem twice_spec (lib : Lib) (k : Kind) (fips : Bool) (net : Conn × Conn)
    (attempt : Client → Up → Csr → Option Res) (c : Client) (csr : Csr) (P : Up → Csr → Prop)
    (I : Csr → Prop) (hI : I csr)
    (hA : ∀ c' u x r, Frame c c' → I x → attempt c' u x = some r →
      Attempt lib k c' u P r ∧ I r.csr)
    (r : Res) (j : Bool) (h : twice fips net attempt c csr = some (r, j)) :
    Outcome lib k net c P r j ∧ I r.csr := by
  unfold twice at h
  split at h
  · next e hn =>
    simp only [Option.some.injEq, Prod.mk.injEq] at h
    obtain ⟨rfl, rfl⟩ := h
    exact ⟨⟨.inl rfl, Frame.rfl' c, fun _ => .inl rfl, fun _ _ => ⟨rfl, rfl⟩,
      fun h => absurd h (connErr_ne e).1, fun _ => (connErr_ne e).1⟩, hI⟩
  · next u hn =>
    split at h
    · contradiction
    · next r1 h1 =>
      obtain ⟨a1, i1⟩ := hA c u csr r1 (Frame.rfl' c) hI h1
      have hmode : Asked r1.client.mode → r1.client.mode = c.mode ∨
          ∃ n, (n = net.1 ∨ n = net.2) ∧ Challenged lib n r1.client.mode := by
        intro ha
        rcases a1.mode ha with q | q
        · exact .inl q.1
        · exact .inr ⟨.up u, .inl hn.symm, q.2.1⟩
      have hsent : Requests lib k net c P r1.sent := by
        rcases a1.sent with q | ⟨s, q1, q2⟩
        · exact .inl q
        · exact .inr (.inl ⟨u, s, hn, q1, q2⟩)
      split at h
      · next hc =>
        have hkept := a1.kept (by rw [hc.1]; simp) (by rw [hc.1]; simp)
        split at h
        · simp only [Option.some.injEq, Prod.mk.injEq] at h
          obtain ⟨rfl, rfl⟩ := h
          exact ⟨⟨hsent, a1.frame, hmode, fun _ _ => hkept, by simp, by simp⟩, i1⟩
        · split at h
          · next e _ =>
            simp only [Option.some.injEq, Prod.mk.injEq] at h
            obtain ⟨rfl, rfl⟩ := h
            exact ⟨⟨hsent, a1.frame, hmode, fun _ _ => hkept,
              fun h => absurd h (connErr_ne e).1, fun _ => (connErr_ne e).1⟩, i1⟩
          · next u2 hn2 =>
            split at h
            · contradiction
            · next r2 h2 =>
              simp only [Option.some.injEq, Prod.mk.injEq] at h
              obtain ⟨rfl, rfl⟩ := h
              obtain ⟨a2, i2⟩ := hA r1.client u2 r1.csr r2 a1.frame i1 h2
              refine ⟨⟨?_, a1.frame.trans a2.frame, ?_, ?_, ?_, by simp⟩, i2⟩
              · rcases a1.mode hc.2 with q | ⟨q1, q2, q3⟩
                · exact absurd hc.1 q.2
                · rcases a1.sent with w | ⟨s, w1, w2⟩
                  · exact absurd w q3
                  · rcases a2.sent with v | ⟨s', v1, v2⟩
                    · refine .inr (.inl ⟨u, s, hn, ?_, w2⟩)
                      simp [w1, v]
                    · refine .inr (.inr ⟨u, u2, r1.client.mode, s, s', hn, hn2, q1, hc.2, q2, ?_, w2,
                        ?_⟩)
                      · simp [w1, v1]
                      · obtain ⟨z1, z2, z3, z4⟩ := v2
                        exact ⟨z1, z2, z3.trans a1.frame.trust, z4⟩
              · intro ha
                rcases a2.mode ha with q | q
                · have ha' : Asked r1.client.mode := by rw [← q.1]; exact ha
                  simp only [q.1]
                  exact hmode ha'
                · exact .inr ⟨.up u2, .inr hn2.symm, q.2.1⟩
              · intro p1 p2
                have := a2.kept p1 p2
                exact ⟨this.1.trans hkept.1, this.2.trans hkept.2⟩
              · intro p1
                obtain ⟨n2, raw, m, d, cert, key, p2, p3, p4, p5, p6⟩ := a2.stored p1
                refine ⟨u2, raw, r1.client, m, d, cert, key, .inr hn2, ?_, p2, p3, p4, p5, ?_⟩
                · simp [n2]
                · rw [hkept.2] at p6
                  exact p6
      · simp only [Option.some.injEq, Prod.mk.injEq] at h
        obtain ⟨rfl, rfl⟩ := h
        refine ⟨⟨hsent, a1.frame, hmode, a1.kept, ?_, by simp⟩, i1⟩
        intro p1
        obtain ⟨n1, raw, m, d, cert, key, p2, p3, p4, p5, p6⟩ := a1.stored p1
        exact ⟨u, raw, c, m, d, cert, key, .inl hn, n1, p2, p3, p4, p5, p6⟩

/-! ## Operations -/

/-- The connections of the enrolment operations. -/
def Cmd.net? : Cmd → Option (Conn × Conn)
  | .enroll _ _ n => some n
  | .keygenEnroll _ _ n => some n
  | .reenroll _ _ n => some n
  | .enrollCsr _ _ n => some n
  | .keygenCsr _ _ n => some n
  | _ => none

/-- All connections of a command. -/
def Cmd.conns : Cmd → List Conn
  | .enroll _ _ n => [n.1, n.2]
  | .keygenEnroll _ _ n => [n.1, n.2]
  | .reenroll _ _ n => [n.1, n.2]
  | .enrollCsr _ _ n => [n.1, n.2]
  | .keygenCsr _ _ n => [n.1, n.2]
  | .provision _ _ n1 n2 n => [n1, n2, n.1, n.2]
  | .getCacerts n => [n]
  | .getCsrattrs n => [n]
  | _ => []

def Cmd.kind : Cmd → Kind
  | .keygenEnroll .. => .keygen
  | .keygenCsr .. => .keygen
  | .reenroll .. => .reenroll
  | _ => .enroll

/-- The certificate requests that may be sent. -/
def Cmd.csr (c : Client) : Cmd → Up → Csr → Prop
  | .enroll b (some key) _ => Wanted (c.popReq || c.forcePop) b [] key
  | .keygenEnroll b (some key) _ => Wanted (c.popReq || c.forcePop) b [] key
  | .reenroll (some ⟨_, some x, _, _⟩) (some (key, _)) _ =>
    Wanted (c.popReq || c.forcePop) x.base x.attrs key
  | .enrollCsr (some x) (some key) _ => Wanted (c.popReq || c.forcePop) x.base x.attrs key
  | .enrollCsr (some x) none _ => fun _ y => y = x
  | .keygenCsr (some x) (some key) _ => Wanted (c.popReq || c.forcePop) x.base x.attrs key
  | _ => fun _ _ => False

/-- An enrolment either stops at once, or is the two attempts. -/
def Done (lib : Lib) (c : Client) (cmd : Cmd) (net : Conn × Conn) (ret : Ret) (c' : Client) :
    Prop :=
  (ret.sent = [] ∧ c' = c ∧ (ret.err ≠ .none ∨ ∃ o k n, cmd = .reenroll (some o) k n ∧ o.extsOk = false) ∧
    ret.err ≠ .validation) ∨
  (c.ready = true ∧ ∃ r j, Outcome lib cmd.kind net c (cmd.csr c) r j ∧ ret.err = r.err ∧ ret.sent = r.sent ∧
    (c' = r.client ∨ c' = { r.client with mode := .none }) ∧
    ((∃ b k n, cmd = .enroll b k n ∨ cmd = .keygenEnroll b k n) → r.err = .none → c'.mode = .none))

theorem frame_pop {c c' : Client} (f : Frame c c') :
    (c'.popReq || c'.forcePop) = (c.popReq || c.forcePop) := by
  rw [f.popReq, f.forcePop]

theorem wanted_congr {pop : Bool} {b : Nat} {a a' : List Attr} {key : Nat} (h : plain a' = plain a) :
    Wanted pop b a' key = Wanted pop b a key := by
  funext u x
  unfold Wanted
  rw [h]

theorem pkcs10_twice (lib : Lib) (cfg : ClientReq.Cfg) (k : Kind) (key : Nat) (net : Conn × Conn)
    (c : Client) (csr : Csr) (r : Res) (j : Bool)
    (h : twice lib.fips net (enrollPkcs10 lib cfg k key) c csr = some (r, j)) :
    Outcome lib k net c (Wanted (c.popReq || c.forcePop) csr.base csr.attrs key) r j ∧
      r.csr.base = csr.base ∧ plain r.csr.attrs = plain csr.attrs := by
  refine twice_spec lib k lib.fips net _ c csr _
    (fun x => x.base = csr.base ∧ plain x.attrs = plain csr.attrs) ⟨rfl, rfl⟩ ?_ r j h
  intro c' u x r f hx hr
  have := enrollPkcs10_spec lib cfg k key c' u x r hr
  rw [frame_pop f, hx.1, wanted_congr hx.2] at this
  exact ⟨this.1, this.2.1, this.2.2.trans hx.2⟩

theorem cn_twice (lib : Lib) (cfg : ClientReq.Cfg) (k : Kind) (base key : Nat) (net : Conn × Conn)
    (c : Client) (csr : Csr) (r : Res) (j : Bool)
    (h : twice lib.fips net (enrollCn lib cfg k base key) c csr = some (r, j)) :
    Outcome lib k net c (Wanted (c.popReq || c.forcePop) base [] key) r j := by
  refine (twice_spec lib k lib.fips net _ c csr _ (fun _ => True) trivial ?_ r j h).1
  intro c' u x r f hx hr
  have := enrollCn_spec lib cfg k base key c' u x r hr
  rw [frame_pop f] at this
  exact ⟨this, trivial⟩

theorem req_twice (lib : Lib) (cfg : ClientReq.Cfg) (k : Kind) (net : Conn × Conn)
    (c : Client) (csr : Csr) (r : Res) (j : Bool)
    (h : twice lib.fips net (enrollReq lib cfg k) c csr = some (r, j)) :
    Outcome lib k net c (fun _ y => y = csr) r j ∧ r.csr = csr := by
  refine twice_spec lib k lib.fips net _ c csr _ (fun x => x = csr) rfl ?_ r j h
  intro c' u x r f hx hr
  subst hx
  exact enrollReq_spec lib cfg k c' u x _ rfl r hr

theorem enroll_done (lib : Lib) (cfg : ClientReq.Cfg) (k : Kind) (cmd : Cmd) (base : Nat)
    (key : Option Nat) (net : Conn × Conn) (c : Client) (ret : Ret) (c' : Client)
    (h : enroll lib cfg k base key net c = some (ret, c')) (hk : cmd.kind = k)
    (hcsr : ∀ key', key = some key' →
      cmd.csr c = Wanted (c.popReq || c.forcePop) base [] key') :
    Done lib c cmd net ret c' := by
  unfold enroll at h
  split at h
  · simp only [refuse, Option.some.injEq, Prod.mk.injEq] at h
    obtain ⟨rfl, rfl⟩ := h
    exact .inl ⟨rfl, rfl, .inl (by simp), by simp⟩
  · next hr =>
    split at h
    · simp only [refuse, Option.some.injEq, Prod.mk.injEq] at h
      obtain ⟨rfl, rfl⟩ := h
      exact .inl ⟨rfl, rfl, .inl (by simp), by simp⟩
    · next key' =>
      split at h
      · contradiction
      · next r j ht =>
        simp only [Option.some.injEq, Prod.mk.injEq] at h
        obtain ⟨rfl, rfl⟩ := h
        have o := cn_twice lib cfg k base key' net c _ r j ht
        refine .inr ⟨by simpa using hr, r, j, ?_, rfl, rfl, ?_, ?_⟩
        · rw [hk, hcsr key' rfl]; exact o
        · cases j
          · exact .inr rfl
          · exact .inl rfl
        · intro _ he
          cases j
          · rfl
          · exact absurd he (o.jumped rfl)

theorem step_done (lib : Lib) (cfg : ClientReq.Cfg) (c : Client) (cmd : Cmd) (net : Conn × Conn)
    (hn : cmd.net? = some net) (ret : Ret) (c' : Client)
    (h : step lib cfg c cmd = some (ret, c')) : Done lib c cmd net ret c' := by
  cases cmd with
  | enroll b k n =>
    simp only [Cmd.net?, Option.some.injEq] at hn; subst hn
    exact enroll_done lib cfg .enroll _ b k n c ret c' h rfl (by rintro _ rfl; rfl)
  | keygenEnroll b k n =>
    simp only [Cmd.net?, Option.some.injEq] at hn; subst hn
    exact enroll_done lib cfg .keygen _ b k n c ret c' h rfl (by rintro _ rfl; rfl)
  | reenroll o k n =>
    simp only [Cmd.net?, Option.some.injEq] at hn; subst hn
    simp only [step, reenroll] at h
    split at h
    · simp only [refuse, Option.some.injEq, Prod.mk.injEq] at h
      obtain ⟨rfl, rfl⟩ := h
      exact .inl ⟨rfl, rfl, .inl (by simp), by simp⟩
    · simp only [refuse, Option.some.injEq, Prod.mk.injEq] at h
      obtain ⟨rfl, rfl⟩ := h
      exact .inl ⟨rfl, rfl, .inl (by simp), by simp⟩
    · next o key fits =>
      split at h
      · simp only [refuse, Option.some.injEq, Prod.mk.injEq] at h
        obtain ⟨rfl, rfl⟩ := h
        exact .inl ⟨rfl, rfl, .inl (by simp), by simp⟩
      · next hr =>
        split at h
        · simp only [refuse, Option.some.injEq, Prod.mk.injEq] at h
          obtain ⟨rfl, rfl⟩ := h
          exact .inl ⟨rfl, rfl, .inl (by simp), by simp⟩
        · split at h
          · simp only [refuse, Option.some.injEq, Prod.mk.injEq] at h
            obtain ⟨rfl, rfl⟩ := h
            exact .inl ⟨rfl, rfl, .inl (by simp), by simp⟩
          · split at h
            · simp only [refuse, Option.some.injEq, Prod.mk.injEq] at h
              obtain ⟨rfl, rfl⟩ := h
              exact .inl ⟨rfl, rfl, .inl (by simp), by simp⟩
            · next x hx =>
              split at h
              · next he =>
                simp only [refuse, Option.some.injEq, Prod.mk.injEq] at h
                obtain ⟨rfl, rfl⟩ := h
                exact .inl ⟨rfl, rfl, .inr ⟨o, _, n, rfl, by simp_all⟩, by simp⟩
              · split at h
                · contradiction
                · next r j ht =>
                  simp only [Option.some.injEq, Prod.mk.injEq] at h
                  obtain ⟨rfl, rfl⟩ := h
                  obtain ⟨s, x', e1, e2⟩ := o
                  simp only at hx
                  subst hx
                  exact .inr ⟨by simpa using hr, r, j,
                    (pkcs10_twice lib cfg .reenroll key n c x r j ht).1, rfl, rfl, .inl rfl,
                    by simp⟩
  | enrollCsr x k n =>
    simp only [Cmd.net?, Option.some.injEq] at hn; subst hn
    simp only [step, enrollCsr] at h
    split at h
    · next q => simp at q
    · split at h
      · simp only [refuse, Option.some.injEq, Prod.mk.injEq] at h
        obtain ⟨rfl, rfl⟩ := h
        exact .inl ⟨rfl, rfl, .inl (by simp), by simp⟩
      · next x =>
        split at h
        · simp only [refuse, Option.some.injEq, Prod.mk.injEq] at h
          obtain ⟨rfl, rfl⟩ := h
          exact .inl ⟨rfl, rfl, .inl (by simp), by simp⟩
        · next hr =>
          split at h
          · contradiction
          · next r j ht =>
            simp only [Option.some.injEq, Prod.mk.injEq] at h
            obtain ⟨rfl, rfl⟩ := h
            refine .inr ⟨by simpa using hr, r, j, ?_, rfl, rfl, .inl rfl, by simp⟩
            cases k with
            | some key => exact (pkcs10_twice lib cfg .enroll key n c x r j ht).1
            | none => exact (req_twice lib cfg .enroll n c x r j ht).1
  | keygenCsr x k n =>
    simp only [Cmd.net?, Option.some.injEq] at hn; subst hn
    simp only [step, enrollCsr] at h
    split at h
    · simp only [refuse, Option.some.injEq, Prod.mk.injEq] at h
      obtain ⟨rfl, rfl⟩ := h
      exact .inl ⟨rfl, rfl, .inl (by simp), by simp⟩
    · next hk =>
      split at h
      · simp only [refuse, Option.some.injEq, Prod.mk.injEq] at h
        obtain ⟨rfl, rfl⟩ := h
        exact .inl ⟨rfl, rfl, .inl (by simp), by simp⟩
      · next x =>
        split at h
        · simp only [refuse, Option.some.injEq, Prod.mk.injEq] at h
          obtain ⟨rfl, rfl⟩ := h
          exact .inl ⟨rfl, rfl, .inl (by simp), by simp⟩
        · next hr =>
          split at h
          · contradiction
          · next r j ht =>
            simp only [Option.some.injEq, Prod.mk.injEq] at h
            obtain ⟨rfl, rfl⟩ := h
            refine .inr ⟨by simpa using hr, r, j, ?_, rfl, rfl, .inl rfl, by simp⟩
            cases k with
            | some key => exact (pkcs10_twice lib cfg .keygen key n c x r j ht).1
            | none => simp at hk
  | _ => simp [Cmd.net?] at hn

/-! ## What every call leaves alone -/

/-- A call (or several) on these connections: the mode afterwards, the trust anchors, the
requests. -/
structure Gen (lib : Lib) (conns : List Conn) (c c' : Client) (sent : List Sent) : Prop where
  mode : Asked c'.mode → c'.mode = c.mode ∨ ∃ n ∈ conns, Challenged lib n c'.mode
  trust : c'.trust = c.trust
  sent : ∀ s ∈ sent, s.trust = c.trust ∧
    (s.auth ≠ .none → Asked c.mode ∨ ∃ n ∈ conns, ∃ m, Asked m ∧ Challenged lib n m)

theorem Gen.same (lib : Lib) (conns : List Conn) (c c' : Client) (hm : c'.mode = c.mode)
    (ht : c'.trust = c.trust) : Gen lib conns c c' [] :=
  ⟨fun _ => .inl hm, ht, by simp⟩

theorem Gen.trans {lib : Lib} {a b : List Conn} {c c1 c2 : Client} {s1 s2 : List Sent}
    (h : Gen lib a c c1 s1) (g : Gen lib b c1 c2 s2) : Gen lib (a ++ b) c c2 (s1 ++ s2) := by
  have hm : Asked c1.mode → Asked c.mode ∨ ∃ n ∈ a ++ b, ∃ m, Asked m ∧ Challenged lib n m := by
    intro q
    rcases h.mode q with w | ⟨n, hn, w⟩
    · exact .inl (w ▸ q)
    · exact .inr ⟨n, by simp [hn], _, q, w⟩
  refine ⟨?_, g.trust.trans h.trust, ?_⟩
  · intro q
    rcases g.mode q with w | ⟨n, hn, w⟩
    · rw [w] at q ⊢
      rcases h.mode q with w' | ⟨n, hn, w'⟩
      · exact .inl w'
      · exact .inr ⟨n, by simp [hn], w'⟩
    · exact .inr ⟨n, by simp [hn], w⟩
  · intro s hs
    rcases List.mem_append.1 hs with hs | hs
    · have := h.sent s hs
      refine ⟨this.1, fun q => ?_⟩
      rcases this.2 q with w | ⟨n, hn, w⟩
      · exact .inl w
      · exact .inr ⟨n, by simp [hn], w⟩
    · have := g.sent s hs
      refine ⟨this.1.trans h.trust, fun q => ?_⟩
      rcases this.2 q with w | ⟨n, hn, w⟩
      · exact hm w
      · exact .inr ⟨n, by simp [hn], w⟩

theorem authOf_asked {u : Up} {m : Mode} (h : authOf u m ≠ .none) : Asked m := by
  cases m <;> simp_all [authOf, Asked]

theorem authOf_eq {u : Up} {m : Mode} : authOf u m = if Asked m then u.auth m else .none := by
  cases m <;> simp [authOf, Asked]

theorem requests_gen {lib : Lib} {k : Kind} {net : Conn × Conn} {c : Client}
    {P : Up → Csr → Prop} {sent : List Sent} (h : Requests lib k net c P sent) (s : Sent)
    (hs : s ∈ sent) : s.trust = c.trust ∧
    (s.auth ≠ .none → Asked c.mode ∨ ∃ n ∈ [net.1, net.2], ∃ m, Asked m ∧ Challenged lib n m) := by
  rcases h with h | ⟨u, s', hn, h, f⟩ | ⟨u1, u2, m, s1, s2, hn1, hn2, ha, hm, hc, h, f1, f2⟩
  · subst h; simp at hs
  · subst h
    simp only [List.mem_singleton] at hs
    subst hs
    exact ⟨f.2.2.1, fun q => .inl (authOf_asked (by rw [← f.2.1]; exact q))⟩
  · subst h
    simp only [List.mem_cons, List.not_mem_nil, or_false] at hs
    rcases hs with rfl | rfl
    · exact ⟨f1.2.2.1, fun q => .inl (authOf_asked (by rw [← f1.2.1]; exact q))⟩
    · exact ⟨f2.2.2.1, fun q => .inr ⟨net.1, by simp, m, hm, hn1 ▸ hc⟩⟩

theorem done_gen {lib : Lib} {c : Client} {cmd : Cmd} {net : Conn × Conn} {ret : Ret} {c' : Client}
    (h : Done lib c cmd net ret c') : Gen lib [net.1, net.2] c c' ret.sent := by
  rcases h with ⟨h1, h2, -, -⟩ | ⟨-, r, j, o, -, h2, h3, -⟩
  · rw [h1, h2]; exact Gen.same _ _ _ _ rfl rfl
  · rw [h2]
    refine ⟨?_, ?_, fun s hs => requests_gen o.sent s hs⟩
    · rcases h3 with h3 | h3 <;> subst h3
      · intro q
        rcases o.mode q with w | ⟨n, w, w'⟩
        · exact .inl w
        · exact .inr ⟨n, by rcases w with w | w <;> simp [w], w'⟩
      · intro q; exact absurd q (by simp [Asked])
    · rcases h3 with h3 | h3 <;> subst h3 <;> exact o.frame.trust

theorem fetch_spec (lib : Lib) (cfg : ClientReq.Cfg) (uri : EstUri.Op) (op : ClientResp.Op)
    (c : Client) (u : Up) (e : EstErr) (body : Option (List Nat)) (c' : Client) (sent : List Sent)
    (h : fetch lib cfg uri op c u = some (e, body, c', sent)) :
    (∃ m d, c' = { c with mode := m, delay := d }) ∧ Gen lib [.up u] c c' sent ∧
      (e = .none → ∃ raw, u.reply = .bytes raw ∧ sent ≠ [] ∧
        (getResponse lib.tokensOk ⟨c.mode, c.delay⟩ op raw).err = .none ∧
        (getResponse lib.tokensOk ⟨c.mode, c.delay⟩ op raw).body = body) := by
  unfold fetch at h
  split at h
  · contradiction
  · simp only [Option.some.injEq, Prod.mk.injEq] at h
    obtain ⟨rfl, rfl, rfl, rfl⟩ := h
    exact ⟨⟨c.mode, c.delay, rfl⟩, Gen.same _ _ _ _ rfl rfl, by simp⟩
  · next b _ =>
    have hs : ∀ s ∈ [(⟨uri, if uri = .csrattrs then authOf u c.mode else .none, none, b, c.trust⟩ : Sent)],
        s.trust = c.trust ∧ (s.auth ≠ .none → Asked c.mode ∨
          ∃ n ∈ [Conn.up u], ∃ m, Asked m ∧ Challenged lib n m) := by
      intro s hs
      simp only [List.mem_singleton] at hs
      subst hs
      refine ⟨rfl, fun q => .inl ?_⟩
      simp only at q
      split at q
      · exact authOf_asked q
      · simp at q
    simp only at h
    split at h
    · simp only [Option.some.injEq, Prod.mk.injEq] at h
      obtain ⟨rfl, rfl, rfl, rfl⟩ := h
      exact ⟨⟨c.mode, c.delay, rfl⟩, ⟨fun _ => .inl rfl, rfl, hs⟩, by simp⟩
    · simp only [Option.some.injEq, Prod.mk.injEq] at h
      obtain ⟨rfl, rfl, rfl, rfl⟩ := h
      exact ⟨⟨c.mode, c.delay, rfl⟩, ⟨fun _ => .inl rfl, rfl, hs⟩, by simp⟩
    · simp only [Option.some.injEq, Prod.mk.injEq] at h
      obtain ⟨rfl, rfl, rfl, rfl⟩ := h
      exact ⟨⟨c.mode, c.delay, rfl⟩, ⟨fun _ => .inl rfl, rfl, hs⟩, by simp⟩
    · next raw hu =>
      simp only [Option.some.injEq, Prod.mk.injEq] at h
      obtain ⟨h1, h2, rfl, rfl⟩ := h
      refine ⟨⟨_, _, rfl⟩, ⟨?_, rfl, hs⟩, ?_⟩
      · intro q
        rcases getResponse_mode lib ⟨c.mode, c.delay⟩ op u raw hu _ rfl q with w | w
        · exact .inl w.1
        · exact .inr ⟨.up u, by simp, w.2.1⟩
      · intro he
        exact ⟨raw, hu, by simp, h1.trans he, h2⟩

theorem storeCacerts_spec (lib : Lib) (c : Client) (t : List Nat) :
    ∃ ca, (storeCacerts lib c t).2 = { c with cacerts := ca } ∧
      ((storeCacerts lib c t).1 = .none → t ≠ [] ∧ ∃ t', lib.verify t = .ok t' ∧ ca = some t') := by
  unfold storeCacerts
  split
  · exact ⟨c.cacerts, rfl, by simp⟩
  · next h0 =>
    split
    · exact ⟨c.cacerts, rfl, by simp⟩
    · split
      · next e _ => exact ⟨none, rfl, by cases e <;> simp [CaErr.err]⟩
      · next t' h => exact ⟨some t', rfl, fun _ => ⟨by rintro rfl; simp at h0, t', h, rfl⟩⟩

theorem getCacerts_spec (lib : Lib) (cfg : ClientReq.Cfg) (net : Conn) (c : Client) (ret : Ret)
    (c' : Client) (h : getCacerts lib cfg net c = some (ret, c')) :
    (∃ m d ca, c' = { c with mode := m, delay := d, cacerts := ca }) ∧
      Gen lib [net] c c' ret.sent ∧
      (ret.err = .none → c.ready = true ∧ ∃ u raw t t', net = .up u ∧ u.reply = .bytes raw ∧
        (getResponse lib.tokensOk ⟨c.mode, c.delay⟩ .cacerts raw).body = some t ∧
        lib.verify t = .ok t' ∧ c'.cacerts = some t') := by
  unfold getCacerts at h
  split at h
  · simp only [refuse, Option.some.injEq, Prod.mk.injEq] at h
    obtain ⟨rfl, rfl⟩ := h
    exact ⟨⟨_, _, _, rfl⟩, Gen.same _ _ _ _ rfl rfl, by simp⟩
  · next hr =>
    split at h
    · next e =>
      simp only [refuse, Option.some.injEq, Prod.mk.injEq] at h
      obtain ⟨rfl, rfl⟩ := h
      exact ⟨⟨_, _, _, rfl⟩, Gen.same _ _ _ _ rfl rfl, fun q => absurd q (connErr_ne e).1⟩
    · next u =>
      split at h
      · contradiction
      · next e body c1 sent hf =>
        obtain ⟨⟨m, d, hc⟩, g, hok⟩ := fetch_spec lib cfg _ _ c u e body c1 sent hf
        split at h
        · next he =>
          simp only [Option.some.injEq, Prod.mk.injEq] at h
          obtain ⟨rfl, rfl⟩ := h
          obtain ⟨ca, s1, s2⟩ := storeCacerts_spec lib c1 (body.getD [])
          rw [s1]
          refine ⟨⟨m, d, ca, by rw [hc]⟩, ?_, ?_⟩
          · exact ⟨g.mode, g.trust, g.sent⟩
          · intro q
            obtain ⟨w1, t', w2, w3⟩ := s2 q
            obtain ⟨raw, z1, -, -, z2⟩ := hok he
            cases body with
            | none => simp at w1
            | some t => exact ⟨by simpa using hr, u, raw, t, t', rfl, z1, z2, w2, w3⟩
        · next he =>
          simp only [Option.some.injEq, Prod.mk.injEq] at h
          obtain ⟨rfl, rfl⟩ := h
          exact ⟨⟨m, d, c.cacerts, hc⟩, g, fun q => absurd q he⟩

theorem getCsrattrs_spec (lib : Lib) (cfg : ClientReq.Cfg) (net : Conn) (c : Client) (ret : Ret)
    (c' : Client) (h : getCsrattrs lib cfg net c = some (ret, c')) :
    (∃ m d a p, c' = { c with mode := m, delay := d, attrs := a, popReq := p }) ∧
      Gen lib [net] c c' ret.sent := by
  unfold getCsrattrs at h
  split at h
  · simp only [refuse, Option.some.injEq, Prod.mk.injEq] at h
    obtain ⟨rfl, rfl⟩ := h
    exact ⟨⟨_, _, _, _, rfl⟩, Gen.same _ _ _ _ rfl rfl⟩
  · next u =>
    split at h
    · contradiction
    · next e body c1 sent hf =>
      obtain ⟨⟨m, d, hc⟩, g, hok⟩ := fetch_spec lib cfg _ _ _ u e body c1 sent hf
      have g' : ∀ c2 : Client, c2.mode = c1.mode → c2.trust = c1.trust → Gen lib [.up u] c c2 sent :=
        fun c2 h1 h2 => ⟨by rw [h1]; exact g.mode, by rw [h2]; exact g.trust, g.sent⟩
      split at h
      · simp only [Option.some.injEq, Prod.mk.injEq] at h
        obtain ⟨rfl, rfl⟩ := h
        exact ⟨⟨m, d, none, c.popReq, hc⟩, g' _ rfl rfl⟩
      · split at h
        · simp only [Option.some.injEq, Prod.mk.injEq] at h
          obtain ⟨rfl, rfl⟩ := h
          exact ⟨⟨m, d, none, c.popReq, hc⟩, g' _ rfl rfl⟩
        · next t =>
          simp only at h
          split at h
          · simp only [Option.some.injEq, Prod.mk.injEq] at h
            obtain ⟨rfl, rfl⟩ := h
            exact ⟨⟨m, d, some t, (lib.attrs t).2, by rw [hc]⟩, g' _ rfl rfl⟩
          · simp only [Option.some.injEq, Prod.mk.injEq] at h
            obtain ⟨rfl, rfl⟩ := h
            exact ⟨⟨m, d, none, (lib.attrs t).2, by rw [hc]⟩, g' _ rfl rfl⟩

theorem copyCacerts_spec (c : Client) (ret : Ret) (c' : Client)
    (h : copyCacerts c = some (ret, c')) :
    ret.sent = [] ∧ ((ret.err ≠ .none ∧ c' = c) ∨ (ret.err = .none ∧ c.ready = true ∧
      c' = { c with ready := false } ∧ ∃ t, c.cacerts = some t ∧ ret.data = some t)) := by
  unfold copyCacerts at h
  split at h
  · simp only [refuse, Option.some.injEq, Prod.mk.injEq] at h
    obtain ⟨rfl, rfl⟩ := h
    exact ⟨rfl, .inl ⟨by simp, rfl⟩⟩
  · next hr =>
    split at h
    · simp only [refuse, Option.some.injEq, Prod.mk.injEq] at h
      obtain ⟨rfl, rfl⟩ := h
      exact ⟨rfl, .inl ⟨by simp, rfl⟩⟩
    · next t ht =>
      simp only [Option.some.injEq, Prod.mk.injEq] at h
      obtain ⟨rfl, rfl⟩ := h
      exact ⟨rfl, .inr ⟨rfl, by simpa using hr, rfl, t, ht, rfl⟩⟩

/-- Provisioning stops early with the certificate as it was, or ends with an enrolment. -/
theorem provision_spec (lib : Lib) (cfg : ClientReq.Cfg) (base : Nat) (key : Option Nat)
    (n1 n2 : Conn) (net : Conn × Conn) (c : Client) (ret : Ret) (c' : Client)
    (h : provision lib cfg base key n1 n2 net c = some (ret, c')) :
    Gen lib [n1, n2, net.1, net.2] c c' ret.sent ∧
    (c.ready = false → ret = { err := .clientNotInitialized } ∧ c' = c) ∧
    ((ret.err ≠ .none ∧ c'.cert = c.cert ∧ c'.key = c.key) ∨
      ∃ c3 r4, c3.cert = c.cert ∧ c3.key = c.key ∧ c3.ready = true ∧ ret.err = r4.err ∧
        enroll lib cfg .enroll base key net c3 = some (r4, c')) := by
  unfold provision at h
  split at h
  · simp only [refuse, Option.some.injEq, Prod.mk.injEq] at h
    obtain ⟨rfl, rfl⟩ := h
    exact ⟨Gen.same _ _ _ _ rfl rfl, fun _ => ⟨rfl, rfl⟩, .inl ⟨by simp, rfl, rfl⟩⟩
  · next hr =>
    have hr' : c.ready = false → ret = { err := .clientNotInitialized } ∧ c' = c := by
      intro q; simp [q] at hr
    split at h
    · simp only [refuse, Option.some.injEq, Prod.mk.injEq] at h
      obtain ⟨rfl, rfl⟩ := h
      exact ⟨Gen.same _ _ _ _ rfl rfl, hr', .inl ⟨by simp, rfl, rfl⟩⟩
    · split at h
      · contradiction
      · next r1 c1 h1 =>
        obtain ⟨⟨m1, d1, ca1, e1⟩, g1, -⟩ := getCacerts_spec lib cfg n1 c r1 c1 h1
        have k1 : c1.cert = c.cert ∧ c1.key = c.key := by rw [e1]; exact ⟨rfl, rfl⟩
        have wide : ∀ {c2 : Client} {s : List Sent}, Gen lib [n1] c c2 s →
            Gen lib [n1, n2, net.1, net.2] c c2 s := by
          intro c2 s g
          have := g.trans (Gen.same lib [n2, net.1, net.2] c2 c2 rfl rfl)
          simpa using this
        split at h
        · next he =>
          simp only [Option.some.injEq, Prod.mk.injEq] at h
          obtain ⟨rfl, rfl⟩ := h
          exact ⟨wide g1, hr', .inl ⟨he, k1⟩⟩
        · split at h
          · contradiction
          · next r2 c2 h2 =>
            obtain ⟨-, hc2⟩ := copyCacerts_spec c1 r2 c2 h2
            have k2 : c2.cert = c1.cert ∧ c2.key = c1.key ∧ c2.mode = c1.mode ∧
                c2.trust = c1.trust := by
              rcases hc2 with ⟨-, q⟩ | ⟨-, -, q, -⟩ <;> rw [q] <;> exact ⟨rfl, rfl, rfl, rfl⟩
            have g2 : Gen lib [n1] c c2 r1.sent :=
              ⟨by rw [k2.2.2.1]; exact g1.mode, by rw [k2.2.2.2]; exact g1.trust, g1.sent⟩
            have kk : c2.cert = c.cert ∧ c2.key = c.key :=
              ⟨k2.1.trans k1.1, k2.2.1.trans k1.2⟩
            split at h
            · next he =>
              simp only [Option.some.injEq, Prod.mk.injEq] at h
              obtain ⟨rfl, rfl⟩ := h
              exact ⟨wide g2, hr', .inl ⟨he, kk⟩⟩
            · split at h
              · simp only [Option.some.injEq, Prod.mk.injEq] at h
                obtain ⟨rfl, rfl⟩ := h
                exact ⟨wide g2, hr', .inl ⟨by simp, kk⟩⟩
              · split at h
                · simp only [Option.some.injEq, Prod.mk.injEq] at h
                  obtain ⟨rfl, rfl⟩ := h
                  exact ⟨wide g2, hr', .inl ⟨by simp, kk⟩⟩
                · split at h
                  · contradiction
                  · next r3 c3 h3 =>
                    obtain ⟨⟨m3, d3, a3, p3, e3⟩, g3⟩ := getCsrattrs_spec lib cfg n2 _ r3 c3 h3
                    have k3 : c3.cert = c.cert ∧ c3.key = c.key ∧ c3.ready = true := by
                      rw [e3]; exact ⟨kk.1, kk.2, rfl⟩
                    have g3' : Gen lib [n2] c2 c3 r3.sent := ⟨g3.mode, g3.trust, g3.sent⟩
                    have g23 := g2.trans g3'
                    split at h
                    · next he =>
                      simp only [Option.some.injEq, Prod.mk.injEq] at h
                      obtain ⟨rfl, rfl⟩ := h
                      have := g23.trans (Gen.same lib [net.1, net.2] c3 c3 rfl rfl)
                      exact ⟨by simpa using this, hr', .inl ⟨he.1, k3.1, k3.2.1⟩⟩
                    · split at h
                      · contradiction
                      · next r4 c4 h4 =>
                        simp only [Option.some.injEq, Prod.mk.injEq] at h
                        obtain ⟨rfl, rfl⟩ := h
                        have d4 := step_done lib cfg c3 (.enroll base key net) net rfl r4 c4 h4
                        have := g23.trans (done_gen d4)
                        refine ⟨?_, hr', .inr ⟨c3, r4, k3.1, k3.2.1, k3.2.2, rfl, h4⟩⟩
                        simpa using this

/-- Every call keeps the trust anchors, and gets a mode only from a challenge, from the basic
hint or from before. -/
theorem step_gen (lib : Lib) (cfg : ClientReq.Cfg) (c : Client) (cmd : Cmd) (ret : Ret)
    (c' : Client) (h : step lib cfg c cmd = some (ret, c')) (hb : cmd ≠ .basicHint) :
    Gen lib cmd.conns c c' ret.sent := by
  cases cmd with
  | enroll b k n => exact done_gen (step_done lib cfg c _ n rfl ret c' h)
  | keygenEnroll b k n => exact done_gen (step_done lib cfg c _ n rfl ret c' h)
  | reenroll b k n => exact done_gen (step_done lib cfg c _ n rfl ret c' h)
  | enrollCsr b k n => exact done_gen (step_done lib cfg c _ n rfl ret c' h)
  | keygenCsr b k n => exact done_gen (step_done lib cfg c _ n rfl ret c' h)
  | provision b k n1 n2 n => exact (provision_spec lib cfg b k n1 n2 n c ret c' h).1
  | getCacerts n => exact (getCacerts_spec lib cfg n c ret c' h).2.1
  | getCsrattrs n => exact (getCsrattrs_spec lib cfg n c ret c' h).2
  | copyCacerts =>
    obtain ⟨h1, h2⟩ := copyCacerts_spec c ret c' h
    rw [h1]
    rcases h2 with ⟨-, q⟩ | ⟨-, -, q, -⟩ <;> subst q <;> exact Gen.same _ _ _ _ rfl rfl
  | copyCert =>
    simp only [step, copyCert] at h
    repeat' split at h
    all_goals
      simp only [refuse, Option.some.injEq, Prod.mk.injEq] at h
      obtain ⟨rfl, rfl⟩ := h
      exact Gen.same _ _ _ _ rfl rfl
  | copyKey =>
    simp only [step, copyKey] at h
    repeat' split at h
    all_goals
      simp only [refuse, Option.some.injEq, Prod.mk.injEq] at h
      obtain ⟨rfl, rfl⟩ := h
      exact Gen.same _ _ _ _ rfl rfl
  | setAuth p k =>
    simp only [step, setAuth] at h
    repeat' split at h
    all_goals
      simp only [refuse, Option.some.injEq, Prod.mk.injEq] at h
      obtain ⟨rfl, rfl⟩ := h
      first
        | exact Gen.same _ _ _ _ rfl rfl
        | exact ⟨fun q => absurd q (by simp [Asked]), rfl, by simp⟩
  | basicHint => exact absurd rfl hb
  | forcePop =>
    simp only [step, refuse, Option.some.injEq, Prod.mk.injEq] at h
    obtain ⟨rfl, rfl⟩ := h
    exact Gen.same _ _ _ _ rfl rfl
  | unforcePop =>
    simp only [step, refuse, Option.some.injEq, Prod.mk.injEq] at h
    obtain ⟨rfl, rfl⟩ := h
    exact Gen.same _ _ _ _ rfl rfl

end Verif.Flow
