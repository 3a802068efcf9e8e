import Verif.CoapSkgProps
import Verif.EnrollProps
import Verif.DispatchProps

/-!
# Where every byte sent over CoAP comes from (C98), and enrolment over CoAP end to end (C99)
-/
namespace Verif.Coap
open Verif.Base64 (Bytes enc wrap)

/-! ## C98: the property -/

/-- What the handlers require before they look at their table. -/
def Admitted (peer : Peer) (path : Path) (m : Msg) : Prop :=
  match path with
  | .crts | .att => peer.tls = true
  | .sen | .sren | .skg => m.pdu.formats = [286] ∧ peer.tls = true ∧ peer.cert = true

/-- The bytes a text decodes to, within 16384 bytes. -/
def DecodesTo (odd : Bool → List Nat → List Nat) (text p : List Nat) : Prop :=
  ∃ k w, Base64.decode odd (text.takeWhile (· ≠ 0)) (min text.length 16384) = .ret k w ∧ k ≠ 0 ∧
    p = w.take k

/-- A text that a handler passes to the EST layer. -/
def Submitted (csr text : List Nat) : Prop :=
  ∃ len mem, Base64.encode true csr (List.replicate (2 * csr.length) 0) = some (len, mem) ∧
    text = mem.take len

/-- The EST layer has answered with what is sent as `p`. -/
def Made (odd : Bool → List Nat → List Nat) (est : Est) (path : Path) (p : List Nat) : Prop :=
  match path with
  | .crts => ∃ text, est.cacerts = (.none, some text) ∧ DecodesTo odd text p
  | .att => ∃ text, est.attrs = (.none, some text) ∧ DecodesTo odd text p
  | .sen => ∃ csr text cert, Submitted csr text ∧ est.enroll text = (.none, cert) ∧
      DecodesTo odd cert p
  | .sren => ∃ csr text cert, Submitted csr text ∧ est.reenroll text = (.none, cert) ∧
      DecodesTo odd cert p
  | .skg => ∃ csr text cert key, Submitted csr text ∧ est.keygen text = (.none, cert, key) ∧
      Cbor.skgPayload odd key cert = .payload p

/-- The action leaves the stored response of a session's requests to `path` alone: it is not
the end of the session and no accepted message of it to another resource. -/
def Continues (k : List Nat) (path : Path) : Act → Prop
  | .msg _ peer path' m => peer.key = k → Admitted peer path' m → path' = path
  | .connect _ => True
  | .close k' => k' ≠ k

/-- In this history the EST layer has answered `p` to a message of session `k` to `path`, and the
session has since then neither ended nor used another resource. -/
def Source (odd : Bool → List Nat → List Nat) (k : List Nat) (path : Path) (past : List Act)
    (p : List Nat) : Prop :=
  ∃ before est peer m after, past = before ++ Act.msg est peer path m :: after ∧ peer.key = k ∧
    Admitted peer path m ∧ Made odd est path p ∧ ∀ a ∈ after, Continues k path a

/-- The table after a history. -/
def after (L : Libc) (odd : Bool → List Nat → List Nat) (cut : Cut) : Tbl → List Act → Tbl
  | t, [] => t
  | t, a :: as => after L odd cut (act L odd cut t a).2 as

/-! ## Lemmas -/

theorem precheck_iff (peer : Peer) (path : Path) (m : Msg) :
    precheck peer path m = none ↔ Admitted peer path m := by
  have post : (if checkOption .contentFormat pkcs10 m.pdu.formats ≠ .none then
        some (Reply.reply (formatCode (checkOption .contentFormat pkcs10 m.pdu.formats)) none [],
          ([] : List Phase))
      else if (!peer.tls || !peer.cert) = true then some (.reply 401 none [], [.done]) else none) = none ↔
      m.pdu.formats = [286] ∧ peer.tls = true ∧ peer.cert = true := by
    have hf := C44_format_accepted_iff pkcs10 m.pdu.formats
    by_cases h : checkOption .contentFormat pkcs10 m.pdu.formats = .none
    · rw [if_neg (by simpa using h)]
      have := hf.1 h
      rw [show pkcs10 = 286 from rfl] at this
      cases peer.tls <;> cases peer.cert <;> simp [this]
    · rw [if_pos h]
      simp only [reduceCtorEq, false_iff]
      intro h'
      exact h (hf.2 h'.1)
  cases path with
  | crts => simp only [precheck, Admitted]; cases peer.tls <;> simp
  | att => simp only [precheck, Admitted]; cases peer.tls <;> simp
  | sen => exact post
  | sren => exact post
  | skg => exact post

theorem Source.snoc {odd k path past p} (h : Source odd k path past p) {a : Act}
    (ha : Continues k path a) : Source odd k path (past ++ [a]) p := by
  obtain ⟨before, est, peer, m, aft, h1, h2, h3, h4, h5⟩ := h
  refine ⟨before, est, peer, m, aft ++ [a], by rw [h1]; simp, h2, h3, h4, ?_⟩
  intro b hb
  rcases List.mem_append.1 hb with hb | hb
  · exact h5 b hb
  · rw [List.mem_singleton.1 hb]; exact ha

theorem Source.now {odd path p} (past : List Act) {est : Est} {peer : Peer} {m : Msg}
    (hadm : Admitted peer path m) (h : Made odd est path p) :
    Source odd peer.key path (past ++ [.msg est peer path m]) p :=
  ⟨past, est, peer, m, [], rfl, rfl, hadm, h, fun _ ha => nomatch ha⟩

theorem begun_ne {l : List Nat} (h : begun l = true) : l ≠ [] := by
  intro e; rw [e] at h; cases h

/-- One step on a record that was prepared for the resource. -/
structure Stepped (odd : Bool → List Nat → List Nat) (cut : Cut) (est : Est) (path : Path) (m : Msg)
    (n : Node) (r : Res) : Prop where
  cur : r.node.cur = path.req
  resp : r.node.resp = [] ∨ r.node.resp = n.resp ∨ Made odd est path r.node.resp
  reply : ∀ c f b, r.reply = .reply c (some f) b → b = (cut m.block2 r.node.resp).1 ∧
    (r.node.resp ≠ [] ∧ r.node.resp = n.resp ∨ Made odd est path r.node.resp)

theorem stepped_fail {odd} {cut : Cut} {est : Est} {path : Path} {m : Msg} {n x : Node} {c : Nat}
    {pre : List Phase} (hc : x.cur = path.req) (hr : x.resp = [] ∨ x.resp = n.resp) :
    Stepped odd cut est path m n (fail c pre x) :=
  ⟨hc, hr.elim .inl (fun h => .inr (.inl h)), fun _ _ _ h => by simp [fail] at h⟩

theorem stepped_send {odd} {cut : Cut} {est : Est} {path : Path} {m : Msg} {n x : Node} {c f : Nat}
    {pre : List Phase} (hc : x.cur = path.req)
    (hr : x.resp ≠ [] ∧ x.resp = n.resp ∨ Made odd est path x.resp) :
    Stepped odd cut est path m n (send cut c f m.block2 pre x) :=
  ⟨hc, hr.elim (fun h => .inr (.inl h.2)) (fun h => .inr (.inr h)), fun _ _ _ h => by
    simp only [send, Reply.reply.injEq] at h
    exact ⟨h.2.2.symm, hr⟩⟩

theorem stepped_none {odd} {cut : Cut} {est : Est} {path : Path} {m : Msg} {n x : Node}
    {evs : List Phase} {rep : Reply} (hrep : ∀ c f b, rep ≠ .reply c (some f) b)
    (hc : x.cur = path.req) (hr : x.resp = [] ∨ x.resp = n.resp) :
    Stepped odd cut est path m n ⟨rep, x, evs⟩ :=
  ⟨hc, hr.elim .inl (fun h => .inr (.inl h)), fun c f b h => absurd h (hrep c f b)⟩

theorem stepped_text {odd} {cut : Cut} {est : Est} {path : Path} {m : Msg} {n : Node} {f : Nat}
    {text : List Nat} (hc : n.cur = path.req)
    (hm : ∀ p, DecodesTo odd text p → Made odd est path p) :
    Stepped odd cut est path m n (storeText odd cut f m.block2 text n) := by
  simp only [storeText]
  split
  · exact stepped_none (fun _ _ _ h => nomatch h) hc (Or.inr rfl)
  · rename_i k w hd
    split
    · exact stepped_fail hc (Or.inr rfl)
    · rename_i hk
      exact stepped_send hc (Or.inr (hm _ ⟨k, w, hd, hk, rfl⟩))

theorem recv_shape (media : Nat) (r : Req) (p : Pdu) (n : Node) (hc : n.cur = r) :
    (∀ c x, recv media r p n = .err c x → x.cur = r ∧ (x.resp = [] ∨ x.resp = n.resp)) ∧
    (∀ x, recv media r p n = .more x → x.cur = r ∧ (x.resp = [] ∨ x.resp = n.resp)) ∧
    (∀ x, recv media r p n = .ready x → x.cur = r ∧ (x.resp = [] ∨ x.resp = n.resp)) ∧
    (∀ x, recv media r p n = .respond x → x.cur = r ∧ x.resp ≠ [] ∧ x.resp = n.resp) := by
  have hy : (restart r p n).cur = r ∧ ((restart r p n).resp = [] ∨ (restart r p n).resp = n.resp) := by
    simp only [restart]; split
    · exact ⟨rfl, Or.inl rfl⟩
    · exact ⟨hc, Or.inr rfl⟩
  rw [recv]
  generalize restart r p n = y at hy
  have base : ∀ z : Node, z.cur = y.cur → z.resp = y.resp →
      z.cur = r ∧ (z.resp = [] ∨ z.resp = n.resp) := fun z h1 h2 => by
    rw [h1, h2]; exact hy
  have out : ∀ R : Recv, (∃ z : Node, z.cur = y.cur ∧ z.resp = y.resp ∧
        ((∃ c, R = .err c z) ∨ R = .more z ∨ R = .ready z)) ∨ R = .ub ∨
        (R = .respond y ∧ begun y.resp = true) →
      (∀ c x, R = .err c x → x.cur = r ∧ (x.resp = [] ∨ x.resp = n.resp)) ∧
      (∀ x, R = .more x → x.cur = r ∧ (x.resp = [] ∨ x.resp = n.resp)) ∧
      (∀ x, R = .ready x → x.cur = r ∧ (x.resp = [] ∨ x.resp = n.resp)) ∧
      (∀ x, R = .respond x → x.cur = r ∧ x.resp ≠ [] ∧ x.resp = n.resp) := by
    intro R hR
    rcases hR with ⟨z, h1, h2, hR⟩ | rfl | ⟨rfl, hb⟩
    · have hb := base z h1 h2
      rcases hR with ⟨c, rfl⟩ | rfl | rfl
      · refine ⟨?_, ?_, ?_, ?_⟩
        · rintro _ _ h; cases h; exact hb
        all_goals (rintro _ h; cases h)
      · refine ⟨?_, ?_, ?_, ?_⟩
        · rintro _ _ h; cases h
        · rintro _ h; cases h; exact hb
        all_goals (rintro _ h; cases h)
      · refine ⟨?_, ?_, ?_, ?_⟩
        · rintro _ _ h; cases h
        · rintro _ h; cases h
        · rintro _ h; cases h; exact hb
        · rintro _ h; cases h
    · refine ⟨?_, ?_, ?_, ?_⟩
      · rintro _ _ h; cases h
      all_goals (rintro _ h; cases h)
    · refine ⟨?_, ?_, ?_, ?_⟩
      · rintro _ _ h; cases h
      · rintro _ h; cases h
      · rintro _ h; cases h
      · rintro _ h; cases h
        exact ⟨hy.1, begun_ne hb, hy.2.resolve_left (begun_ne hb)⟩
  have hcomp : ∀ z : Node, z.cur = y.cur → z.resp = y.resp → ∃ z' : Node, z'.cur = y.cur ∧
      z'.resp = y.resp ∧ ((∃ c, complete z = .err c z') ∨ complete z = .more z' ∨
        complete z = .ready z') := by
    intro z h1 h2
    refine ⟨z, h1, h2, ?_⟩
    simp only [complete]; split
    · exact Or.inl ⟨_, rfl⟩
    · exact Or.inr (Or.inr rfl)
  have hjust : ∀ (b : Block) (z : Node), z.cur = y.cur → z.resp = y.resp → ∃ z' : Node,
      z'.cur = y.cur ∧ z'.resp = y.resp ∧ ((∃ c, justRespond b z = .err c z') ∨
        justRespond b z = .more z' ∨ justRespond b z = .ready z') := by
    intro b z h1 h2
    by_cases hm : b.m = true
    · exact ⟨z, h1, h2, Or.inr (Or.inl (by simp only [justRespond, hm, if_true]))⟩
    · simp only [justRespond, hm]
      exact hcomp z h1 h2
  apply out
  rw [recvBody]
  split
  · rename_i hb; exact Or.inr (Or.inr ⟨rfl, hb⟩)
  · dsimp only
    split
    · exact Or.inl ⟨y, rfl, rfl, Or.inl ⟨_, rfl⟩⟩
    · split
      · simp only [block1, append]
        repeat' split
        all_goals first
          | exact Or.inr (Or.inl rfl)
          | exact Or.inl ⟨y, rfl, rfl, Or.inl ⟨_, rfl⟩⟩
          | exact Or.inl (hjust _ _ rfl rfl)
      · simp only [single]
        repeat' split
        all_goals first
          | exact Or.inr (Or.inl rfl)
          | exact Or.inl ⟨y, rfl, rfl, Or.inl ⟨_, rfl⟩⟩
          | exact Or.inl (hcomp _ rfl rfl)

theorem stepped_post {odd} {cut : Cut} {est : Est} {path : Path} {m : Msg} {n : Node} {f : Nat}
    {proc : Node → Out × Node} (hc : n.cur = path.req)
    (hp : ∀ x, ((proc x).2 = x ∧ ∀ b, (proc x).1 ≠ .content b) ∨
      ∃ p, proc x = (.content p, { x with resp := p }) ∧ Made odd est path p) :
    Stepped odd cut est path m n (postNode cut f path.req proc m n) := by
  obtain ⟨h1, h2, h3, h4⟩ := recv_shape f path.req m.pdu n hc
  simp only [postNode]
  cases hr : recv f path.req m.pdu n with
  | ub => exact stepped_none (fun _ _ _ h => nomatch h) hc (Or.inr rfl)
  | err c x => exact stepped_fail (h1 c x hr).1 (h1 c x hr).2
  | more x =>
    exact stepped_none (fun _ _ _ h => by simp at h) (h2 x hr).1 (h2 x hr).2
  | respond x => exact stepped_send (h4 x hr).1 (Or.inl (h4 x hr).2)
  | ready x =>
    simp only [postEnd]
    rcases hp x with ⟨e1, e2⟩ | ⟨p, e1, e2⟩
    · rw [e1]
      cases ho : (proc x).1 with
      | ub => exact stepped_none (fun _ _ _ h => nomatch h) (h3 x hr).1 (h3 x hr).2
      | code c => exact stepped_fail (h3 x hr).1 (h3 x hr).2
      | content b => exact absurd ho (e2 b)
    · rw [e1]
      exact stepped_send (h3 x hr).1 (Or.inr e2)

theorem process_shape (odd) (enroll : List Nat → EstErr × List Nat) (x : Node) :
    ((process odd enroll x).2 = x ∧ ∀ b, (process odd enroll x).1 ≠ .content b) ∨
    ∃ p, process odd enroll x = (.content p, { x with resp := p }) ∧
      ∃ csr text cert, Submitted csr text ∧ enroll text = (.none, cert) ∧ DecodesTo odd cert p := by
  cases ho : process odd enroll x with
  | mk o y =>
    cases o with
    | ub =>
      left; refine ⟨?_, fun b h => nomatch h⟩
      simp only [process, storeCert] at ho
      repeat' split at ho
      all_goals first | cases ho; rfl | cases ho
    | code c =>
      left; refine ⟨?_, fun b h => nomatch h⟩
      simp only [process, storeCert] at ho
      repeat' split at ho
      all_goals first | cases ho; rfl | cases ho
    | content p =>
      right
      obtain ⟨h1, text, h2, _, ⟨k, w, h3, h4, h5⟩, len, mem, h6, h7⟩ := process_content ho
      exact ⟨p, by rw [h1], x.req, text, (enroll text).2, ⟨len, mem, h6, h7⟩, by rw [← h2],
        k, w, h3, h5, h4⟩

theorem keygen_shape (odd) (keygen : List Nat → EstErr × List Nat × List Nat) (x : Node) :
    ((keygenProcess odd keygen x).2 = x ∧ ∀ b, (keygenProcess odd keygen x).1 ≠ .content b) ∨
    ∃ p, keygenProcess odd keygen x = (.content p, { x with resp := p }) ∧
      ∃ csr text cert key, Submitted csr text ∧ keygen text = (.none, cert, key) ∧
        Cbor.skgPayload odd key cert = .payload p := by
  simp only [keygenProcess]
  cases he : Base64.encode true x.req (List.replicate (2 * x.req.length) 0) with
  | none => exact Or.inl ⟨by trivial, fun b h => nomatch h⟩
  | some v =>
    obtain ⟨len, mem⟩ := v
    dsimp only
    by_cases h0 : len = 0
    · simp only [h0, if_true]; exact Or.inl ⟨by trivial, fun b h => nomatch h⟩
    · simp only [h0, if_false]
      by_cases h1 : (keygen (mem.take len)).1 = .none
      · simp only [h1, ne_eq, not_true_eq_false, if_false]
        cases hs : Cbor.skgPayload odd (keygen (mem.take len)).2.2 (keygen (mem.take len)).2.1 with
        | ub => exact Or.inl ⟨by trivial, fun b h => nomatch h⟩
        | err500 => exact Or.inl ⟨by trivial, fun b h => nomatch h⟩
        | payload p =>
          refine Or.inr ⟨p, rfl, x.req, mem.take len, _, _, ⟨len, mem, he, rfl⟩, ?_, hs⟩
          rw [← h1]
      · simp only [h1, ne_eq, not_false_eq_true, if_true]
        exact Or.inl ⟨by trivial, fun b h => nomatch h⟩

theorem nodeStep_stepped (odd) (cut : Cut) (est : Est) (path : Path) (m : Msg) (n : Node)
    (hc : n.cur = path.req) : Stepped odd cut est path m n (nodeStep odd cut est path m n) := by
  cases path with
  | crts =>
    simp only [nodeStep, crtsNode]
    split
    · rename_i hb; exact stepped_send hc (Or.inl ⟨begun_ne hb, rfl⟩)
    · split
      · exact stepped_fail hc (Or.inr rfl)
      · split
        · exact stepped_fail hc (Or.inr rfl)
        · rename_i he
          split
          · exact stepped_fail hc (Or.inr rfl)
          · rename_i text ht
            refine stepped_text hc (fun p hp => ⟨text, ?_, hp⟩)
            rw [← ht, ← show est.cacerts.1 = .none by simpa using he]
  | att =>
    simp only [nodeStep, attNode]
    split
    · rename_i hb; exact stepped_send hc (Or.inl ⟨begun_ne hb, rfl⟩)
    · split
      · exact stepped_fail hc (Or.inr rfl)
      · split
        · exact stepped_fail hc (Or.inr rfl)
        · rename_i he
          split
          · exact stepped_fail hc (Or.inr rfl)
          · rename_i text ht
            refine stepped_text hc (fun p hp => ⟨text, ?_, hp⟩)
            rw [← ht, ← show est.attrs.1 = .none by simpa using he]
  | sen => exact stepped_post (path := .sen) hc (process_shape odd est.enroll)
  | sren => exact stepped_post (path := .sren) hc (process_shape odd est.reenroll)
  | skg => exact stepped_post (path := .skg) hc (keygen_shape odd est.keygen)

/-- The stored response of a record has a source in the history. -/
def Known (odd : Bool → List Nat → List Nat) (k : List Nat) (past : List Act) (s : Option Node) :
    Prop :=
  ∀ n, s = some n → n.resp = [] ∨ ∃ path : Path, n.cur = path.req ∧ Source odd k path past n.resp

theorem req_inj {p q : Path} (h : p.req = q.req) : p = q := by
  cases p <;> cases q <;> first | rfl | cases h

theorem ownRecord_known {odd k past s} (h : Known odd k past s) (path : Path) :
    (ownRecord s k path.req).cur = path.req ∧
    ((ownRecord s k path.req).resp = [] ∨
      Source odd k path past (ownRecord s k path.req).resp) := by
  have hr : path.req ≠ .reset := by cases path <;> exact fun h => nomatch h
  cases s with
  | none => exact ⟨rfl, Or.inl rfl⟩
  | some n =>
    simp only [ownRecord]
    by_cases hc : n.cur = path.req
    · rw [if_neg (by simp [hc])]
      refine ⟨hc, ?_⟩
      rcases h n rfl with h | ⟨q, h1, h2⟩
      · exact Or.inl h
      · rw [hc] at h1
        rw [req_inj h1]
        exact Or.inr h2
    · rw [if_pos ⟨hc, hr⟩]
      exact ⟨rfl, Or.inl rfl⟩

/-- One action on any table, in terms of the session's own record; a session without a record
may not get one. -/
theorem act_any {cap : Nat} {t : Tbl} (h : Inv cap t) {L : Libc} (hL : L.Ok) (odd) (cut)
    (a : Act) (hk : a.key ≠ []) :
    Inv cap (act L odd cut t a).2 ∧
    (∀ k', k' ≠ [] → k' ≠ a.key → look (act L odd cut t a).2.slots k' = look t.slots k') ∧
    ((act L odd cut t a).1 = (ownStep odd cut (look t.slots a.key) a).1 ∧
      look (act L odd cut t a).2.slots a.key = (ownStep odd cut (look t.slots a.key) a).2 ∨
     look (act L odd cut t a).2.slots a.key = none ∧
      ∀ c f b, (act L odd cut t a).1.1 ≠ .reply c (some f) b) := by
  obtain ⟨k1, k2, k3⟩ := act_kept h hL odd cut a hk
  refine ⟨k1, k2, ?_⟩
  cases a with
  | msg est peer path m =>
    simp only [Act.key] at hk ⊢
    cases hp : precheck peer path m with
    | some r =>
      left
      simp only [act, ownStep, handle, hp]
      exact ⟨trivial, trivial⟩
    | none =>
      have s3 := (handle_spec h hL odd cut est peer hk path m hp).2.2
      simp only [act, ownStep, hp]
      cases hl : look t.slots peer.key with
      | some n =>
        simp only [recordFor, hl] at s3
        left; exact s3
      | none =>
        by_cases hlt : t.cnt < cap
        · simp only [recordFor, hl, hlt, if_true] at s3
          left; exact s3
        · simp only [recordFor, hl, hlt, if_false] at s3
          right
          rw [s3]
          exact ⟨hl, fun c f b h => by simp at h⟩
  | connect k =>
    simp only [Act.key] at hk ⊢
    simp only [act, ownStep, connected]
    obtain ⟨_, hs⟩ := getReq_spec h hL hk .reset
    cases hl : look t.slots k with
    | some n =>
      left
      have := k3 n hl (fun h => nomatch h)
      simpa only [act, ownStep, connected, Act.key] using this
    | none =>
      simp only [hl] at hs
      by_cases hlt : t.cnt < cap
      · simp only [hlt, if_true] at hs
        obtain ⟨i, g1, g2, g3, g4⟩ := hs
        left
        refine ⟨trivial, ?_⟩
        rw [g4 k hk, if_pos rfl]; rfl
      · simp only [hlt, if_false] at hs
        right
        rw [hs]
        exact ⟨hl, fun c f b h => by simp at h⟩
  | close k =>
    right
    simp only [Act.key] at hk ⊢
    refine ⟨?_, fun c f b h => by simp [act] at h⟩
    simp only [act, closed]
    obtain ⟨inv, hs⟩ := getReq_spec h hL hk .reset
    have q := removeReq_spec inv hL hk
    cases hl : look t.slots k with
    | some n =>
      simp only [hl] at hs
      obtain ⟨i, g1, g2, g3, g4⟩ := hs
      have hkey : (if n.cur ≠ Req.reset ∧ Req.reset ≠ Req.reset then reinit n .reset else n).key = k := by
        simp [look_key hl]
      have e : getReq L t k .reset = (some i, (getReq L t k .reset).2) := by rw [← g1]
      rw [e]
      simp only [g3, hkey]
      rw [q.2.2.2 k hk, if_pos rfl]
    | none =>
      simp only [hl] at hs
      by_cases hlt : t.cnt < cap
      · simp only [hlt, if_true] at hs
        obtain ⟨i, g1, g2, g3, g4⟩ := hs
        have e : getReq L t k .reset = (some i, (getReq L t k .reset).2) := by rw [← g1]
        rw [e]
        simp only [g3]
        rw [q.2.2.2 k hk, if_pos rfl]
      · simp only [hlt, if_false] at hs
        rw [hs]
        exact hl

/-- One own step keeps the source of the stored response known, and what it sends has one. -/
theorem own_known {odd cut} {past : List Act} {s : Option Node} {a : Act} {k : List Nat}
    (hak : a.key = k) (h : Known odd k past s) :
    Known odd k (past ++ [a]) (ownStep odd cut s a).2 ∧
    ∀ est peer path m, a = .msg est peer path m → ∀ c f b,
      (ownStep odd cut s a).1.1 = .reply c (some f) b →
      ∃ p, b = (cut m.block2 p).1 ∧ Source odd k path (past ++ [a]) p := by
  subst hak
  cases a with
  | msg est peer path m =>
    simp only [Act.key] at h ⊢
    simp only [ownStep]
    cases hp : precheck peer path m with
    | some r =>
      have hna : ¬ Admitted peer path m := by rw [← precheck_iff, hp]; simp
      constructor
      · intro n hn
        rcases h n hn with h | ⟨q, h1, h2⟩
        · exact Or.inl h
        · refine Or.inr ⟨q, h1, h2.snoc ?_⟩
          exact fun _ ha => absurd ha hna
      · intro est' peer' path' m' ha c f b hb
        exfalso
        simp only at hb
        obtain ⟨r1, r2⟩ := r
        simp only at hb
        rw [hb] at hp
        cases path <;> simp only [precheck] at hp <;> (repeat' split at hp) <;> simp at hp
    | none =>
      have hadm := (precheck_iff peer path m).1 hp
      obtain ⟨hc, hr⟩ := ownRecord_known h path
      have st := nodeStep_stepped odd cut est path m _ hc
      generalize nodeStep odd cut est path m (ownRecord s peer.key path.req) = r at st
      generalize ownRecord s peer.key path.req = n at st hc hr
      have cont : Continues peer.key path (.msg est peer path m) := fun _ _ => rfl
      constructor
      · intro x hx
        simp only [Option.some.injEq] at hx
        subst hx
        rcases st.resp with e | e | e
        · exact Or.inl e
        · rcases hr with hr | hr
          · left; rw [e]; exact hr
          · right; exact ⟨path, st.cur, by rw [e]; exact hr.snoc cont⟩
        · right; exact ⟨path, st.cur, Source.now past hadm e⟩
      · intro est' peer' path' m' ha c f b hb
        simp only [Act.msg.injEq] at ha
        obtain ⟨_, _, rfl, rfl⟩ := ha
        obtain ⟨e1, e2⟩ := st.reply c f b hb
        refine ⟨_, e1, ?_⟩
        rcases e2 with ⟨e2, e3⟩ | e2
        · rw [e3]
          rw [e3] at e2
          exact (hr.resolve_left e2).snoc cont
        · exact Source.now past hadm e2
  | connect k =>
    simp only [Act.key] at h ⊢
    refine ⟨?_, fun _ _ _ _ h => nomatch h⟩
    intro x hx
    simp only [ownStep, Option.some.injEq] at hx
    subst hx
    cases s with
    | none => exact Or.inl rfl
    | some n =>
      have : ownRecord (some n) k .reset = n := by simp [ownRecord]
      rw [this]
      rcases h n rfl with h | ⟨q, h1, h2⟩
      · exact Or.inl h
      · exact Or.inr ⟨q, h1, h2.snoc trivial⟩
  | close k =>
    exact ⟨(fun n hn => by cases hn), (fun _ _ _ _ h => by cases h)⟩

theorem known_others {odd k past s} (h : Known odd k past s) {a : Act} (ha : a.key ≠ k) :
    Known odd k (past ++ [a]) s := by
  intro n hn
  rcases h n hn with h | ⟨q, h1, h2⟩
  · exact Or.inl h
  · refine Or.inr ⟨q, h1, h2.snoc ?_⟩
    cases a with
    | msg est peer path m => exact fun h => absurd h ha
    | connect k' => trivial
    | close k' => exact ha

/-- The invariant of all histories. -/
theorem known_after {cap : Nat} {L : Libc} (hL : L.Ok) (odd) (cut) : ∀ (as past : List Act) (t : Tbl),
    Inv cap t → (∀ a ∈ as, a.key ≠ []) → (∀ k, k ≠ [] → Known odd k past (look t.slots k)) →
    Inv cap (after L odd cut t as) ∧
    ∀ k, k ≠ [] → Known odd k (past ++ as) (look (after L odd cut t as).slots k)
  | [], past, t, h, _, hk => ⟨h, by simpa [after] using hk⟩
  | a :: as, past, t, h, ha, hk => by
    obtain ⟨s1, s2, s3⟩ := act_any h hL odd cut a (ha a (List.mem_cons_self ..))
    have ha' := fun b hb => ha b (List.mem_cons_of_mem a hb)
    have hk' : ∀ k, k ≠ [] → Known odd k (past ++ [a]) (look (act L odd cut t a).2.slots k) := by
      intro k hkn
      by_cases e : a.key = k
      · subst e
        rcases s3 with ⟨_, s4⟩ | ⟨s4, _⟩
        · rw [s4]; exact (own_known rfl (hk _ hkn)).1
        · rw [s4]; exact fun n hn => nomatch hn
      · rw [s2 k hkn (fun x => e x.symm)]
        exact known_others (hk k hkn) e
    have := known_after hL odd cut as (past ++ [a]) _ s1 ha' hk'
    rw [List.append_assoc] at this
    exact this

/-- C98: whatever the CoAP server sends to a session, at any time and after any history of any
sessions, is (a piece of) what the EST layer answered to a message of this same session to this
same resource, accepted with the credentials the resource requires, after which the session
neither ended nor used another resource.  In particular no session ever gets the key or the
certificate of another one, nor one that uses the address of a session that was closed. -/
theorem C98_everything_sent_has_a_source (L : Libc) (hL : L.Ok) (odd) (cut : Cut) (cap : Nat)
    (past : List Act) (hkeys : ∀ a ∈ past, a.key ≠ []) (est : Est) (peer : Peer)
    (hk : peer.key ≠ []) (path : Path) (m : Msg) (c f : Nat) (b : List Nat)
    (h : (handle L odd cut est (after L odd cut (initTbl cap) past) peer path m).1.1 =
      .reply c (some f) b) :
    ∃ p, b = (cut m.block2 p).1 ∧
      Source odd peer.key path (past ++ [.msg est peer path m]) p := by
  have h0 : ∀ k, k ≠ [] → Known odd k [] (look (initTbl cap).slots k) := by
    intro k hk' n hn
    have := (init_repr cap).stored k hk'
    simp only [Map.empty, Option.map_eq_none_iff] at this
    rw [this] at hn; cases hn
  obtain ⟨inv, hkn⟩ := known_after hL odd cut past [] _ (init_inv cap) hkeys h0
  rw [List.nil_append] at hkn
  obtain ⟨_, _, s3⟩ := act_any inv hL odd cut (.msg est peer path m) hk
  have e : act L odd cut (after L odd cut (initTbl cap) past) (.msg est peer path m) =
      handle L odd cut est (after L odd cut (initTbl cap) past) peer path m := rfl
  rw [e] at s3
  rcases s3 with ⟨s4, _⟩ | ⟨_, s4⟩
  · exact (own_known (a := .msg est peer path m) rfl (hkn _ hk)).2 est peer path m rfl c f b
      (by rw [← s4]; exact h)
  · exact absurd h (s4 c f b)

/-- The responses of a history are those of `handle` on the table that the messages before have
left. -/
theorem serve_append (L : Libc) (odd) (cut : Cut) : ∀ (past rest : List Act) (t : Tbl),
    serve L odd cut t (past ++ rest) =
      serve L odd cut t past ++ serve L odd cut (after L odd cut t past) rest
  | [], _, _ => rfl
  | a :: past, rest, t => by
    simp only [List.cons_append, serve, after]
    rw [serve_append L odd cut past rest]

example : (handle simpleLibc (fun _ l => l) exCut exEst
    (after simpleLibc (fun _ l => l) exCut (initTbl 2)
      [.msg exEst (exPeer 50) .skg exPost, .msg exEst (exPeer 49) .sen exPost])
    (exPeer 49) .sen ⟨⟨[286], [], none, []⟩, some ⟨0, false, 0⟩⟩).1.1 =
    .reply 204 (some 281) [1, 2, 3, 4, 5, 6] := by decide +kernel

/-- After the end of a session nothing of it is left for a new one with the same address. -/
example : (handle simpleLibc (fun _ l => l) exCut { exEst with keygen := fun _ => (.authFail, [], []) }
    (after simpleLibc (fun _ l => l) exCut (initTbl 2)
      [.msg exEst (exPeer 49) .skg exPost, .close [49]])
    (exPeer 49) .skg ⟨⟨[286], [], none, []⟩, none⟩).1.1 = .reply 400 none [] := by decide +kernel

end Verif.Coap
