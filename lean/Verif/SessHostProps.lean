import Verif.SessProps
import Verif.ClientReqProps

/-!
# C105: the server named in the requests
-/
namespace Verif.Flow
open Verif.ClientResp (decimal)

/-! ## Whatever holds of all requests that are made holds of all that are sent -/

section
variable {lib : Lib} {cfg : ClientReq.Cfg} {Q : Sent → Prop}

/-- All requests of an attempt. -/
def AllSent (Q : Sent → Prop) (f : Client → Up → Csr → Option Res) : Prop :=
  ∀ c u csr r, f c u csr = some r → ∀ s ∈ r.sent, Q s

theorem pkcs10_sent (k : Kind) (key : Nat) (h : AllSent Q (enrollReq lib cfg k)) :
    AllSent Q (enrollPkcs10 lib cfg k key) := by
  intro c u csr r hr s hs
  unfold enrollPkcs10 at hr
  simp only at hr
  split at hr
  · split at hr
    · cases hr; simp at hs
    · split at hr
      · cases hr; simp at hs
      · split at hr
        · cases hr; simp at hs
        · exact h _ _ _ _ hr s hs
  · split at hr
    · cases hr; simp at hs
    · exact h _ _ _ _ hr s hs

theorem cn_sent (k : Kind) (base key : Nat) (h : AllSent Q (enrollReq lib cfg k)) :
    AllSent Q (enrollCn lib cfg k base key) := by
  intro c u csr r hr s hs
  unfold enrollCn at hr
  split at hr
  · cases hr; simp at hs
  · split at hr
    · cases hr; simp at hs
    · exact h _ _ _ _ hr s hs

theorem twice_sent {fips : Bool} {net : Conn × Conn} {f : Client → Up → Csr → Option Res}
    (h : AllSent Q f) {c : Client} {csr : Csr} {r : Res} {j : Bool}
    (hr : twice fips net f c csr = some (r, j)) : ∀ s ∈ r.sent, Q s := by
  intro s hs
  unfold twice at hr
  split at hr
  · cases hr; simp at hs
  · split at hr
    · cases hr
    · next r1 h1 =>
      split at hr
      · split at hr
        · cases hr; exact h _ _ _ _ h1 s hs
        · split at hr
          · cases hr; exact h _ _ _ _ h1 s hs
          · split at hr
            · cases hr
            · next r2 h2 =>
              cases hr
              rcases List.mem_append.1 hs with hs | hs
              · exact h _ _ _ _ h1 s hs
              · exact h _ _ _ _ h2 s hs
      · cases hr; exact h _ _ _ _ h1 s hs

theorem enroll_sent {k : Kind} {base : Nat} {key : Option Nat} {net : Conn × Conn} {c c' : Client}
    {ret : Ret} (h : AllSent Q (enrollReq lib cfg k))
    (hr : enroll lib cfg k base key net c = some (ret, c')) : ∀ s ∈ ret.sent, Q s := by
  intro s hs
  unfold enroll at hr
  split at hr
  · cases hr; simp at hs
  · split at hr
    · cases hr; simp at hs
    · split at hr
      · cases hr
      · next r j ht =>
        cases hr
        exact twice_sent (cn_sent k base _ h) ht s hs

/-- All requests of a GET. -/
def AllFetched (lib : Lib) (cfg : ClientReq.Cfg) (Q : Sent → Prop) : Prop :=
  ∀ uri op c u e b c' sent, fetch lib cfg uri op c u = some (e, b, c', sent) → ∀ s ∈ sent, Q s

theorem cacerts_sent {n : Conn} {c c' : Client} {ret : Ret} (h : AllFetched lib cfg Q)
    (hr : getCacerts lib cfg n c = some (ret, c')) : ∀ s ∈ ret.sent, Q s := by
  intro s hs
  unfold getCacerts at hr
  split at hr
  · cases hr; simp at hs
  · split at hr
    · cases hr; simp at hs
    · split at hr
      · cases hr
      · next hf =>
        split at hr <;> cases hr <;> exact h _ _ _ _ _ _ _ _ hf s hs

theorem attrs_sent {n : Conn} {c c' : Client} {ret : Ret} (h : AllFetched lib cfg Q)
    (hr : getCsrattrs lib cfg n c = some (ret, c')) : ∀ s ∈ ret.sent, Q s := by
  intro s hs
  unfold getCsrattrs at hr
  split at hr
  · cases hr; simp at hs
  · split at hr
    · cases hr
    · next hf =>
      split at hr
      · cases hr; exact h _ _ _ _ _ _ _ _ hf s hs
      · split at hr
        · cases hr; exact h _ _ _ _ _ _ _ _ hf s hs
        · simp only at hr
          split at hr <;> cases hr <;> exact h _ _ _ _ _ _ _ _ hf s hs

theorem copyCacerts_sent {c c' : Client} {ret : Ret} (hr : copyCacerts c = some (ret, c')) :
    ret.sent = [] := by
  unfold copyCacerts at hr
  repeat' split at hr
  all_goals cases hr; rfl

theorem provision_sent {base : Nat} {key : Option Nat} {n1 n2 : Conn} {net : Conn × Conn}
    {c c' : Client} {ret : Ret} (h : AllSent Q (enrollReq lib cfg .enroll))
    (hf : AllFetched lib cfg Q) (hr : provision lib cfg base key n1 n2 net c = some (ret, c')) :
    ∀ s ∈ ret.sent, Q s := by
  intro s hs
  unfold provision at hr
  split at hr
  · cases hr; simp at hs
  · split at hr
    · cases hr; simp at hs
    · split at hr
      · cases hr
      · next r1 c1 h1 =>
        have q1 := cacerts_sent hf h1
        split at hr
        · cases hr; exact q1 s hs
        · split at hr
          · cases hr
          · split at hr
            · cases hr; exact q1 s hs
            · split at hr
              · cases hr; exact q1 s hs
              · split at hr
                · cases hr; exact q1 s hs
                · split at hr
                  · cases hr
                  · next r3 c3 h3 =>
                    have q3 := attrs_sent hf h3
                    split at hr
                    · cases hr
                      rcases List.mem_append.1 hs with hs | hs
                      · exact q1 s hs
                      · exact q3 s hs
                    · split at hr
                      · cases hr
                      · next r4 c4 h4 =>
                        cases hr
                        rcases List.mem_append.1 hs with hs | hs
                        · exact q1 s hs
                        · rcases List.mem_append.1 hs with hs | hs
                          · exact q3 s hs
                          · exact enroll_sent h h4 s hs

theorem step_sent {c c' : Client} {cmd : Cmd} {ret : Ret}
    (h : ∀ k, AllSent Q (enrollReq lib cfg k)) (hf : AllFetched lib cfg Q)
    (hr : step lib cfg c cmd = some (ret, c')) : ∀ s ∈ ret.sent, Q s := by
  intro s hs
  cases cmd with
  | enroll b k n => exact enroll_sent (h _) hr s hs
  | keygenEnroll b k n => exact enroll_sent (h _) hr s hs
  | reenroll o k n =>
    simp only [step] at hr
    unfold reenroll at hr
    split at hr
    · cases hr; simp at hs
    · cases hr; simp at hs
    · split at hr
      · cases hr; simp at hs
      · split at hr
        · cases hr; simp at hs
        · split at hr
          · cases hr; simp at hs
          · split at hr
            · cases hr; simp at hs
            · split at hr
              · cases hr; simp at hs
              · split at hr
                · cases hr
                · next ht =>
                  cases hr
                  exact twice_sent (pkcs10_sent _ _ (h _)) ht s hs
  | enrollCsr o k n => exact csr_sent hr s hs
  | keygenCsr o k n => exact csr_sent hr s hs
  | provision b k n1 n2 n => exact provision_sent (h _) hf hr s hs
  | getCacerts n => exact cacerts_sent hf hr s hs
  | copyCacerts => rw [copyCacerts_sent hr] at hs; simp at hs
  | getCsrattrs n => exact attrs_sent hf hr s hs
  | copyCert =>
    simp only [step, copyCert] at hr
    repeat' split at hr
    all_goals cases hr; simp at hs
  | copyKey =>
    simp only [step, copyKey] at hr
    repeat' split at hr
    all_goals cases hr; simp at hs
  | setAuth p k =>
    simp only [step, setAuth] at hr
    repeat' split at hr
    all_goals cases hr; simp at hs
  | basicHint => cases hr; simp at hs
  | forcePop => cases hr; simp at hs
  | unforcePop => cases hr; simp at hs
where
  csr_sent {k : Kind} {o : Option Csr} {key : Option Nat} {n : Conn × Conn}
      (hr : enrollCsr lib cfg k o key n c = some (ret, c')) : ∀ s ∈ ret.sent, Q s := by
    intro s hs
    unfold enrollCsr at hr
    split at hr
    · cases hr; simp at hs
    · split at hr
      · cases hr; simp at hs
      · split at hr
        · cases hr; simp at hs
        · split at hr
          · cases hr
          · next ht =>
            cases hr
            cases key with
            | some key => exact twice_sent (pkcs10_sent _ _ (h _)) ht s hs
            | none => exact twice_sent (h _) ht s hs
end

/-! ## The bytes -/

theorem put_keeps {b b' : List (Option Nat)} {n m : Nat} {t : List Nat} (hm : m ≤ n)
    (h : ClientReq.put b n t = some b') : b'.take m = b.take m := by
  unfold ClientReq.put at h
  split at h
  · cases h
    rw [List.take_append_of_le_length (by simp; omega), List.take_take, Nat.min_eq_left hm]
  · cases h

theorem snprintf_keeps {b b' : List (Option Nat)} {n m : Nat} {z : Int} {t : List Nat} (hm : m ≤ n)
    (h : ClientReq.snprintf b n z t = some b') : b'.take m = b.take m := by
  unfold ClientReq.snprintf at h
  split at h
  · cases h; rfl
  · split at h <;> exact put_keeps hm h

theorem copy_keeps {b b' : List (Option Nat)} {n m : Nat} {t : List Nat} (hm : m ≤ n)
    (h : ClientReq.copyData b n t = some b') : b'.take m = b.take m := by
  unfold ClientReq.copyData at h
  split at h
  · cases h; rfl
  · exact put_keeps hm h

/-- What is sent begins with the header. -/
theorem sendPost_header {h data : List Nat} {b : List (Option Nat)}
    (hs : ClientReq.sendPost h data = .sent b) : h ≠ [] ∧ h.map some <+: b := by
  unfold ClientReq.sendPost at hs
  split at hs
  · cases hs
  · next hne =>
    refine ⟨hne, ?_⟩
    split at hs
    · cases hs
    · next b1 h1 =>
      split at hs
      · cases hs
      · next b2 h2 =>
        split at hs
        · cases hs
        · next b3 h3 =>
          unfold ClientReq.sslWrite at hs
          split at hs
          · cases hs
            have e : b3.take h.length = h.map some := by
              rw [snprintf_keeps (by omega) h3, copy_keeps (by omega) h2,
                snprintf_keeps (Nat.le_refl _) h1]
              unfold ClientReq.freshBuf
              rw [List.take_append_of_le_length (by simp), List.take_of_length_le (by simp)]
            rw [← e]
            exact List.take_prefix_take_left (by omega)
          · cases hs

/-- The text of a request up to the name of the server: the method, the path of the operation, the
agent, and the server's name and port. -/
def greeting (meth ua host : List Nat) (port : Nat) (seg : Option (List Nat)) (op : EstUri.Op) :
    List Nat :=
  meth ++ ([47, 46, 119, 101, 108, 108, 45, 107, 110, 111, 119, 110, 47, 101, 115, 116] ++ ((match seg with | some s => 47 :: s | none => []) ++
    47 :: (ClientReq.uriName op ++ ([32, 72, 84, 84, 80, 47, 49, 46, 49, 13, 10, 85, 115, 101, 114, 45, 65, 103, 101, 110, 116, 58, 32] ++ (ua ++
      ([13, 10, 67, 111, 110, 110, 101, 99, 116, 105, 111, 110, 58, 32, 99, 108, 111, 115, 101, 13, 10, 72, 111, 115, 116, 58, 32] ++ (host ++ 58 :: (decimal port ++ [13, 10]))))))))

/-- The request is addressed to this server. -/
def Addressed (ua host : List Nat) (port : Nat) (seg : Option (List Nat)) (x : Sent) : Prop :=
  ∃ meth, (meth = [71, 69, 84, 32] ∨ meth = [80, 79, 83, 84, 32]) ∧ (greeting meth ua host port seg x.op).map some <+: x.bytes

/-- The greeting has room in the buffer. -/
def Roomy (cfg : ClientReq.Cfg) : Prop :=
  cfg.ua.length + cfg.server.length + (cfg.seg.getD []).length + (decimal cfg.port).length ≤ 4000

theorem uriName_short (op : EstUri.Op) : (ClientReq.uriName op).length ≤ 20 := by
  cases op <;> decide

theorem greeting_short (cfg : ClientReq.Cfg) (h : Roomy cfg) (meth : List Nat) (hm : meth.length ≤ 5)
    (op : EstUri.Op) : (greeting meth cfg.ua cfg.server cfg.port cfg.seg op).length ≤ 5124 := by
  have := uriName_short op
  unfold Roomy at h
  unfold greeting
  cases hs : cfg.seg <;> rw [hs] at h <;> simp at h ⊢ <;> omega

theorem post_greeting (cfg : ClientReq.Cfg) (op : EstUri.Op) (n : Nat) :
    greeting [80, 79, 83, 84, 32] cfg.ua cfg.server cfg.port cfg.seg op <+: ClientReq.postText cfg op n := by
  unfold greeting ClientReq.postText ClientReq.path ClientReq.common
  refine ⟨[65, 99, 99, 101, 112, 116, 58, 32, 42, 47, 42, 13, 10] ++ ([67, 111, 110, 116, 101, 110, 116, 45, 84, 121, 112, 101, 58, 32, 97, 112, 112, 108, 105, 99, 97, 116, 105, 111, 110, 47, 112, 107, 99, 115, 49, 48, 13, 10, 67, 111, 110, 116, 101, 110, 116, 45, 76, 101, 110, 103, 116, 104, 58, 32] ++
    (decimal n ++ [13, 10])), ?_⟩
  cases cfg.seg <;> simp

theorem get_greeting (cfg : ClientReq.Cfg) (op : EstUri.Op) :
    greeting [71, 69, 84, 32] cfg.ua cfg.server cfg.port cfg.seg op <+: ClientReq.getText cfg op := by
  unfold greeting ClientReq.getText ClientReq.path ClientReq.common
  refine ⟨[65, 99, 99, 101, 112, 116, 58, 32, 42, 47, 42, 13, 10], ?_⟩
  cases cfg.seg <;> simp

theorem prefix_take {a t : List Nat} {n : Nat} (h : a <+: t) (hl : a.length ≤ n) : a <+: t.take n := by
  obtain ⟨r, rfl⟩ := h
  rw [List.take_append]
  rw [List.take_of_length_le hl]
  exact List.prefix_append _ _

theorem addAuth_prefix {t : List Nat} {a : ClientReq.Auth} (h : ClientReq.addAuth t a ≠ []) :
    t <+: ClientReq.addAuth t a := by
  cases a with
  | none => exact List.prefix_refl _
  | value v => exact List.prefix_append _ _
  | failed => exact absurd rfl h

theorem map_prefix {a b : List Nat} (h : a <+: b) : a.map some <+: b.map some := by
  obtain ⟨r, rfl⟩ := h
  exact ⟨r.map some, by simp⟩

theorem enrollReq_addressed (lib : Lib) (cfg : ClientReq.Cfg) (hr : Roomy cfg) (k : Kind) :
    AllSent (Addressed cfg.ua cfg.server cfg.port cfg.seg) (enrollReq lib cfg k) := by
  intro c u csr r h s hs
  unfold enrollReq at h
  split at h
  · cases h
  · cases h; simp at hs
  · next b hb =>
    have hsb : s.bytes = b ∧ s.op = k.uri := by
      split at h
      · cases h; simp at hs; subst hs; exact ⟨rfl, rfl⟩
      · cases h; simp at hs; subst hs; exact ⟨rfl, rfl⟩
      · cases h; simp at hs; subst hs; exact ⟨rfl, rfl⟩
      · split at h
        · cases h
        · split at h <;> cases h <;> simp at hs <;> subst hs <;> exact ⟨rfl, rfl⟩
    obtain ⟨h1, h2⟩ := sendPost_header hb
    refine ⟨[80, 79, 83, 84, 32], .inr rfl, ?_⟩
    rw [hsb.1, hsb.2]
    refine List.IsPrefix.trans (map_prefix ?_) h2
    unfold ClientReq.buildPost at h1 ⊢
    simp only at h1 ⊢
    split at h1
    · exact absurd rfl h1
    · next hc =>
      rw [if_neg hc]
      exact List.IsPrefix.trans (prefix_take (post_greeting _ _ _)
        (greeting_short cfg hr _ (by decide) _)) (addAuth_prefix h1)

theorem fetch_addressed (lib : Lib) (cfg : ClientReq.Cfg) (hr : Roomy cfg) :
    AllFetched lib cfg (Addressed cfg.ua cfg.server cfg.port cfg.seg) := by
  intro uri op c u e bd c' sent h s hs
  unfold fetch at h
  split at h
  · cases h
  · cases h; simp at hs
  · next b hb =>
    have hsb : s.bytes = b ∧ s.op = uri := by
      simp only at h
      cases hu : u.reply <;> rw [hu] at h <;> cases h <;> simp at hs <;> subst hs <;> exact ⟨rfl, rfl⟩
    obtain ⟨h1, h2⟩ := sendPost_header hb
    refine ⟨[71, 69, 84, 32], .inl rfl, ?_⟩
    rw [hsb.1, hsb.2]
    refine List.IsPrefix.trans (map_prefix ?_) h2
    unfold ClientReq.buildGet at h1 ⊢
    simp only at h1 ⊢
    have hp := prefix_take (get_greeting cfg uri) (greeting_short cfg hr [71, 69, 84, 32] (by decide) uri)
    by_cases hu : uri = .csrattrs
    · rw [if_pos hu] at h1 ⊢
      split at h1
      · exact absurd rfl h1
      · next hc =>
        rw [if_neg hc]
        exact List.IsPrefix.trans hp (addAuth_prefix h1)
    · rw [if_neg hu] at h1 ⊢
      split at h1
      · exact absurd rfl h1
      · next hc =>
        rw [if_neg hc]
        exact hp

theorem step_addressed {lib : Lib} {cfg : ClientReq.Cfg} (hr : Roomy cfg) {c c' : Client} {cmd : Cmd}
    {ret : Ret} (h : step lib cfg c cmd = some (ret, c')) :
    ∀ s ∈ ret.sent, Addressed cfg.ua cfg.server cfg.port cfg.seg s :=
  step_sent (fun k => enrollReq_addressed lib cfg hr k) (fetch_addressed lib cfg hr) h

end Verif.Flow

namespace Verif.Sess
open Verif.Host (Inet)
open Verif.Tls (NameFits)
open Verif.Flow (Addressed Roomy)

/-- The port that the application named last with success; `q` is the one before. -/
def lastPort (q : Nat) (l : List (Op × Out)) : Nat :=
  l.foldl (fun q x =>
    match x.1 with
    | .setServer _ p => if x.2.ret.err = .none then p else q
    | .call .. => q) q

/-- C105: which servers can be named, and that a refused call changes nothing. -/
theorem C105_set_server (I : Inet) (s : St) (host : List Nat) (port : Nat) :
    ∃ o s', step I s (.setServer host port) = some (o, s') ∧ o.made = [] ∧ o.ret.sent = [] ∧
      (o.ret.err = .none ↔ s.client.ready = true ∧ 1 ≤ port ∧ port ≤ 65535 ∧ host.length ≤ 255) ∧
      (o.ret.err ≠ .none → s' = s) ∧
      (o.ret.err = .none → s'.tls.host = host ∧ s'.tls.port = port ∧ s'.client = s.client ∧
        s'.sess = s.sess) := by
  refine ⟨_, _, rfl, rfl, rfl, ?_⟩
  unfold setServer
  cases hr : s.client.ready
  · simp
  · simp only [Bool.not_true, Bool.false_eq_true, if_false]
    split
    · simp; omega
    · split
      · simp; omega
      · simp; omega

/-- The two copies of the server's name agree. -/
structure Agrees (ua : List Nat) (s : St) : Prop where
  host : s.req.server = s.tls.host
  port : s.req.port = s.tls.port
  seg : s.req.seg = none
  ua : s.req.ua = ua
  short : s.tls.host.length ≤ 255
  port16 : s.tls.port ≤ 65535
  noSrp : s.tls.srp = false

theorem decimal_short (n : Nat) (h : n ≤ 65535) : (ClientResp.decimal n).length ≤ 5 := by
  have : ∀ k n, n < 10 ^ (k + 1) → (ClientResp.decimal n).length ≤ k + 1 := by
    intro k
    induction k with
    | zero => intro n hn; rw [ClientResp.decimal, if_pos (by simpa using hn)]; simp
    | succ k ih =>
      intro n hn
      rw [ClientResp.decimal]
      split
      · simp
      · have := ih (n / 10) (by rw [Nat.pow_succ] at hn; omega)
        simp
        omega
  exact this 4 n (by omega)

theorem agrees_roomy {ua : List Nat} {s : St} (h : Agrees ua s) (hu : ua.length ≤ 3000) : Roomy s.req := by
  have := decimal_short s.req.port (by rw [h.port]; exact h.port16)
  have := h.short
  unfold Roomy
  rw [h.seg, h.host, h.ua]
  simp
  omega

/-- One step keeps the copies together. -/
theorem step_agrees {I : Inet} {ua : List Nat} {s s' : St} {op : Op} {o : Out} (h : Agrees ua s)
    (hs : step I s op = some (o, s')) : Agrees ua s' ∧
      s'.tls.host = lastServer s.tls.host [(op, o)] ∧ s'.tls.port = lastPort s.tls.port [(op, o)] := by
  cases op with
  | setServer host port =>
    simp only [step, Option.some.injEq, Prod.mk.injEq] at hs
    obtain ⟨rfl, rfl⟩ := hs
    simp only [lastServer, lastPort, List.foldl_cons, List.foldl_nil]
    unfold setServer
    split
    · simp [h]
    · split
      · simp [h]
      · split
        · simp [h]
        · refine ⟨⟨rfl, rfl, h.seg, h.ua, ?_, ?_, h.noSrp⟩, by simp, by simp⟩
          · show host.length ≤ 255; omega
          · show port ≤ 65535; omega
  | call lib cmd hh =>
    simp only [step] at hs
    split at hs
    · cases hs
    · split at hs
      · cases hs
      · simp only [Option.some.injEq, Prod.mk.injEq] at hs
        obtain ⟨rfl, rfl⟩ := hs
        exact ⟨⟨h.host, h.port, h.seg, h.ua, h.short, h.port16, h.noSrp⟩, by simp [lastServer],
          by simp [lastPort]⟩

theorem run_addressed (I : Inet) (ua : List Nat) (hu : ua.length ≤ 3000) (ops : List Op) :
    ∀ (s : St), Agrees ua s → ∀ (outs : List Out) (s' : St), run I s ops = some (outs, s') →
      ∀ (i : Nat) (o : Out), outs[i]? = some o → ∀ x ∈ o.ret.sent,
        Addressed ua (lastServer s.tls.host ((ops.zip outs).take i))
          (lastPort s.tls.port ((ops.zip outs).take i)) none x := by
  induction ops with
  | nil =>
    intro s _ outs s' h i o ho
    cases h
    simp at ho
  | cons op ops ih =>
    intro s ha outs s' h i o ho x hx
    unfold run at h
    split at h
    · cases h
    · next o1 s1 h1 =>
      split at h
      · cases h
      · next os s2 h2 =>
        cases h
        obtain ⟨a1, a2, a3⟩ := step_agrees ha h1
        cases i with
        | zero =>
          simp only [List.getElem?_cons_zero, Option.some.injEq] at ho
          subst ho
          simp only [List.take_zero, lastServer, lastPort, List.foldl_nil]
          cases op with
          | setServer hn p =>
            simp only [step, Option.some.injEq, Prod.mk.injEq] at h1
            obtain ⟨rfl, rfl⟩ := h1
            simp at hx
          | call lib cmd hh =>
            simp only [step] at h1
            split at h1
            · cases h1
            · split at h1
              · cases h1
              · next hf =>
                simp only [Option.some.injEq, Prod.mk.injEq] at h1
                obtain ⟨rfl, rfl⟩ := h1
                have := Flow.step_addressed (agrees_roomy ha hu) hf x hx
                rw [ha.ua, ha.host, ha.port, ha.seg] at this
                exact this
        | succ i =>
          simp only [List.getElem?_cons_succ] at ho
          have := ih s1 a1 os s' h2 i o ho x hx
          rw [a2, a3] at this
          simpa [lastServer, lastPort] using this

/-- C105: every request of a new context names, in its `Host` line, the server and the port that
the application named last; and the certificate of every connection used bears that name. -/
theorem C105_requests_name_the_server (I : Inet) (manual : Option (Nat → Nat → Int)) (ua ta : List Nat)
    (hu : ua.length ≤ 3000) (ops : List Op) (outs : List Out) (s' : St)
    (h : run I (.init manual ua ta) ops = some (outs, s')) (i : Nat) (o : Out) (ho : outs[i]? = some o) :
    (∀ x ∈ o.ret.sent, Addressed ua (lastServer [] ((ops.zip outs).take i))
      (lastPort 0 ((ops.zip outs).take i)) none x) ∧
    (o.ret.sent ≠ [] → ∃ m ∈ o.made, m.up = true) ∧
    ∀ m ∈ o.made, m.up = true →
      NameFits I false (lastServer [] ((ops.zip outs).take i)) m.cert ∧
      Proved manual ((outs.take (i + 1)).flatMap (·.made)) m.cert := by
  obtain ⟨h1, h2⟩ := C105_only_to_the_named_server I (.init manual ua ta)
    ⟨rfl, by show (3 : Nat) ≠ 0; decide⟩ rfl ops outs s'
    h i o ho
  refine ⟨run_addressed I ua hu ops (.init manual ua ta) ⟨rfl, rfl, rfl, rfl, Nat.zero_le _,
    Nat.zero_le _, rfl⟩ outs s' h i o ho, h1, fun m hm hup => ?_⟩
  obtain ⟨q1, q2, q3⟩ := h2 m hm hup
  rw [← show m.host = lastServer [] ((ops.zip outs).take i) from q1]
  exact ⟨q2, q3⟩

/-! ## Examples -/

/-- The first request after the second server was named. -/
example : ((run Host.exampleInet exSt exOps).map fun p => (p.1.getD 3 ⟨[], { err := .none }⟩).ret.sent.map
      fun x => x.bytes.take 109) =
    some [[80, 79, 83, 84, 32, 47, 46, 119, 101, 108, 108, 45, 107, 110, 111, 119, 110, 47, 101, 115, 116, 47, 115, 105, 109, 112, 108, 101, 114, 101, 101, 110, 114, 111, 108, 108, 32, 72, 84, 84, 80, 47, 49, 46, 49, 13, 10, 85, 115, 101, 114, 45, 65, 103, 101, 110, 116, 58, 32, 69, 83, 84, 13, 10, 67, 111, 110, 110, 101, 99, 116, 105, 111, 110, 58, 32, 99, 108, 111, 115, 101, 13, 10, 72, 111, 115, 116, 58, 32, 98, 46, 101, 120, 97, 109, 112, 108, 101, 46, 99, 111, 109, 58, 56, 52, 52, 51, 13, 10].map some] := by
  decide +kernel

/-- Names and ports that are refused. -/
example : (step Host.exampleInet exSt (.setServer [97] 0)).map (·.1.ret.err) = some .invalidPortNum ∧
    (step Host.exampleInet exSt (.setServer [97] 65536)).map (·.1.ret.err) = some .invalidPortNum ∧
    (step Host.exampleInet exSt (.setServer (List.replicate 256 97) 1)).map (·.1.ret.err) =
      some .invalidServerName ∧
    (step Host.exampleInet exSt (.setServer [97] 443)).map (·.1.ret.err) = some .none := by
  decide +kernel

end Verif.Sess
